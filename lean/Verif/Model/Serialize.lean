/-
`nuto/base/serializeStream`: serialisation of values and matrices.

A value is its object representation, a number below `256 ^ sizeof(T)`.  A binary file is a list of
bytes, a text file a list of characters.  Matrices are the list of their entries in storage order
(column by column) together with their numbers of rows and columns.

Simplifications: files open successfully; formatting of numbers with seventeen digits and `std::stod`
belong to the C++ library: they are parameters (`Codec`).
-/
import Verif.Model.Basic
import Init.Data.Nat.ToString

namespace NuTo.Serialize

/-- The types of `SerializeStreamOut.h` 36-47. -/
inductive Prim where
  | double
  | int
  | bool
deriving DecidableEq, Repr

/-- `sizeof(T)` -/
def Prim.size : Prim → Nat
  | .double => 8
  | .int => 4
  | .bool => 1

/-- What is written: a value, a matrix, a separator. -/
inductive Item where
  | prim (t : Prim) (v : Nat)
  | matrix (t : Prim) (rows cols : Nat) (data : List Nat)
  | separator
deriving DecidableEq, Repr

/-! ### Binary files -/

/-- The bytes of an object of `n` bytes. -/
def toBytes : Nat → Nat → List (Fin 256)
  | 0, _ => []
  | n + 1, v => ⟨v % 256, Nat.mod_lt _ (by decide)⟩ :: toBytes n (v / 256)

/-- The object made of these bytes. -/
def fromBytes : List (Fin 256) → Nat
  | [] => 0
  | b :: t => b.val + 256 * fromBytes t

/-- `std::fstream` opened for reading in binary mode: the remaining bytes and whether no read failed. -/
structure BinIn where
  rest : List (Fin 256)
  good : Bool
deriving DecidableEq

/-- `fstream.read(p, n)` into memory with content `old`, `n = old.length`: a failed stream reads nothing;
a short read stores the available bytes and sets the fail bit. -/
def BinIn.read (s : BinIn) (old : List (Fin 256)) : List (Fin 256) × BinIn :=
  if s.good then
    (s.rest.take old.length ++ old.drop s.rest.length,
      ⟨s.rest.drop old.length, decide (old.length ≤ s.rest.length)⟩)
  else (old, s)

/-- `nuto/base/serializeStream/SerializeStreamOut.h` 61-64, 81-84 and `SerializeStreamOut.cpp` 21-26: the
bytes an item adds to the file.  The separator writes `sizeof(SEPARATOR)` bytes, the size of a pointer,
from a literal of two bytes: undefined. -/
def writeBin : Item → Res (List (Fin 256))
  | .prim t v => .ok (toBytes t.size v)
  | .matrix t _ _ data => .ok (data.flatMap (toBytes t.size))
  | .separator =>
    let sizeofPointer := 8
    let literal : List (Fin 256) := [35, 0]
    if sizeofPointer ≤ literal.length then .ok (literal.take sizeofPointer) else .ub

/-- All items in order. -/
def writeAllBin (items : List Item) : Res (List (Fin 256)) :=
  Res.foldlM (fun (file : List (Fin 256)) (i : Item) => (writeBin i).bind fun b => .ok (file ++ b)) [] items

/-- Split the memory of a matrix into its entries. -/
def chunks (size : Nat) : Nat → List (Fin 256) → List Nat
  | 0, _ => []
  | n + 1, l => fromBytes (l.take size) :: chunks size n (l.drop size)

/-- `nuto/base/serializeStream/SerializeStreamIn.h` 54-63, 83-86 and `SerializeStreamIn.cpp` 16-25: reading
into an existing object: a value, a matrix of its own size, a separator.  The separator reads
`sizeof(SEPARATOR)` bytes into one `char`: undefined. -/
def readBin (s : BinIn) : Item → Res (Item × BinIn)
  | .prim t old =>
    let r := s.read (toBytes t.size old)
    .ok (.prim t (fromBytes r.1), r.2)
  | .matrix t rows cols old =>
    let r := s.read (old.flatMap (toBytes t.size))
    .ok (.matrix t rows cols (chunks t.size (rows * cols) r.1), r.2)
  | .separator =>
    let sizeofPointer := 8
    let sizeofData := 1
    if sizeofPointer ≤ sizeofData then .ok (.separator, s) else .ub

/-- Read into the given objects in order. -/
def readAllBin (s : BinIn) : List Item → Res (List Item × BinIn)
  | [] => .ok ([], s)
  | old :: t => (readBin s old).bind fun r => (readAllBin r.2 t).bind fun q => .ok (r.1 :: q.1, q.2)

/-! ### Text files -/

/-- Formatting and parsing of numbers by the C++ library: `stream << x` (precision seventeen),
`stream << static_cast<double>(x)`, `static_cast<T>(std::stod(line))` which may throw. -/
structure Codec where
  out : Prim → Nat → List Char
  outAsDouble : Prim → Nat → List Char
  parse : Prim → List Char → Res Nat
  typeName : Prim → List Char

/-- `nuto/base/serializeStream/SerializeStreamOut.h` 68: one line of debug info. -/
def header (rows cols : Nat) : List Char :=
  "Matrix ( ".toList ++ Nat.toDigits 10 rows ++ " x ".toList ++ Nat.toDigits 10 cols ++ " ): ".toList

/-- `nuto/base/serializeStream/SerializeStreamOut.h` 65-71, 86-89 and `SerializeStreamOut.cpp` 27-30: the
text an item adds to the file. -/
def writeText (c : Codec) : Item → List Char
  | .prim t v => c.typeName t ++ ['\n'] ++ (c.outAsDouble t v ++ ['\n'])
  | .matrix t rows cols data => header rows cols ++ ['\n'] ++ data.flatMap fun x => c.out t x ++ ['\n']
  | .separator => ['#'] ++ ['\n']

/-- All items in order. -/
def writeAllText (c : Codec) (items : List Item) : List Char := items.flatMap (writeText c)

/-- `std::fstream` opened for reading in text mode: the remaining characters, `good()`. -/
structure TextIn where
  rest : List Char
  good : Bool
deriving DecidableEq

/-- `std::getline(stream, line)`: a stream that is not good leaves the line as it is; without a newline
the remaining characters are taken and the stream is at its end. -/
def TextIn.getline (s : TextIn) (line : List Char) : List Char × TextIn :=
  if s.good then
    let l := s.rest.takeWhile (· ≠ '\n')
    match s.rest.dropWhile (· ≠ '\n') with
    | _ :: t => (l, ⟨t, true⟩)
    | [] => (l, ⟨[], false⟩)
  else (line, s)

/-- `nuto/base/serializeStream/SerializeStreamIn.h` 68-72: the loop over the entries. -/
def readEntries (c : Codec) (t : Prim) : Nat → List Char → TextIn → Res (List Nat × TextIn)
  | 0, _, s => .ok ([], s)
  | n + 1, line, s =>
    let g := s.getline line
    (c.parse t g.1).bind fun v => (readEntries c t n g.1 g.2).bind fun r => .ok (v :: r.1, r.2)

/-- `nuto/base/serializeStream/SerializeStreamIn.h` 64-73, 87-93 and `SerializeStreamIn.cpp` 26-33 -/
def readText (c : Codec) (s : TextIn) : Item → Res (Item × TextIn)
  | .prim t _ =>
    let d := s.getline []
    let g := d.2.getline d.1
    (c.parse t g.1).bind fun v => .ok (.prim t v, g.2)
  | .matrix t rows cols _ =>
    let d := s.getline []
    (readEntries c t (rows * cols) d.1 d.2).bind fun r => .ok (.matrix t rows cols r.1, r.2)
  | .separator =>
    let g := s.getline []
    if g.1 ≠ ['#'] then .throw else .ok (.separator, g.2)

/-- Read into the given objects in order. -/
def readAllText (c : Codec) (s : TextIn) : List Item → Res (List Item × TextIn)
  | [] => .ok ([], s)
  | old :: t => (readText c s old).bind fun r => (readAllText c r.2 t).bind fun q => .ok (r.1 :: q.1, q.2)

end NuTo.Serialize
