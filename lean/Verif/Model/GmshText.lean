import Verif.Model.GmshGroups
import Mathlib.Algebra.Order.Ring.Rat
import Mathlib.Algebra.Field.Rat

/-!
Model of the reading of a gmsh text file (/repo/nuto/mechanics/mesh/MeshGmsh.cpp 58-131, 158-203, 293-349, 533-550).

A file is a list of characters.  Reading follows the C++ library: `operator>>` needs a stream that is `good()`, skips white space and
reads the longest text that can be a number; if there is none the value becomes 0 and the stream fails; on a stream that is not
`good()` the variable keeps its value.  Numbers with a fraction are rational (the code rounds to the nearest double; overflow of
doubles, and lack of memory, are not modelled).  A file that cannot be opened raises an exception (lines 538-539), not part of the model.
-/
namespace NuTo
namespace GmshText

open Gmsh

/-- `std::ifstream`: the characters left, `eofbit` and `failbit` -/
structure Stream where
  rest : List Char
  eof : Bool := false
  fail : Bool := false
deriving DecidableEq

/-- the characters `std::isspace` accepts in the "C" locale -/
def space (c : Char) : Bool := c = ' ' ∨ c = '\t' ∨ c = '\n' ∨ c = '\x0b' ∨ c = '\x0c' ∨ c = '\r'

/-- `std::getline` into an empty string: the text up to the end of line -/
def getline (s : Stream) : List Char × Stream :=
  if s.eof || s.fail then ([], { s with fail := true })
  else
    let line := s.rest.takeWhile (· != '\n')
    match s.rest.dropWhile (· != '\n') with
    | [] => (line, ⟨[], true, line.isEmpty⟩)
    | _ :: r => (line, ⟨r, false, false⟩)

/-- The `sentry` of `operator>>`: `none` if nothing can be read -/
def skip (s : Stream) : Stream × Bool :=
  if s.eof || s.fail then ({ s with fail := true }, false)
  else
    let r := s.rest.dropWhile space
    if r = [] then (⟨[], true, true⟩, false) else (⟨r, false, false⟩, true)

/-- value of a decimal digit -/
def digitVal (c : Char) : Nat := c.toNat - 48

/-- value of a sequence of digits -/
def number (l : List Char) : Nat := l.foldl (fun n c => 10 * n + digitVal c) 0

/-- a leading sign -/
def takeSign : List Char → Bool × List Char
  | '-' :: r => (true, r)
  | '+' :: r => (false, r)
  | r => (false, r)

/-- the number with a sign -/
def signed (neg : Bool) (n : Nat) : Int := if neg then -(n : Int) else n

/-- the range of `int` -/
def inRange (i : Int) : Bool := -2147483648 ≤ i && i ≤ 2147483647

/-- `rFile >> i` for an `int`: sign and digits; without digits the value is 0 and the stream fails; a value out of range fails too and
becomes the nearest value in the range; `none` if the variable is not written -/
def extractInt (s : Stream) : Option Int × Stream :=
  let (s, ok) := skip s
  if ok then
    let sg := takeSign s.rest
    let d := sg.2.takeWhile Char.isDigit
    let r := sg.2.dropWhile Char.isDigit
    let v := signed sg.1 (number d)
    if d = [] then (some 0, ⟨r, r.isEmpty, true⟩)
    else if inRange v then (some v, ⟨r, r.isEmpty, false⟩)
    else (some (if sg.1 then -2147483648 else 2147483647), ⟨r, r.isEmpty, true⟩)
  else (none, s)

/-- the fraction after a decimal point -/
def takeFraction : List Char → List Char × List Char
  | '.' :: r => r.span Char.isDigit
  | r => ([], r)

/-- the exponent after a mantissa: its value, `none` if there is an `e` without digits, and the rest -/
def takeExponent : List Char → Option Int × List Char
  | 'e' :: r | 'E' :: r =>
    let s := takeSign r
    let d := s.2.span Char.isDigit
    (if d.1 = [] then none else some (signed s.1 (number d.1)), d.2)
  | r => (some 0, r)

/-- `rFile >> x` for a `double`: sign, digits, fraction, exponent -/
def extractDouble (s : Stream) : Option ℚ × Stream :=
  let (s, ok) := skip s
  if ok then
    let sg := takeSign s.rest
    let i := sg.2.span Char.isDigit
    let f := takeFraction i.2
    if i.1 ++ f.1 = [] then (some 0, ⟨f.2, f.2.isEmpty, true⟩)
    else
      let e := takeExponent f.2
      match e.1 with
      | none => (some 0, ⟨e.2, e.2.isEmpty, true⟩)
      | some k =>
        let v : ℚ := number (i.1 ++ f.1) * 10 ^ (k - f.1.length)
        (some (if sg.1 then -v else v), ⟨e.2, e.2.isEmpty, false⟩)
  else (none, s)

/-- `rFile >> word` for a string -/
def extractWord (s : Stream) : List Char × Stream :=
  let (s, ok) := skip s
  if ok then
    let r := s.rest.dropWhile fun c => !space c
    (s.rest.takeWhile fun c => !space c, ⟨r, r.isEmpty, false⟩)
  else ([], s)

/-- `std::stoi`: white space, sign and digits; anything after them is ignored, no digits or a value out of range throw -/
def stoi (line : List Char) : Res Int :=
  let sg := takeSign (line.dropWhile space)
  let d := sg.2.takeWhile Char.isDigit
  let v := signed sg.1 (number d)
  if d = [] then .throw else if inRange v then .ok v else .throw

/-- `CompareLeft`, MeshGmsh.cpp 72-75 -/
def compareLeft (long short : List Char) : Bool := long.take short.length == short

/-- `ExpectNextLineToBe`, MeshGmsh.cpp 77-83 -/
def expect (s : Stream) (expected : List Char) : Res Stream :=
  let l := getline s
  if compareLeft l.1 expected then .ok l.2 else .throw

/-- The sections of a file: `GmshFileContent`, MeshGmsh.cpp 58-65 (the dimension is a function of the nodes, line 174) -/
structure Content where
  nodes : List (NodeRecord ℚ) := []
  elements : List Element := []
  names : List PhysicalName := []

/-- `ReadGmshHeader`, MeshGmsh.cpp 96-131; `header.version` and `binary` have no initial value, reading them unset is undefined.
The binary format is not modelled: the outcome for it is `binary`. -/
def readHeader (binary : Res Stream) (s : Stream) : Res Stream :=
  let (_, s) := getline s
  let (version, s) := extractDouble s
  let (flag, s) := extractInt s
  let (_, s) := extractInt s
  match version, flag with
  | some v, some b =>
    let (_, s) := getline s
    if v < 2 then .throw else if b ≠ 0 then binary else expect s "$EndMeshFormat".toList
  | _, _ => .ub

/-- body of the loop of `ReadNodesASCII`, MeshGmsh.cpp 167-172.  A value that is not read is not used: the stream has failed. -/
def readNode (s : Stream) : NodeRecord ℚ × Stream :=
  let (id, s) := extractInt s
  let (x, s) := extractDouble s
  let (y, s) := extractDouble s
  let (z, s) := extractDouble s
  let (_, s) := getline s
  (⟨id.getD 0, x.getD 0, y.getD 0, z.getD 0⟩, s)

/-- a loop reading `n` records -/
def times {α : Type} (read : Stream → Res (α × Stream)) : Nat → Stream → Res (List α × Stream)
  | 0, s => .ok ([], s)
  | n + 1, s => (read s).bind fun a => (times read n a.2).bind fun r => .ok (a.1 :: r.1, r.2)

/-- the number of records in the first line of a section, MeshGmsh.cpp 161-165, 180-184, 295-299: the constructor of the vector throws
for a negative number -/
def readCount (s : Stream) : Res (Nat × Stream) :=
  let l := getline s
  (stoi l.1).bind fun n => if n < 0 then .throw else .ok (n.toNat, l.2)

/-- `ReadNodesASCII`, MeshGmsh.cpp 158-175 -/
def readNodes (s : Stream) : Res (List (NodeRecord ℚ) × Stream) :=
  (readCount s).bind fun c => (times (fun s => .ok (readNode s)) c.1 c.2).bind fun r =>
    (expect r.2 "$EndNodes".toList).bind fun s => .ok (r.1, s)

/-- `rFile >> tag` for every entry of a vector of size `n`, whose entries are 0 before, MeshGmsh.cpp 192-198 -/
def readInts : Nat → Stream → List Int × Stream
  | 0, s => ([], s)
  | n + 1, s =>
    let (i, s) := extractInt s
    let (r, s) := readInts n s
    (i.getD 0 :: r, s)

/-- body of the loop of `ReadElementsASCII`, MeshGmsh.cpp 187-199: `numTags` has no initial value, `id` and `type` are 0;
`resize` throws for a negative number -/
def readElement (s : Stream) : Res (Element × Stream) :=
  let (id, s) := extractInt s
  let (type, s) := extractInt s
  let (numTags, s) := extractInt s
  match numTags with
  | none => .ub
  | some n =>
    if n < 0 then .throw
    else
      let (tags, s) := readInts n.toNat s
      (numNodes (type.getD 0)).bind fun m =>
        let (nodes, s) := readInts m s
        let (_, s) := getline s
        .ok (⟨id.getD 0, type.getD 0, tags, nodes⟩, s)

/-- `ReadElementsASCII`, MeshGmsh.cpp 177-203 -/
def readElements (s : Stream) : Res (List Element × Stream) :=
  (readCount s).bind fun c => (times readElement c.1 c.2).bind fun r =>
    (expect r.2 "$EndElements".toList).bind fun s => .ok (r.1, s)

/-- body of the loop of `ReadPhysicalNames`, MeshGmsh.cpp 300-310 -/
def readPhysicalName (s : Stream) : PhysicalName × Stream :=
  let (dimension, s) := extractInt s
  let (id, s) := extractInt s
  let (name, s) := extractWord s
  let (_, s) := getline s
  (⟨dimension.getD 0, id.getD 0, name.filter fun c => c != '"'⟩, s)

/-- `ReadPhysicalNames`, MeshGmsh.cpp 293-314 -/
def readNames (s : Stream) : Res (List PhysicalName × Stream) :=
  (readCount s).bind fun c => (times (fun s => .ok (readPhysicalName s)) c.1 c.2).bind fun r =>
    (expect r.2 "$EndPhysicalNames".toList).bind fun s => .ok (r.1, s)

/-- `ProcessSection`, MeshGmsh.cpp 316-349 -/
def processSection (c : Content) (s : Stream) : Res (Content × Stream) :=
  let (line, s) := getline s
  if line = [] then .ok (c, s)
  else if compareLeft line "$PhysicalNames".toList then (readNames s).bind fun r => .ok ({ c with names := r.1 }, r.2)
  else if compareLeft line "$Nodes".toList then (readNodes s).bind fun r => .ok ({ c with nodes := r.1 }, r.2)
  else if compareLeft line "$Elements".toList then (readElements s).bind fun r => .ok ({ c with elements := r.1 }, r.2)
  else .throw

/-- `while (not file.eof()) ProcessSection(...)`, MeshGmsh.cpp 544-545; `none` if the loop has not ended after `fuel` rounds -/
def sections : Nat → Content → Stream → Option (Res Content)
  | 0, _, _ => none
  | fuel + 1, c, s =>
    if s.eof then some (.ok c)
    else match processSection c s with
      | .ok r => sections fuel r.1 r.2
      | .throw => some .throw
      | .ub => some .ub

/-- `ReadGmshFile`, MeshGmsh.cpp 533-550, up to `CreateMesh` -/
def readFile (binary : Res Stream) (fuel : Nat) (text : List Char) : Option (Res Content) :=
  match readHeader binary ⟨text, false, false⟩ with
  | .ok s => sections fuel {} s
  | .throw => some .throw
  | .ub => some .ub

end GmshText
end NuTo
