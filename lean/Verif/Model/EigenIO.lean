import Verif.Model.Basic
import Mathlib.Data.Int.Log
import Mathlib.Data.Rat.Floor
import Mathlib.Algebra.Order.Ring.Rat
import Mathlib.Algebra.Field.Rat

/-!
Model of `/repo/nuto/math/EigenIO.cpp`: matrices written to and read from text files.

A file is its list of characters.  Numbers are rational: writing rounds exactly (half to even, as the C library does with the exact
value of a double), reading gives the exact value of the text (the code rounds it to the nearest double).  Infinities and nans are
not modelled.  Files that cannot be opened raise an exception in both functions (lines 32-33, 54-55); this is not part of the model.
-/
namespace NuTo
namespace EigenIO

/-- the characters `std::isspace` accepts in the "C" locale -/
def space (c : Char) : Bool := c = ' ' ∨ c = '\t' ∨ c = '\n' ∨ c = '\x0b' ∨ c = '\x0c' ∨ c = '\r'

/-! ### writing a number: `std::scientific`, `std::setprecision(12)` -/

/-- rounding to the nearest integer, half to even -/
def roundEven (q : ℚ) : Int :=
  let f := ⌊q⌋
  if q - f < 1 / 2 then f else if 1 / 2 < q - f then f + 1 else if f % 2 = 0 then f else f + 1

/-- decimal exponent and 13 digit mantissa of a positive number: rounding may carry into the next power of ten -/
def sci (x : ℚ) : Int × Nat :=
  let e := Int.log 10 x
  let m := (roundEven (x * 10 ^ (12 - e))).toNat
  if m = 10 ^ 13 then (e + 1, 10 ^ 12) else (e, m)

/-- one decimal digit -/
def digit (n : Nat) : Char := Char.ofNat (48 + n % 10)

/-- `k` decimal digits -/
def digits : Nat → Nat → List Char
  | 0, _ => []
  | k + 1, m => digits k (m / 10) ++ [digit m]

/-- exponent: sign and at least two digits -/
def exponent (e : Int) : List Char :=
  (if e < 0 then '-' else '+') :: digits (max 2 (Nat.log 10 e.natAbs + 1)) e.natAbs

/-- mantissa `d.dddddddddddd` and exponent -/
def unsigned (p : Int × Nat) : List Char :=
  digits 1 (p.2 / 10 ^ 12) ++ '.' :: digits 12 p.2 ++ 'e' :: exponent p.1

/-- `fileStream << scientific << setprecision(12) << setw(15) << x`, EigenIO.cpp 36, 41.  The text has at least 18 characters:
`setw(15)` has no effect. -/
def format (x : ℚ) : List Char :=
  if x = 0 then unsigned (0, 0) else if x < 0 then '-' :: unsigned (sci (-x)) else unsigned (sci x)

/-- one line, EigenIO.cpp 39-44 -/
def line (delim : List Char) : List ℚ → List Char
  | [] => []
  | [x] => format x
  | x :: y :: r => format x ++ delim ++ line delim (y :: r)

/-- all lines, EigenIO.cpp 37-47 -/
def writeFile (delim : List Char) : List (List ℚ) → List Char
  | [] => []
  | [r] => line delim r
  | r :: s :: m => line delim r ++ '\n' :: writeFile delim (s :: m)

/-! ### reading -/

/-- the lines `getline` delivers: characters after the last newline are a line only if there are any -/
def linesGo : List Char → List Char → List (List Char)
  | [], cur => if cur = [] then [] else [cur]
  | c :: r, cur => if c = '\n' then cur :: linesGo r [] else linesGo r (cur ++ [c])

def lines (f : List Char) : List (List Char) := linesGo f []

/-- `istream_iterator<std::string>`, EigenIO.cpp 13-16: the words separated by white space -/
def wordsGo : List Char → List Char → List (List Char)
  | [], cur => if cur = [] then [] else [cur]
  | c :: r, cur => if space c then (if cur = [] then wordsGo r [] else cur :: wordsGo r []) else wordsGo r (cur ++ [c])

def words (l : List Char) : List (List Char) := wordsGo l []

/-- value of a decimal digit -/
def digitVal (c : Char) : Nat := c.toNat - 48

/-- value of a sequence of digits -/
def number (l : List Char) : Nat := l.foldl (fun n c => 10 * n + digitVal c) 0

/-- a leading sign -/
def takeSign : List Char → Bool × List Char
  | '-' :: r => (true, r)
  | '+' :: r => (false, r)
  | r => (false, r)

/-- the fraction after a decimal point -/
def takeFraction : List Char → List Char × List Char
  | '.' :: r => r.span Char.isDigit
  | r => ([], r)

/-- the exponent: `none` if there is an `e` without digits -/
def takeExponent : List Char → Option Int
  | 'e' :: r | 'E' :: r =>
    let s := takeSign r
    let d := s.2.takeWhile Char.isDigit
    if d = [] then none else some (if s.1 then -(number d : Int) else number d)
  | _ => some 0

/-- `std::istringstream(split) >> d`, EigenIO.cpp 22-23: the number at the beginning of the word; 0 if there is none.  (Words
starting with letters accepted by `strtod` for hexadecimal numbers are not modelled.) -/
def parse (w : List Char) : ℚ :=
  let s := takeSign w
  let i := s.2.span Char.isDigit
  let f := takeFraction i.2
  if i.1 ++ f.1 = [] then 0 else match takeExponent f.2 with
    | none => 0
    | some e =>
      let v : ℚ := number (i.1 ++ f.1) * 10 ^ (e - f.1.length)
      if s.1 then -v else v

/-- `StringToDoubles`, EigenIO.cpp 10-28 -/
def stringToDoubles (l : List Char) : List ℚ := (words l).map parse

/-- a matrix with possibly uninitialised entries -/
structure Mat where
  rows : Nat
  cols : Nat
  entry : List (List (Option ℚ))
deriving DecidableEq

/-- one row, EigenIO.cpp 81-85: more values than columns are written out of range, missing ones stay uninitialised -/
def readRow (cols : Nat) (l : List Char) : Res (List (Option ℚ)) :=
  let v := stringToDoubles l
  Res.require (v.length ≤ cols) (.ok (v.map some ++ List.replicate (cols - v.length) none))

/-- `ReadFromFile`, EigenIO.cpp 51-89 -/
def readFile (f : List Char) : Res Mat :=
  let ls := lines f
  let cols := (stringToDoubles (ls.headD [])).length
  (Res.foldlM (fun (m : List (List (Option ℚ))) l => (readRow cols l).bind fun r => .ok (m ++ [r])) [] ls).bind fun m =>
    .ok ⟨ls.length, cols, m⟩

end EigenIO
end NuTo
