import Verif.Model.GmshText

/-!
Model of the reading of gmsh files whose sections are binary, byte by byte (/repo/nuto/mechanics/mesh/MeshGmsh.cpp 96-131, 204-290, 316-349,
533-550).

A byte is a character with a code below 256.  Numbers are stored as on the machines the code is run on: `int` with four bytes, `double`
with eight bytes as in IEEE 754, the lowest byte first.  Doubles are rational numbers; infinity and NaN are not modelled.  The rest is as
in `Verif.Model.GmshText`.
-/
namespace NuTo
namespace GmshBytes

open Gmsh GmshText

/-- `std::istream::read` of `n` bytes: `none` if there are fewer -/
def readBytes (n : Nat) (s : Stream) : Option (List Char) × Stream :=
  if s.eof || s.fail then (none, { s with fail := true })
  else if n ≤ s.rest.length then (some (s.rest.take n), { s with rest := s.rest.drop n })
  else (none, ⟨[], true, true⟩)

/-- the bytes of an unsigned number, the lowest first -/
def natOf (l : List Char) : Nat := l.foldr (fun c n => c.toNat % 256 + 256 * n) 0

/-- an `int` of four bytes -/
def intOf (l : List Char) : Int := if natOf l < 2 ^ 31 then natOf l else (natOf l : Int) - 2 ^ 32

/-- a `double` of eight bytes: 52 bits of the fraction, 11 bits of the exponent, the sign -/
def doubleOf (l : List Char) : ℚ :=
  let frac : Nat := natOf l % 2 ^ 52
  let exp : Nat := natOf l / 2 ^ 52 % 2 ^ 11
  let v : ℚ := if exp = 0 then frac * 2 ^ (-1074 : ℤ) else (2 ^ 52 + frac) * 2 ^ ((exp : ℤ) - 1075)
  if natOf l / 2 ^ 63 % 2 = 1 then -v else v

/-- `ReadGmshHeader`, MeshGmsh.cpp 96-131: whether the file is binary.  `header.version`, `binary` and `one` have no initial value, using
them unset is undefined.  The size of doubles is not used. -/
def readHeader (s : Stream) : Res (Bool × Stream) :=
  let (_, s) := getline s
  let (version, s) := extractDouble s
  let (flag, s) := extractInt s
  let (_, s) := extractInt s
  match version, flag with
  | some v, some b =>
    let (_, s) := getline s
    if v < 2 then .throw
    else if b ≠ 0 then
      match readBytes 4 s with
      | (some l, s) =>
        if intOf l ≠ 1 then .throw
        else (expect (getline s).2 "$EndMeshFormat".toList).bind fun s => .ok (b == 1, s)
      | (none, _) => .ub
    else (expect s "$EndMeshFormat".toList).bind fun s => .ok (false, s)
  | _, _ => .ub

/-- the number of records at the start of a binary section, MeshGmsh.cpp 206-211, 226-231: 0 if nothing is read; the constructor of the
vector throws for a negative number -/
def readCount (s : Stream) : Res (Nat × Stream) :=
  let (n, s) := extractInt s
  let (_, s) := getline s
  if n.getD 0 < 0 then .throw else .ok ((n.getD 0).toNat, s)

/-- body of the loop of `ReadNodesBinary`, MeshGmsh.cpp 213-217.  A value that is not read is not used: the stream has failed. -/
def readNode (s : Stream) : NodeRecord ℚ × Stream :=
  let (i, s) := readBytes 4 s
  let (x, s) := readBytes 24 s
  let l := x.getD []
  (⟨intOf (i.getD []), doubleOf (l.take 8), doubleOf ((l.drop 8).take 8), doubleOf ((l.drop 16).take 8)⟩, s)

/-- `ReadNodesBinary`, MeshGmsh.cpp 204-222 -/
def readNodes (s : Stream) : Res (List (NodeRecord ℚ) × Stream) :=
  (readCount s).bind fun c => (times (fun s => .ok (readNode s)) c.1 c.2).bind fun r =>
    (expect (getline r.2).2 "$EndNodes".toList).bind fun s => .ok (r.1, s)

/-- the `int`s that can be read -/
def words : List Char → List Int
  | a :: b :: c :: d :: l => intOf [a, b, c, d] :: words l
  | _ => []

/-- `ReadElementsBinary`, MeshGmsh.cpp 224-290: the loops are those of `Gmsh.readLoop` on the `int`s that can be read.  As there, data
that end early count as undefined (`element_type`, `num_elm_follow` and `num_tags` have no initial value). -/
def readElements (s : Stream) : Res (List Element × Stream) :=
  (readCount s).bind fun c =>
    let ws := if c.2.eof || c.2.fail then [] else words c.2.rest
    (readLoop c.1 ⟨List.replicate c.1 {}, 0, ws⟩).bind fun r =>
      let s : Stream := { c.2 with rest := c.2.rest.drop (4 * (ws.length - r.rest.length)) }
      (expect (getline s).2 "$EndElements".toList).bind fun s => .ok (r.elements, s)

/-- `ProcessSection`, MeshGmsh.cpp 316-349 -/
def processSection (isBinary : Bool) (c : Content) (s : Stream) : Res (Content × Stream) :=
  let (line, s) := getline s
  if line = [] then .ok (c, s)
  else if compareLeft line "$PhysicalNames".toList then (readNames s).bind fun r => .ok ({ c with names := r.1 }, r.2)
  else if compareLeft line "$Nodes".toList then
    (if isBinary then readNodes s else GmshText.readNodes s).bind fun r => .ok ({ c with nodes := r.1 }, r.2)
  else if compareLeft line "$Elements".toList then
    (if isBinary then readElements s else GmshText.readElements s).bind fun r => .ok ({ c with elements := r.1 }, r.2)
  else .throw

/-- `while (not file.eof()) ProcessSection(...)`, MeshGmsh.cpp 544-545; `none` if the loop has not ended after `fuel` rounds -/
def sections (isBinary : Bool) : Nat → Content → Stream → Option (Res Content)
  | 0, _, _ => none
  | fuel + 1, c, s =>
    if s.eof then some (.ok c)
    else match processSection isBinary c s with
      | .ok r => sections isBinary fuel r.1 r.2
      | .throw => some .throw
      | .ub => some .ub

/-- `ReadGmshFile`, MeshGmsh.cpp 533-550, up to `CreateMesh` -/
def readFile (fuel : Nat) (bytes : List Char) : Option (Res Content) :=
  match readHeader ⟨bytes, false, false⟩ with
  | .ok r => sections r.1 fuel {} r.2
  | .throw => some .throw
  | .ub => some .ub

end GmshBytes
end NuTo
