/-
`nuto/mechanics/mesh/MeshGmsh.cpp`: import of gmsh files.

Simplifications: real numbers instead of `double`; the text of the file is already split
into sections, names and numbers (`GmshFileContent`), only the element section of the
binary format is read from the stream of `int`s; a file that ends early is undefined (the
code goes on with uninitialised values); `int` does not overflow.  A node is its position
in `mMesh.Nodes`, an element its position in `mMesh.Elements`.  The nodes of the Lobatto
interpolation of order two are a parameter.
-/
import Verif.Model.Group
import Verif.Model.Interpolation
import Verif.Model.Lobatto
import Verif.Model.Jacobian

namespace NuTo

namespace Gmsh

/-- `nuto/mechanics/mesh/MeshGmsh.cpp` 149-156: the table of `NumNodes`. -/
def numNodesTable : List Nat :=
  [0, 2, 3, 4, 4, 8, 6, 5, 3, 6, 9, 10, 27, 18, 14, 1, 8, 20, 15, 13, 9, 10, 12, 15, 15, 21, 4, 5,
   6, 20, 26, 56]

/-- `nuto/mechanics/mesh/MeshGmsh.cpp` 149-156: `NumNodes`; an index out of range is
undefined. -/
def numNodes (type : Int) : Res Nat :=
  if 0 ≤ type then
    match numNodesTable[type.toNat]? with
    | some n => .ok n
    | none => .ub
  else .ub

/-- `nuto/mechanics/mesh/MeshGmsh.cpp` 42-48: `GmshElement`. -/
structure Element where
  id : Int := 0
  type : Int := 0
  tags : List Int := []
  nodes : List Int := []
deriving DecidableEq, Repr

/-- `rFile.read` of one `int`. -/
def readInt : List Int → Res (Int × List Int)
  | [] => .ub
  | w :: ws => .ok (w, ws)

/-- `rFile.read` of one `int` for each entry of a vector of size `n`. -/
def readInts : Nat → List Int → Res (List Int × List Int)
  | 0, ws => .ok ([], ws)
  | n + 1, ws => do
    let (w, ws) ← readInt ws
    let (r, ws) ← readInts n ws
    pure (w :: r, ws)

/-- The variables of `ReadElementsBinary` that change in the loops. -/
structure ReadState where
  elements : List Element
  elemCount : Nat
  rest : List Int
deriving DecidableEq

/-- `nuto/mechanics/mesh/MeshGmsh.cpp` 266-284: the body of the loop over the elements of
one header; the last line is `elemCount += indexH`. -/
def readStep (type : Int) (numTags numElmNodes : Nat) (s : ReadState) (indexH : Nat) :
    Res ReadState :=
  if s.elemCount < s.elements.length then do
    let (id, ws) ← readInt s.rest
    let (tags, ws) ← readInts numTags ws
    let (nodes, ws) ← readInts numElmNodes ws
    pure ⟨s.elements.set s.elemCount ⟨id, type, tags, nodes⟩, s.elemCount + indexH, ws⟩
  else .ub

/-- `nuto/mechanics/mesh/MeshGmsh.cpp` 257-285: one header with its elements.  A negative
number of tags is an exception of `resize`, a negative number of elements is none. -/
def readBlock (s : ReadState) : Res ReadState := do
  let (type, ws) ← readInt s.rest
  let (numElmFollow, ws) ← readInt ws
  let (numTags, ws) ← readInt ws
  let n ← numNodes type
  if numTags < 0 ∧ 0 < numElmFollow then .throw
  else
    Res.foldlM (readStep type numTags.toNat n) ⟨s.elements, s.elemCount, ws⟩
      (List.range numElmFollow.toNat)

/-- `nuto/mechanics/mesh/MeshGmsh.cpp` 236-286: the loop
`for (elemCount = 0; elemCount < numElements; elemCount++)`.  Every iteration increases
`elemCount`, so `numElements` iterations are enough. -/
def readLoop : Nat → ReadState → Res ReadState
  | 0, s => if s.elemCount < s.elements.length then .ub else .ok s
  | fuel + 1, s =>
    if s.elemCount < s.elements.length then do
      let s ← readBlock s
      readLoop fuel { s with elemCount := s.elemCount + 1 }
    else .ok s

/-- `nuto/mechanics/mesh/MeshGmsh.cpp` 224-290: `ReadElementsBinary` after the number of
elements has been read. -/
def readElementsBinary (numElements : Nat) (words : List Int) : Res (List Element) := do
  let s ← readLoop numElements ⟨List.replicate numElements {}, 0, words⟩
  pure s.elements

section Interpolation

variable {K : Type} [Field K] [LinearOrder K]

/-- `InterpolationTrussLobatto` as an interpolation. -/
def trussLobatto (nodes : List K) : Interpolation K :=
  ⟨1, nodes.length, nodes.map ([·]), fun x => Lobatto.shape nodes (x 0),
    fun x => (Lobatto.deriv nodes (x 0)).map ([·])⟩

/-- `InterpolationQuadLobatto` as an interpolation. -/
def quadLobatto (nodes : List K) : Interpolation K :=
  ⟨2, nodes.length * nodes.length,
    (List.range (nodes.length * nodes.length)).map fun (i : Nat) =>
      [Lobatto.node nodes (i % nodes.length), Lobatto.node nodes (i / nodes.length)],
    Lobatto.quadShape nodes, Lobatto.quadDeriv nodes⟩

/-- `InterpolationBrickLobatto` as an interpolation. -/
def brickLobatto (nodes : List K) : Interpolation K :=
  ⟨3, nodes.length * nodes.length * nodes.length,
    (List.range (nodes.length * nodes.length * nodes.length)).map fun (i : Nat) =>
      [Lobatto.node nodes (i % nodes.length),
       Lobatto.node nodes (i % (nodes.length * nodes.length) / nodes.length),
       Lobatto.node nodes (i / (nodes.length * nodes.length))],
    Lobatto.brickShape nodes, Lobatto.brickDeriv nodes⟩

open NuTo.Interpolation in
/-- `nuto/mechanics/mesh/MeshGmsh.cpp` 352-388: `CreateElementInterpolation`; `lobatto2` are
the nodes of the Lobatto interpolation of order two. -/
def interpolation (lobatto2 : List K) (type : Int) : Res (Interpolation K) :=
  match type with
  | 1 => .ok trussLinear
  | 2 => .ok triangleLinear
  | 3 => .ok quadLinear
  | 4 => .ok tetrahedronLinear
  | 5 => .ok brickLinear
  | 6 => .ok prismLinear
  | 7 => .ok pyramidLinear
  | 8 => .ok (trussLobatto lobatto2)
  | 9 => .ok triangleQuadratic
  | 10 => .ok (quadLobatto lobatto2)
  | 11 => .ok tetrahedronQuadratic
  | 12 => .ok (brickLobatto lobatto2)
  | 13 => .ok prismQuadratic
  | 16 => .ok quadSerendipity
  | _ => .throw

end Interpolation

/-- `nodePtrs.at(id)`. -/
def lookup (nodePtrs : Int → Option Nat) (id : Int) : Res Nat :=
  match nodePtrs id with
  | some n => .ok n
  | none => .throw

/-- `elementNodes[i] = old[reordering[i]]` for all `i`. -/
def reorder (reordering : List Nat) (old : List Nat) : Res (List Nat) :=
  (List.range old.length).mapM fun (i : Nat) =>
    match reordering[i]? with
    | none => .ub
    | some j =>
      match old[j]? with
      | none => .ub
      | some n => .ok n

/-- `nuto/mechanics/mesh/MeshGmsh.cpp` 397-425: the node order of one element type. -/
def permuteNodes (type : Int) (old : List Nat) : Res (List Nat) :=
  match type with
  | 8 =>
    match old[1]?, old[2]? with
    | some n1, some n2 => .ok ((old.set 1 n2).set 2 n1)
    | _, _ => .ub
  | 10 => reorder [0, 4, 1, 7, 8, 5, 3, 6, 2] old
  | 12 => reorder [0, 8, 1, 9, 20, 11, 3, 13, 2, 10, 21, 12, 22, 26,
                   23, 15, 24, 14, 4, 16, 5, 17, 25, 18, 7, 19, 6] old
  | _ => .ok old

/-- `nuto/mechanics/mesh/MeshGmsh.cpp` 390-427: `GetElementNodes`. -/
def elementNodes (nodePtrs : Int → Option Nat) (e : Element) : Res (List Nat) := do
  let old ← e.nodes.mapM (lookup nodePtrs)
  permuteNodes e.type old

/-- `nuto/mechanics/mesh/MeshGmsh.cpp` 88-94: `CheckJacobian` of an element with the given
node coordinates (`ExtractNodeValues` puts them one after the other); the derivatives of the
shape functions are taken at the natural coordinates zero. -/
noncomputable def checkJacobian (I : Interpolation ℝ) (coords : List (List ℝ)) : Res Unit := do
  let jac ← Jacobian.make coords.flatten I.dim (I.deriv fun _ => 0)
  if jac.det ≤ 0 then .throw else pure ()

end Gmsh

end NuTo
