/-
`nuto/mechanics/mesh/UnitMeshFem.cpp`: structured meshes of the unit line, square and
cube, and `Transform`.

Simplifications: numbers of divisions are natural numbers (a negative number creates no
node and no element) and do not overflow; exact arithmetic.  A node is its position in
`mesh.Nodes`; an element is the list of its nodes, all elements of a mesh share one
interpolation.  `mesh.Nodes[i]` with an index out of range is undefined.
-/
import Verif.Model.Basic
import Verif.Model.Group
import Mathlib.Algebra.Field.Basic

namespace NuTo

/-- A mesh: coordinates of the nodes, node indices of the elements. -/
structure UnitMesh (K : Type) where
  coordNodes : List (List K)
  elements : List (List Nat)
deriving DecidableEq

namespace UnitMesh

variable {K : Type} [Field K]

/-- `mesh.Nodes[i]`. -/
def ref (coords : List (List K)) (i : Nat) : Res Nat :=
  if i < coords.length then .ok i else .ub

/-- `nuto/mechanics/mesh/UnitMeshFem.cpp` 10-19: `CreateNodes1D`. -/
def nodes1D (numX : Nat) : List (List K) :=
  (List.range (numX + 1)).map fun (iX : Nat) => [(iX : K) / (numX : K)]

/-- `nuto/mechanics/mesh/UnitMeshFem.cpp` 22-33: `CreateNodes2D`. -/
def nodes2D (numX numY : Nat) : List (List K) :=
  (List.range (numY + 1)).flatMap fun (iY : Nat) => (List.range (numX + 1)).map fun (iX : Nat) =>
    [(iX : K) / (numX : K), (iY : K) / (numY : K)]

/-- `nuto/mechanics/mesh/UnitMeshFem.cpp` 86-97: the nodes of `CreateBricks`. -/
def nodes3D (numX numY numZ : Nat) : List (List K) :=
  (List.range (numZ + 1)).flatMap fun (iZ : Nat) => (List.range (numY + 1)).flatMap fun (iY : Nat) =>
    (List.range (numX + 1)).map fun (iX : Nat) =>
      [(iX : K) / (numX : K), (iY : K) / (numY : K), (iZ : K) / (numZ : K)]

/-- `nuto/mechanics/mesh/UnitMeshFem.cpp` 41-45: one element of `CreateLines`. -/
def line (coords : List (List K)) (i : Nat) : Res (List Nat) := do
  let nl ← ref coords i
  let nr ← ref coords (i + 1)
  pure [nl, nr]

/-- `nuto/mechanics/mesh/UnitMeshFem.cpp` 36-47: `CreateLines`. -/
def lines (numX : Nat) : Res (UnitMesh K) := do
  let coords := nodes1D numX
  let elements ← (List.range numX).mapM (line coords)
  pure ⟨coords, elements⟩

/-- The cells in the order of the loops over `iY` (outer) and `iX` (inner). -/
def cells2D (numX numY : Nat) : List (Nat × Nat) :=
  (List.range numY).flatMap fun (iY : Nat) => (List.range numX).map fun (iX : Nat) => (iX, iY)

/-- The cells in the order of the loops over `iZ`, `iY`, `iX` (innermost). -/
def cells3D (numX numY numZ : Nat) : List (Nat × Nat × Nat) :=
  (List.range numZ).flatMap fun (iZ : Nat) => (List.range numY).flatMap fun (iY : Nat) =>
    (List.range numX).map fun (iX : Nat) => (iX, iY, iZ)

/-- `nuto/mechanics/mesh/UnitMeshFem.cpp` 57-62: the two triangles of a cell. -/
def triangleCell (numX : Nat) (coords : List (List K)) (c : Nat × Nat) :
    Res (List (List Nat)) := do
  let (iX, iY) := c
  let node0 ← ref coords (iX + iY * (numX + 1))
  let node1 ← ref coords (iX + 1 + iY * (numX + 1))
  let node2 ← ref coords (iX + 1 + (iY + 1) * (numX + 1))
  let node3 ← ref coords (iX + (iY + 1) * (numX + 1))
  pure [[node0, node1, node2], [node0, node2, node3]]

/-- `nuto/mechanics/mesh/UnitMeshFem.cpp` 50-65: `CreateTriangles`. -/
def triangles (numX numY : Nat) : Res (UnitMesh K) := do
  let coords := nodes2D numX numY
  let elements ← (cells2D numX numY).mapM (triangleCell numX coords)
  pure ⟨coords, elements.flatten⟩

/-- `nuto/mechanics/mesh/UnitMeshFem.cpp` 74-78: the quadrilateral of a cell. -/
def quadCell (numX : Nat) (coords : List (List K)) (c : Nat × Nat) : Res (List Nat) := do
  let (iX, iY) := c
  let node0 ← ref coords (iX + iY * (numX + 1))
  let node1 ← ref coords (iX + 1 + iY * (numX + 1))
  let node2 ← ref coords (iX + 1 + (iY + 1) * (numX + 1))
  let node3 ← ref coords (iX + (iY + 1) * (numX + 1))
  pure [node0, node1, node2, node3]

/-- `nuto/mechanics/mesh/UnitMeshFem.cpp` 67-81: `CreateQuads`. -/
def quads (numX numY : Nat) : Res (UnitMesh K) := do
  let coords := nodes2D numX numY
  let elements ← (cells2D numX numY).mapM (quadCell numX coords)
  pure ⟨coords, elements⟩

/-- `nuto/mechanics/mesh/UnitMeshFem.cpp` 103-111: the brick of a cell. -/
def brickCell (numXe numYe : Nat) (coords : List (List K)) (c : Nat × Nat × Nat) :
    Res (List Nat) := do
  let (iX, iY, iZ) := c
  let node0 ← ref coords (iX + iY * numXe + iZ * numXe * numYe)
  let node1 ← ref coords (iX + 1 + iY * numXe + iZ * numXe * numYe)
  let node2 ← ref coords (iX + 1 + (iY + 1) * numXe + iZ * numXe * numYe)
  let node3 ← ref coords (iX + (iY + 1) * numXe + iZ * numXe * numYe)
  let node4 ← ref coords (iX + iY * numXe + (iZ + 1) * numXe * numYe)
  let node5 ← ref coords (iX + 1 + iY * numXe + (iZ + 1) * numXe * numYe)
  let node6 ← ref coords (iX + 1 + (iY + 1) * numXe + (iZ + 1) * numXe * numYe)
  let node7 ← ref coords (iX + (iY + 1) * numXe + (iZ + 1) * numXe * numYe)
  pure [node0, node1, node2, node3, node4, node5, node6, node7]

/-- `nuto/mechanics/mesh/UnitMeshFem.cpp` 83-114: `CreateBricks`. -/
def bricks (numX numY numZ : Nat) : Res (UnitMesh K) := do
  let coords := nodes3D numX numY numZ
  let elements ← (cells3D numX numY numZ).mapM (brickCell (numX + 1) (numY + 1) coords)
  pure ⟨coords, elements⟩

/-- `nuto/mechanics/mesh/MeshFem.cpp` 95-102: `NodesTotal()`. -/
def nodesTotal (mesh : UnitMesh K) : Group := Group.ofList mesh.elements.flatten

/-- `nuto/mechanics/mesh/UnitMeshFem.cpp` 121-122: the body of the loop of `Transform`;
`nuto/mechanics/nodes/NodeSimple.h` 62-67: `SetValues` asserts that the size does not
change. -/
def transformStep (f : List K → List K) (coords : List (List K)) (i : Nat) :
    Res (List (List K)) :=
  let values := coords.getD i []
  if (f values).length = values.length then .ok (coords.set i (f values)) else .ub

/-- `nuto/mechanics/mesh/UnitMeshFem.cpp` 117-125: `Transform`. -/
def transform (mesh : UnitMesh K) (f : List K → List K) : Res (UnitMesh K) := do
  let coords ← mesh.nodesTotal.data.foldlM (transformStep f) mesh.coordNodes
  pure ⟨coords, mesh.elements⟩

end UnitMesh

end NuTo
