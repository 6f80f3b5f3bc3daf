import Verif.Model.SubBoxes
import Mathlib.Algebra.BigOperators.Group.List.Basic

/-!
Model of `/repo/nuto/mechanics/mesh/MeshFemDofConvert.cpp`: `AddDofInterpolation`.
Nodes are identified by their index in `MeshFem::Nodes`, element collections by their index in `MeshFem::Elements`.
Simplification: only the value vector of instance 0 of a node is kept.
-/
namespace NuTo

/-- `InterpolationSimple`: shape, `GetLocalCoords(i)` for `i < GetNumNodes()`, `GetShapeFunctions`; InterpolationSimple.h -/
structure Interp (K : Type _) where
  shape : Nat
  locals : List (List K)
  N : List K → List K

/-- `ElementFem`, ElementFem.h 10-125 -/
structure Elem (K : Type _) where
  nodes : List Nat
  interp : Interp K

/-- `ElementCollectionFem`, ElementCollection.h 30-103 -/
structure Coll (K : Type _) where
  coord : Elem K
  dofs : OMap Nat (Elem K)

/-- `MeshFem`, MeshFem.h -/
structure Mesh (K : Type _) where
  nodes : List (List K)
  elements : List (Coll K)

namespace MeshFem
variable {K : Type _} [Field K] [LinearOrder K] [IsStrictOrderedRing K] [FloorRing K]

/-- values of the nodes of an element (`ExtractNodeValues`, ElementFem.h 35-42) -/
def nodeValues (nodes : List (List K)) (e : Elem K) : List (List K) := e.nodes.map fun n => nodes.getD n []

/-- `GetDofDimension`, ElementFem.h 60-63 -/
def dofDimension (nodes : List (List K)) (e : Elem K) : Nat := ((nodeValues nodes e).headD []).length

/-- `Interpolate`, ElementInterface.h 31-34 with `Matrix::N` (Matrix.h 8-14): component `c` is the sum of shape function times
node value.  Nodes of different dimension and a wrong number of shape functions are undefined. -/
def interpolate (nodes : List (List K)) (e : Elem K) (xi : List K) : Res (List K) :=
  Res.require ((∀ v ∈ nodeValues nodes e, v.length = dofDimension nodes e) ∧ (e.interp.N xi).length = e.nodes.length ∧
      e.nodes ≠ [])
    (.ok ((List.range (dofDimension nodes e)).map fun c =>
      (List.zipWith (fun a (v : List K) => a * v.getD c 0) (e.interp.N xi) (nodeValues nodes e)).sum))

/-- `To3D`, EigenCompanion.h 16-22 -/
def to3D : List K → Res (V3 K)
  | [] => .ok ⟨0, 0, 0⟩
  | [x] => .ok ⟨x, 0, 0⟩
  | [x, y] => .ok ⟨x, y, 0⟩
  | [x, y, z] => .ok ⟨x, y, z⟩
  | _ => .ub

/-- position of local coordinates, MeshFemDofConvert.cpp 154-155, 193 -/
def position (nodes : List (List K)) (e : Elem K) (xi : List K) : Res (V3 K) :=
  (interpolate nodes e xi).bind to3D

/-- MeshFemDofConvert.cpp 121-123: coefficient-wise minimum and maximum (equal sizes) -/
def boundStep (s : List K × List K) (v : List K) : Res (List K × List K) :=
  Res.require (s.1.length = v.length) (.ok (List.zipWith min s.1 v, List.zipWith max s.2 v))

/-- coordinates of all nodes of all coordinate elements in the order of the loops MeshFemDofConvert.cpp 114-121 -/
def allCoords (m : Mesh K) : List (List K) := m.elements.flatMap fun c => nodeValues m.nodes c.coord

/-- one direction of the domain: extension by `eps`, MeshFemDofConvert.cpp 129-135 -/
def sub (n dimension i : Nat) : Nat := if i < dimension then n else 1

/-- `SetupSubBoxDomain`, MeshFemDofConvert.cpp 108-139 -/
def setupDomain (m : Mesh K) (n : Nat) (eps : K) : Res (SubBoxDomain K) :=
  match allCoords m with
  | [] => .ub
  | v :: vs =>
    (Res.foldlM boundStep (v, v) (v :: vs)).bind fun s => (to3D s.1).bind fun a => (to3D s.2).bind fun b =>
      .ok ⟨⟨a.x - eps, a.y - eps, a.z - eps⟩, ⟨b.x + eps, b.y + eps, b.z + eps⟩,
        ⟨sub n s.1.length 0, sub n s.1.length 1, sub n s.1.length 2⟩, eps * eps⟩

/-- one entry of `NodePointsTotal`, MeshFemDofConvert.cpp 152-158 -/
def pointStep (nodes : List (List K)) (c : Elem K) (l : List (NodePoint K)) (p : List K × Nat) : Res (List (NodePoint K)) :=
  (position nodes c p.1).bind fun x => .ok (l ++ [⟨x, p.2⟩])

/-- one element of `NodePointsTotal`, MeshFemDofConvert.cpp 145-159 -/
def collStep (nodes : List (List K)) (dof : Nat) (l : List (NodePoint K)) (c : Coll K) : Res (List (NodePoint K)) :=
  match c.dofs.find? dof with
  | none => .ok l
  | some e => Res.foldlM (pointStep nodes c.coord) l (e.interp.locals.zip e.nodes)

/-- `NodePointsTotal`, MeshFemDofConvert.cpp 142-162 -/
def nodePointsTotal (m : Mesh K) (dof : Nat) : Res (List (NodePoint K)) := Res.foldlM (collStep m.nodes dof) [] m.elements

/-- state of the loop over the nodes of one new element: `Nodes`, sub boxes, nodes of the new element -/
structure NodeSt (K : Type _) where
  nodes : List (List K)
  boxes : SubBoxes K
  ids : List Nat

/-- MeshFemDofConvert.cpp 195-205 -/
def requestStep (num : Nat) (s : NodeSt K) (q : V3 K) : Res (NodeSt K) :=
  match s.boxes.findAt q with
  | some p => .ok { s with ids := s.ids ++ [p.node] }
  | none => (s.boxes.add ⟨q, s.nodes.length⟩).bind fun b =>
      .ok ⟨s.nodes ++ [List.replicate num 0], b, s.ids ++ [s.nodes.length]⟩

/-- MeshFemDofConvert.cpp 191-206 -/
def localStep (num : Nat) (c : Elem K) (s : NodeSt K) (xi : List K) : Res (NodeSt K) :=
  (position s.nodes c xi).bind fun q => requestStep num s q

/-- one element, MeshFemDofConvert.cpp 176-208.  `e` is the index of the element collection.  `AddDofElement` throws if the
dof type is already there (ElementCollection.h 45-48, DofContainer.h 47-53). -/
def elementStep (dof num : Nat) (opt : Option (Interp K)) (s : Mesh K × SubBoxes K) (e : Nat) : Res (Mesh K × SubBoxes K) :=
  match s.1.elements[e]? with
  | none => .ub
  | some c =>
    let interp := opt.getD c.coord.interp
    if c.coord.interp.shape ≠ interp.shape then .throw
    else (Res.foldlM (localStep num c.coord) ⟨s.1.nodes, s.2, []⟩ interp.locals).bind fun r =>
      match c.dofs.find? dof with
      | some _ => .throw
      | none => .ok (⟨r.nodes, s.1.elements.set e { c with dofs := c.dofs.set dof ⟨r.ids, interp⟩ }⟩, r.boxes)

/-- `AddDofInterpolation` for a group of elements, MeshFemDofConvert.cpp 164-210.  `num` is `dofType.GetNum()`. -/
def addDofInterpolation (m : Mesh K) (dof num : Nat) (group : List Nat) (opt : Option (Interp K)) : Res (Mesh K) :=
  (setupDomain m 300 (1 / 10000000000)).bind fun d => (SubBoxes.create d).bind fun b =>
    (nodePointsTotal m dof).bind fun ps => (Res.foldlM SubBoxes.add b ps).bind fun b =>
      (Res.foldlM (elementStep dof num opt) (m, b) group).bind fun r => .ok r.1

end MeshFem
end NuTo
