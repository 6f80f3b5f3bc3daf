import Verif.Model.MeshFemDofConvert
import Verif.Model.Group

/-!
Model of the selection functions of `MeshFem` (/repo/nuto/mechanics/mesh/MeshFem.cpp) and of `NodeSimple`
(/repo/nuto/mechanics/nodes/NodeSimple.h).  Nodes and element collections are identified by their index, as in
`Model/MeshFemDofConvert.lean`.  A failed `assert` and a mismatch of Eigen sizes are undefined (`Res.ub`).
-/
namespace NuTo
namespace MeshFem
variable {K : Type _} [Field K] [LinearOrder K] [IsStrictOrderedRing K]

/-- `ElementFem::GetNode(i)`, ElementFem.h 87-98 -/
def getNode (e : Elem K) (i : Nat) : Res Nat :=
  match e.nodes[i]? with
  | some n => .ok n
  | none => .ub

/-- `GetValues()` of a node of the mesh -/
def valuesOf (m : Mesh K) (n : Nat) : Res (List K) :=
  match m.nodes[n]? with
  | some v => .ok v
  | none => .ub

/-- `(a - b).isMuchSmallerThan(tol, 1)`, MeshFem.cpp 27, 45: Eigen compares the sum of squares with the square of `tol * 1` -/
def isAt (tol : K) (a b : List K) : Res Bool :=
  Res.require (a.length = b.length)
    (.ok (decide ((List.zipWith (fun x y => (x - y) * (x - y)) a b).sum ≤ (1 * tol) * (1 * tol))))

/-- a place the loops visit: coordinate element, element whose nodes are selected, number of the node -/
structure Visit (K : Type _) where
  coord : Elem K
  elem : Elem K
  i : Nat

/-- the loops over elements and nodes, MeshFem.cpp 39-42, 58-61, 98-99.  Line 61 asks the element for
the number of nodes and the others ask the interpolation; the constructor asserts that both agree (ElementFem.h 20, 29). -/
def coordVisits (m : Mesh K) : List (Visit K) :=
  m.elements.flatMap fun c => (List.range c.coord.interp.locals.length).map fun i => ⟨c.coord, c.coord, i⟩

/-- the loops over elements and nodes with `continue` if the dof type is missing, MeshFem.cpp 16-23, 76-83, 107-111 -/
def dofVisits (m : Mesh K) (dof : Nat) : List (Visit K) :=
  m.elements.flatMap fun c =>
    match c.dofs.find? dof with
    | none => []
    | some e => (List.range e.interp.locals.length).map fun i => ⟨c.coord, e, i⟩

/-- MeshFem.cpp 44, 63: coordinates are the values of the node -/
def coordPlace (m : Mesh K) (v : Visit K) : Res (List K) := (getNode v.coord v.i).bind fun n => valuesOf m n

/-- MeshFem.cpp 25-26, 85-86: coordinates are interpolated at the local coordinates of the node -/
def dofPlace (m : Mesh K) (v : Visit K) : Res (List K) := interpolate m.nodes v.coord (v.elem.interp.locals.getD v.i [])

/-- MeshFem.cpp 16-34, 39-51: the first node in the order of the loops, an exception if there is none -/
def firstAt (place : Visit K → Res (List K)) (coords : List K) (tol : K) : List (Visit K) → Res Nat
  | [] => .throw
  | v :: t => (place v).bind fun p => (isAt tol p coords).bind fun b =>
      if b then getNode v.elem v.i else firstAt place coords tol t

/-- `NodeAtCoordinate(coords, tol)`, MeshFem.cpp 37-52 -/
def nodeAtCoordinate (m : Mesh K) (coords : List K) (tol : K) : Res Nat :=
  firstAt (coordPlace m) coords tol (coordVisits m)

/-- `NodeAtCoordinate(coords, dofType, tol)`, MeshFem.cpp 14-35 -/
def dofNodeAtCoordinate (m : Mesh K) (coords : List K) (dof : Nat) (tol : K) : Res Nat :=
  firstAt (dofPlace m) coords tol (dofVisits m dof)

/-- body of the loops MeshFem.cpp 63-65 and 85-89.  `direction` is `ToComponentIndex`, DirectionEnum.h 12-15. -/
def axisStep (place : Visit K → Res (List K)) (direction : Nat) (offset tol : K) (g : Group) (v : Visit K) : Res Group :=
  (place v).bind fun p =>
    match p[direction]? with
    | none => .ub
    | some x => if |x - offset| < tol then (getNode v.elem v.i).bind fun n => .ok (g.add n) else .ok g

/-- `NodesAtAxis(direction, axisOffset, tol)`, MeshFem.cpp 54-69 -/
def nodesAtAxis (m : Mesh K) (direction : Nat) (offset tol : K) : Res Group :=
  Res.foldlM (axisStep (coordPlace m) direction offset tol) Group.empty (coordVisits m)

/-- `NodesAtAxis(direction, dofType, axisOffset, tol)`, MeshFem.cpp 71-93 -/
def dofNodesAtAxis (m : Mesh K) (direction dof : Nat) (offset tol : K) : Res Group :=
  Res.foldlM (axisStep (dofPlace m) direction offset tol) Group.empty (dofVisits m dof)

/-- body of the loops of `NodesTotal`, MeshFem.cpp 100, 112 -/
def totalStep (g : Group) (v : Visit K) : Res Group := (getNode v.elem v.i).bind fun n => .ok (g.add n)

/-- `NodesTotal()`, MeshFem.cpp 95-102 -/
def nodesTotal (m : Mesh K) : Res Group := Res.foldlM totalStep Group.empty (coordVisits m)

/-- `NodesTotal(dofType)`, MeshFem.cpp 104-115 -/
def dofNodesTotal (m : Mesh K) (dof : Nat) : Res Group := Res.foldlM totalStep Group.empty (dofVisits m dof)

/-- `ElementsTotal()`, MeshFem.cpp 117-123 -/
def elementsTotal (m : Mesh K) : Group := (List.range m.elements.length).foldl Group.add Group.empty

end MeshFem

/-- `NodeSimple`, NodeSimple.h 87-89: values of all instances and dof numbers -/
structure SimpleNode (K : Type _) where
  values : List (List K)
  dofNumbers : List Int
deriving DecidableEq

namespace SimpleNode
variable {K : Type _} [Zero K]

/-- constructor from values, NodeSimple.h 18-22 -/
def ofValues (v : List K) : SimpleNode K := ⟨[v], List.replicate v.length (-1)⟩

/-- constructor from a number, NodeSimple.h 26-30: the dof number is 0, not -1 -/
def ofValue (x : K) : SimpleNode K := ⟨[[x]], [0]⟩

/-- constructor from dimension and number of instances, NodeSimple.h 32-36 -/
def ofDimension (dimension numInstances : Nat) : SimpleNode K :=
  ⟨List.replicate numInstances (List.replicate dimension 0), List.replicate dimension (-1)⟩

/-- `std::vector::resize(n, v)` -/
def resize {α : Type _} (l : List α) (n : Nat) (v : α) : List α := l.take n ++ List.replicate (n - l.length) v

/-- `AllocateInstances`, NodeSimple.h 39-43; `mValues[0]` of a node without instances is undefined -/
def allocateInstances (s : SimpleNode K) (n : Int) : Res (SimpleNode K) :=
  Res.require (0 < n) (match s.values with
    | [] => .ub
    | v :: _ => .ok { s with values := resize s.values n.toNat (List.replicate v.length 0) })

/-- `GetNumInstances`, NodeSimple.h 45-48 -/
def numInstances (s : SimpleNode K) : Nat := s.values.length

/-- `GetValues(instance)`, NodeSimple.h 50-54.  A negative instance passes the assert and is undefined. -/
def getValues (s : SimpleNode K) (inst : Int) : Res (List K) :=
  if 0 ≤ inst then
    match s.values[inst.toNat]? with
    | some v => .ok v
    | none => .ub
  else .ub

/-- `SetValues(values, instance)`, NodeSimple.h 62-67 -/
def setValues (s : SimpleNode K) (v : List K) (inst : Int) : Res (SimpleNode K) :=
  (s.getValues inst).bind fun old =>
    Res.require (v.length = old.length) (.ok { s with values := s.values.set inst.toNat v })

/-- `SetValue(component, value, instance)`, NodeSimple.h 69-74 -/
def setValue (s : SimpleNode K) (component : Int) (x : K) (inst : Int) : Res (SimpleNode K) :=
  (s.getValues inst).bind fun old =>
    Res.require (0 ≤ component ∧ component.toNat < s.dofNumbers.length ∧ component.toNat < old.length)
      (.ok { s with values := s.values.set inst.toNat (old.set component.toNat x) })

/-- `GetDofNumber(component)`, NodeSimple.h 56-60 -/
def getDofNumber (s : SimpleNode K) (component : Int) : Res Int :=
  if 0 ≤ component then
    match s.dofNumbers[component.toNat]? with
    | some v => .ok v
    | none => .ub
  else .ub

/-- `SetDofNumber(component, dofNumber)`, NodeSimple.h 76-80 -/
def setDofNumber (s : SimpleNode K) (component number : Int) : Res (SimpleNode K) :=
  Res.require (0 ≤ component ∧ component.toNat < s.dofNumbers.length)
    (.ok { s with dofNumbers := s.dofNumbers.set component.toNat number })

/-- one node of the loop of `MeshFem::AllocateDofInstances` -/
def allocateStep (n : Int) (nodes : List (SimpleNode K)) (i : Nat) : Res (List (SimpleNode K)) :=
  match nodes[i]? with
  | none => .ub
  | some s => (s.allocateInstances n).bind fun s' => .ok (nodes.set i s')

/-- `MeshFem::AllocateDofInstances`, MeshFem.cpp 125-129, over the group `NodesTotal(dofType)` -/
def allocateDofInstances (n : Int) (nodes : List (SimpleNode K)) (group : Group) : Res (List (SimpleNode K)) :=
  Res.foldlM (allocateStep n) nodes group.data

end SimpleNode
end NuTo
