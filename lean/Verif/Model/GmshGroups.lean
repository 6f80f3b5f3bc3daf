import Verif.Model.Basic
import Verif.Model.Gmsh

/-!
Model of the nodes, elements and physical groups of a gmsh file (/repo/nuto/mechanics/mesh/MeshGmsh.cpp 133-147, 293-314, 430-525).
Nodes and elements are identified by their position in `mMesh.Nodes` and `mMesh.Elements`.  Text is a list of characters.
-/
namespace NuTo
namespace Gmsh

/-- `GmshNode`, MeshGmsh.cpp 36-40 -/
structure NodeRecord (K : Type _) where
  id : Int
  x : K
  y : K
  z : K

/-- `GmshPhysicalNames`, MeshGmsh.cpp 50-55 -/
structure PhysicalName where
  dimension : Int
  id : Int
  name : List Char
deriving DecidableEq

section Nodes
variable {K : Type _} [Zero K] [DecidableEq K]

/-- body of the loop of `FindDimension`, MeshGmsh.cpp 139-140 -/
def dimensionStep (s : Bool × Bool) (n : NodeRecord K) : Bool × Bool := (s.1 || decide (n.y ≠ 0), s.2 || decide (n.z ≠ 0))

/-- `FindDimension`, MeshGmsh.cpp 133-147 -/
def findDimension (nodes : List (NodeRecord K)) : Nat :=
  let s := nodes.foldl dimensionStep (false, false)
  if s.2 then 3 else if s.1 then 2 else 1

/-- `coords[i] = gmshNode.coordinates[i]` for `i < dimension`, MeshGmsh.cpp 466-471 -/
def coordsOf (dimension : Nat) (n : NodeRecord K) : List K := [n.x, n.y, n.z].take dimension

/-- body of the loop of `CreateNodes`, MeshGmsh.cpp 468-473: the mesh nodes and `nodePtrs` -/
def createNode (dimension : Nat) (s : List (List K) × (Int → Option Nat)) (n : NodeRecord K) :
    List (List K) × (Int → Option Nat) :=
  (s.1 ++ [coordsOf dimension n], fun i => if i = n.id then some s.1.length else s.2 i)

/-- `CreateNodes`, MeshGmsh.cpp 463-475, with the dimension of the file, MeshGmsh.cpp 174, 222 -/
def createNodes (nodes : List (NodeRecord K)) : List (List K) × (Int → Option Nat) :=
  nodes.foldl (createNode (findDimension nodes)) ([], fun _ => none)

end Nodes

/-- white space for `operator>>` -/
def isSpace (c : Char) : Bool := c == ' ' || c == '\t' || c == '\n' || c == '\r'

/-- `rFile >> physicalName.physicalName` on the rest of the line and the removal of the quotation marks,
MeshGmsh.cpp 304-309: one word is read -/
def readName (line : List Char) : List Char :=
  ((line.dropWhile isSpace).takeWhile fun c => !isSpace c).filter fun c => c != '"'

/-- `std::transform(..., ::toupper)`, MeshGmsh.cpp 448, 521 (locale "C") -/
def upper (s : List Char) : List Char := s.map Char.toUpper

/-- `GetPhysicalGroupName`, MeshGmsh.cpp 430-436 -/
def groupName (names : List PhysicalName) (id : Int) : List Char :=
  match names.find? fun n => n.id == id with
  | some n => n.name
  | none => []

/-- `mPhysicalGroups` and `mNamedPhysicalGroups` (a pointer to a group is the id of the group; `std::map` does not move its
entries), MeshGmsh.h 92-97; `numElements` is the size of `mMesh.Elements` -/
structure GroupState where
  groups : OMap Int Group
  named : List (List Char × Int)
  numElements : Nat

/-- `AddElementToPhysicalGroup`, MeshGmsh.cpp 503-525; `emplace` keeps an existing entry -/
def addToGroup (names : List PhysicalName) (s : GroupState) (element : Nat) (id : Int) : GroupState :=
  match s.groups.find? id with
  | some g => { s with groups := s.groups.set id (g.add element) }
  | none =>
    let name := upper (groupName names id)
    { s with
      groups := s.groups.set id (Group.ofList [element])
      named := if name.length > 0 ∧ s.named.lookup name = none then s.named ++ [(name, id)] else s.named }

/-- body of the loop of `CreateElements`, MeshGmsh.cpp 483-499.  `check` stands for the creation of interpolation, nodes and the
Jacobian check (`Model/Gmsh.lean`), which may throw.  `tags[0]` of an element without tags is undefined. -/
def createElement (check : Element → Res Unit) (names : List PhysicalName) (s : GroupState) (e : Element) : Res GroupState :=
  if e.type = 15 then .ok s
  else (check e).bind fun _ =>
    match e.tags with
    | [] => .ub
    | tag :: _ => .ok (addToGroup names { s with numElements := s.numElements + 1 } s.numElements tag)

/-- `CreateElements`, MeshGmsh.cpp 478-500 -/
def createElements (check : Element → Res Unit) (names : List PhysicalName) (elements : List Element) : Res GroupState :=
  Res.foldlM (createElement check names) ⟨[], [], 0⟩ elements

/-- `GetPhysicalGroup(int)`, MeshGmsh.cpp 455-461 -/
def groupById (s : GroupState) (id : Int) : Res Group :=
  match s.groups.find? id with
  | some g => .ok g
  | none => .throw

/-- `GetPhysicalGroup(std::string)`, MeshGmsh.cpp 446-453; the pointer refers to an existing group -/
def groupByName (s : GroupState) (name : List Char) : Res Group :=
  match s.named.lookup (upper name) with
  | some id => match s.groups.find? id with
    | some g => .ok g
    | none => .ub
  | none => .throw

end Gmsh
end NuTo
