/-
Cells of a computation and their history data (`nuto/mechanics/tools/CellStorage.cpp`, `nuto/mechanics/cell/Cell.h`).

Elements are references to the element collections of the mesh together with their shape; cells are references into the
storage, i.e. positions: `boost::ptr_vector` never moves the cells that it owns. Coordinates, Jacobians and values of the
integration points are not part of this model: what an integration point contributes to its history, the equivalent strain,
is a parameter.
-/
import Verif.Model.Constitutive

namespace NuTo.CellStorage

/-- an element collection and the shape that `GetShape()` reports, `nuto/mechanics/elements/ElementCollection.h` -/
structure Elem where
  ref : Nat
  shape : Nat
deriving DecidableEq

/-- an integration type: its shape and `GetNumIntegrationPoints()` -/
structure Rule where
  shape : Nat
  ips : Nat
deriving DecidableEq

/-- `nuto/mechanics/cell/Cell.h` 18-30, 121-125: the members of a cell -/
structure StoredCell where
  element : Nat
  ips : Nat
  id : Int
deriving DecidableEq

/-- `nuto/mechanics/cell/Cell.h` 17-30: the constructor throws if the shapes of element and integration type differ -/
def mkCell (e : Elem) (r : Rule) (id : Int) : Res StoredCell :=
  if e.shape ≠ r.shape then .throw else .ok ⟨e.ref, r.ips, id⟩

/-- the largest `int` -/
def intMax : Int := 2147483647

/-- `nuto/mechanics/tools/CellStorage.cpp` 10-14: the loop of `AddCells`; the storage keeps the cells that were created before
an exception. `cellStartId++` at the largest `int` is undefined. `cellGroup.Add` of a new cell appends (C01). -/
def addLoop (r : Rule) : List Elem → Int → List StoredCell → List Nat → List StoredCell × Res (List Nat)
  | [], _, s, g => (s, .ok g)
  | e :: es, id, s, g =>
    if id = intMax then (s, .ub)
    else match mkCell e r id with
      | .ok c => addLoop r es (id + 1) (s ++ [c]) (g ++ [s.length])
      | .throw => (s, .throw)
      | .ub => (s, .ub)

/-- `nuto/mechanics/tools/CellStorage.cpp` 6-16: `AddCells`; storage after the call and the group of new cells -/
def addCells (s : List StoredCell) (es : List Elem) (r : Rule) (start : Int) : List StoredCell × Res (List Nat) :=
  addLoop r es start s []

/-- `nuto/mechanics/tools/CellStorage.h` 22: the default of `cellStartId` -/
def defaultStart : Int := 0

/-- `nuto/mechanics/cell/Cell.h` 48-60: `Apply` with the function that updates the history data (C36) with the ids of cell and
integration point; `eeq` are the equivalent strains of the points -/
noncomputable def apply (h : History) (c : StoredCell) (eeq : Nat → ℝ) : Res History :=
  Res.foldlM (fun (h : History) (i : Nat) => h.update (eeq i) c.id i) h (List.range c.ips)

/-- `nuto/mechanics/tools/TimeDependentProblem.cpp` 82-84: the loop over the cells of a group; several rounds of it are
one longer list -/
noncomputable def updateAll (h : History) (l : List (StoredCell × (Nat → ℝ))) : Res History :=
  Res.foldlM (fun (h : History) (x : StoredCell × (Nat → ℝ)) => apply h x.1 x.2) h l

end NuTo.CellStorage
