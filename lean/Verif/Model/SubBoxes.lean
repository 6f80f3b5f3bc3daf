import Verif.Model.Basic
import Mathlib.Algebra.Order.Floor.Defs
import Mathlib.Algebra.Field.Defs

/-!
Model of `SubBoxes` in `/repo/nuto/mechanics/mesh/MeshFemDofConvert.cpp`.
Exact arithmetic; conversions to `int` do not overflow.
-/
namespace NuTo

/-- `Eigen::Vector3d` -/
structure V3 (K : Type _) where
  x : K
  y : K
  z : K
deriving DecidableEq, Repr

/-- `NodePoint`, MeshFemDofConvert.cpp 98-106: a position and a node -/
structure NodePoint (K : Type _) where
  pos : V3 K
  node : Nat
deriving DecidableEq, Repr

/-- `SubBoxes::Domain`, MeshFemDofConvert.cpp 13-26 -/
structure SubBoxDomain (K : Type _) where
  start : V3 K
  stop : V3 K
  subs : V3 Nat
  r2 : K
deriving DecidableEq, Repr

/-- `SubBoxes`, MeshFemDofConvert.cpp 10-95.  `mData` has `subs.prod()` entries; entry `n` is `data n`. -/
structure SubBoxes (K : Type _) where
  dom : SubBoxDomain K
  data : Int → List (NodePoint K)

namespace SubBoxes
variable {K : Type _} [Field K] [LinearOrder K] [IsStrictOrderedRing K] [FloorRing K]

/-- `(a - b).squaredNorm()` -/
def dist2 (a b : V3 K) : K := (a.x - b.x) * (a.x - b.x) + (a.y - b.y) * (a.y - b.y) + (a.z - b.z) * (a.z - b.z)

/-- conversion of a floating point number to `int`: towards zero -/
def trunc (x : K) : Int := if 0 ≤ x then ⌊x⌋ else -⌊-x⌋

/-- `mDelta`, MeshFemDofConvert.cpp 32 -/
def delta (d : SubBoxDomain K) : V3 K :=
  ⟨(d.stop.x - d.start.x) / d.subs.x, (d.stop.y - d.start.y) / d.subs.y, (d.stop.z - d.start.z) / d.subs.z⟩

/-- `mDelta.minCoeff()` -/
def minDelta (d : SubBoxDomain K) : K := min (delta d).x (min (delta d).y (delta d).z)

/-- constructor, MeshFemDofConvert.cpp 28-37 -/
def create (d : SubBoxDomain K) : Res (SubBoxes K) :=
  if d.r2 > minDelta d * minDelta d then .throw else .ok ⟨d, fun _ => []⟩

/-- MeshFemDofConvert.cpp 51-53 and 80-82 -/
def cell (d : SubBoxDomain K) (p : V3 K) : V3 Int :=
  ⟨trunc ((p.x - d.start.x) / (delta d).x), trunc ((p.y - d.start.y) / (delta d).y), trunc ((p.z - d.start.z) / (delta d).z)⟩

/-- `Index(i, j, k)`, MeshFemDofConvert.cpp 86-89 -/
def index (d : SubBoxDomain K) (c : V3 Int) : Int := c.x + c.y * d.subs.x + c.z * d.subs.y * d.subs.x

/-- number of boxes: `subs.prod()` -/
def numBoxes (d : SubBoxDomain K) : Nat := d.subs.x * d.subs.y * d.subs.z

/-- `Add`, MeshFemDofConvert.cpp 40-43 (`at` throws outside the vector; a negative `int` becomes a huge `size_t`) -/
def add (b : SubBoxes K) (p : NodePoint K) : Res (SubBoxes K) :=
  let n := index b.dom (cell b.dom p.pos)
  if 0 ≤ n ∧ n < numBoxes b.dom then .ok ⟨b.dom, fun m => if m = n then b.data n ++ [p] else b.data m⟩ else .throw

/-- MeshFemDofConvert.cpp 57-59: the 27 boxes in search order -/
def neighbours (c : V3 Int) : List (V3 Int) :=
  [c.z, c.z - 1, c.z + 1].flatMap fun kk => [c.y, c.y - 1, c.y + 1].flatMap fun jj =>
    [c.x, c.x - 1, c.x + 1].map fun ii => ⟨ii, jj, kk⟩

/-- MeshFemDofConvert.cpp 62-67: boxes outside the domain are skipped -/
def valid (d : SubBoxDomain K) (c : V3 Int) : Bool :=
  decide (0 ≤ c.x ∧ c.x < d.subs.x ∧ 0 ≤ c.y ∧ c.y < d.subs.y ∧ 0 ≤ c.z ∧ c.z < d.subs.z)

/-- `FindAt`, MeshFemDofConvert.cpp 49-75 -/
def findAt (b : SubBoxes K) (q : V3 K) : Option (NodePoint K) :=
  ((neighbours (cell b.dom q)).filter (valid b.dom)).findSome? fun c =>
    (b.data (index b.dom c)).find? fun p => dist2 p.pos q < b.dom.r2

end SubBoxes
end NuTo
