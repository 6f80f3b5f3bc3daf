/-
Elements, differential operators, memoised cell data and the integration over a cell.

Simplifications: exact arithmetic instead of `double`; the nodes of an element are given by
their contents at the time of the call; matrices are functions of row and column with
dimensions, out of range accesses are the outcome `ub`.
-/
import Verif.Model.Assembler
import Verif.Model.Constraints
import Verif.Model.Interpolation
import Verif.Model.Jacobian
import Verif.Model.DofVector

namespace NuTo

namespace DMat

variable {K : Type _} [Field K]

/-- `Eigen::MatrixXd::Zero(r, c)` -/
def zero (r c : Nat) : DMat K := ⟨r, c, fun _ _ => 0⟩

/-- `Eigen::MatrixXd::transpose` -/
def transpose (m : DMat K) : DMat K := ⟨m.cols, m.rows, fun i j => m.coef j i⟩

/-- `m(i, j) = x` -/
def set (m : DMat K) (i j : Nat) (x : K) : DMat K :=
  { m with coef := fun a b => if a = i ∧ b = j then x else m.coef a b }

/-- `m * v` of Eigen; the sizes have to match -/
def mulVec (m : DMat K) (v : List K) : Res (List K) :=
  Res.require (m.cols = v.length)
    (.ok ((List.range m.rows).map fun (i : Nat) =>
      ((List.range m.cols).map fun (j : Nat) => m.coef i j * v.getD j 0).sum))

/-- `m.size()` of Eigen -/
def size (m : DMat K) : Nat := m.rows * m.cols

/-- equal sizes, asserted by `operator+=` of Eigen -/
def SameSize (x y : DMat K) : Prop := x.rows = y.rows ∧ x.cols = y.cols

instance (x y : DMat K) : Decidable (SameSize x y) := by unfold SameSize; infer_instance

/-- `x += y` of Eigen -/
def add (x y : DMat K) : DMat K := ⟨x.rows, x.cols, fun i j => x.coef i j + y.coef i j⟩

/-- `x *= s` of Eigen -/
def scale (x : DMat K) (s : K) : DMat K := ⟨x.rows, x.cols, fun i j => x.coef i j * s⟩

end DMat

namespace DofDMat

variable {K : Type _} [Field K]

/-- `nuto/mechanics/dofs/DofMatrixContainer.h` 27-37: `operator+=` -/
def addAssign (a b : DofDMat K) : Res (DofDMat K) :=
  OMap.mergeWith DMat.SameSize DMat.add id a b

/-- `nuto/mechanics/dofs/DofMatrixContainer.h` 39-44: `operator*=` -/
def mulAssign (a : DofDMat K) (s : K) : DofDMat K := a.map fun e => (e.1, e.2.scale s)

end DofDMat

/-! ### Differential operators -/

namespace Nabla

variable {K : Type _} [Field K]

/-- `nuto/mechanics/cell/DifferentialOperators.h` 16-22: `Gradient` -/
def gradient (dNdX : DMat K) : DMat K := dNdX.transpose

/-- `nuto/mechanics/cell/DifferentialOperators.h` 37-46: body of the loop over the nodes in 2D -/
def strainStep2 (dNdX : DMat K) (B : DMat K) (iNode : Nat) : DMat K :=
  let iColumn := iNode * 2
  let dNdXx := dNdX.coef iNode 0
  let dNdXy := dNdX.coef iNode 1
  (((B.set 0 iColumn dNdXx).set 1 (iColumn + 1) dNdXy).set 2 iColumn dNdXy).set 2 (iColumn + 1) dNdXx

/-- `nuto/mechanics/cell/DifferentialOperators.h` 52-82: body of the loop over the nodes in 3D -/
def strainStep3 (dNdX : DMat K) (B : DMat K) (iNode : Nat) : DMat K :=
  let iColumn := iNode * 3
  let dNdXx := dNdX.coef iNode 0
  let dNdXy := dNdX.coef iNode 1
  let dNdXz := dNdX.coef iNode 2
  ((((((((B.set 0 iColumn dNdXx).set 1 (iColumn + 1) dNdXy).set 2 (iColumn + 2) dNdXz).set
    3 (iColumn + 1) dNdXz).set 3 (iColumn + 2) dNdXy).set
    4 iColumn dNdXz).set 4 (iColumn + 2) dNdXx).set
    5 iColumn dNdXy).set 5 (iColumn + 1) dNdXx

/-- `nuto/mechanics/cell/DifferentialOperators.h` 24-90: `Strain` -/
def strain (dNdX : DMat K) : Res (DMat K) :=
  match dNdX.cols with
  | 1 => .ok dNdX.transpose
  | 2 => .ok ((List.range dNdX.rows).foldl (strainStep2 dNdX) (DMat.zero 3 (dNdX.rows * 2)))
  | 3 => .ok ((List.range dNdX.rows).foldl (strainStep3 dNdX) (DMat.zero 6 (dNdX.rows * 3)))
  | _ => .throw

end Nabla

/-- `nuto/mechanics/cell/Matrix.h` 12: body of the loop: `block(0, i * dim, dim, dim) =
Identity * shapeFunctions[i]` -/
def nMatrixStep {K : Type _} [Field K] (shape : List K) (dim : Nat) (n : DMat K) (i : Nat) : Res (DMat K) :=
  match shape[i]? with
  | none => .ub
  | some s => .ok ⟨n.rows, n.cols, fun a b =>
      if a < dim ∧ i * dim ≤ b ∧ b < i * dim + dim then (if b = i * dim + a then 1 * s else 0 * s)
      else n.coef a b⟩

/-- `nuto/mechanics/cell/Matrix.h` 8-14: `Matrix::N`; `junk` is the content of the
uninitialised matrix. -/
def nMatrix {K : Type _} [Field K] (junk : Nat → Nat → K) (shape : List K) (numNodes dim : Nat) : Res (DMat K) :=
  Res.foldlM (nMatrixStep shape dim) ⟨dim, dim * numNodes, junk⟩ (List.range numNodes)

/-! ### Elements -/

/-- `nuto/mechanics/elements/ElementFem.h` 10-30: nodes and interpolation -/
structure FemElement (K : Type) where
  nodes : List (Node K)
  interp : Interpolation K

namespace FemElement

variable {K : Type} [Field K]

/-- `nuto/mechanics/elements/ElementFem.h` 60-63: `GetDofDimension`; `GetNode(0)` has to exist
and to have an instance -/
def dofDimension (e : FemElement K) : Res Nat :=
  match e.nodes with
  | [] => .ub
  | n :: _ => Res.require (n.values ≠ []) (.ok n.numValues)

/-- `nuto/mechanics/elements/ElementFem.h` 39-40: `segment(dim * i, dim) = GetValues(instance)`:
the instance has to exist and to have `dim` components -/
def extractStep (dim : Nat) (inst : Int) (acc : List K) (n : Node K) : Res (List K) :=
  if inst < 0 then .ub else
  match n.values[inst.toNat]? with
  | none => .ub
  | some v => Res.require (v.length = dim) (.ok (acc ++ v))

/-- `nuto/mechanics/elements/ElementFem.h` 35-42: `ExtractNodeValues`.  The segments are written
from front to back. -/
def extractNodeValues (e : FemElement K) (inst : Int) : Res (List K) :=
  e.dofDimension.bind fun dim => Res.foldlM (extractStep dim inst) [] e.nodes

/-- `nuto/mechanics/elements/ElementFem.h` 71-77: body of the loop over the nodes -/
def numberingStep (dim : Nat) (acc : List Int) (n : Node K) : Res (List Int) :=
  Res.foldlM (fun (a : List Int) (iDof : Nat) => (n.getDofNumber iDof).bind fun x => .ok (a ++ [x]))
    acc (List.range dim)

/-- `nuto/mechanics/elements/ElementFem.h` 65-80: `GetDofNumbering` -/
def dofNumbering (e : FemElement K) : Res (List Int) :=
  e.dofDimension.bind fun dim => Res.foldlM (numberingStep dim) [] e.nodes

/-- `nuto/mechanics/elements/ElementFem.h` 44-47: `GetNMatrix` -/
def nMatrix (junk : Nat → Nat → K) (e : FemElement K) (xi : Nat → K) : Res (DMat K) :=
  e.dofDimension.bind fun dim => NuTo.nMatrix junk (e.interp.shape xi) e.interp.numNodes dim

/-- `nuto/mechanics/elements/ElementInterface.h` 31-34: `Interpolate` -/
def interpolate (junk : Nat → Nat → K) (e : FemElement K) (xi : Nat → K) : Res (List K) :=
  (e.nMatrix junk xi).bind fun N => (e.extractNodeValues 0).bind fun v => N.mulVec v

/-- `nuto/mechanics/elements/ElementFem.h` 54-57: `GetDerivativeShapeFunctions` -/
def derivMatrix (e : FemElement K) (xi : Nat → K) : DMat K :=
  ⟨e.interp.numNodes, e.interp.dim, fun i j => ((e.interp.deriv xi).getD i []).getD j 0⟩

end FemElement

/-! ### Memoised cell data -/

namespace CellData

variable {V : Type _}

/-- State of `nuto/mechanics/cell/CellData.h` 53: `mNodeValues`, one optional value per dof type
and instance; `none` is a vector of size zero. -/
abbrev Cache (V : Type _) := OMap Nat (List (Option V))

/-- `nuto/mechanics/cell/CellData.h` 33-44: `GetNodeValues`.  `extract d i` is
`mElements.DofElement(d).ExtractNodeValues(i)`, `none` being a vector of size zero.  The result
and the new state of the cache. -/
def getNodeValues (extract : Nat → Nat → Res (Option V)) (c : Cache V) (d : Nat) (inst : Int) :
    Cache V × Res (Option V) :=
  let old := (c.find? d).getD []
  let grown := if inst ≥ (old.length : Int) then
    old ++ List.replicate (inst.toNat + 1 - old.length) none else old
  let c1 := c.set d grown
  if inst < 0 then (c1, .ub) else
  match grown.getD inst.toNat none with
  | some v => (c1, .ok (some v))
  | none =>
    match extract d inst.toNat with
    | .ok v => (c1.set d (grown.set inst.toNat v), .ok v)
    | .throw => (c1, .throw)
    | .ub => (c1, .ub)

/-- A sequence of calls; stops being defined at the first undefined call. -/
def run (extract : Nat → Nat → Res (Option V)) (c : Cache V) : List (Nat × Int) → List (Res (Option V))
  | [] => []
  | q :: qs => (getNodeValues extract c q.1 q.2).2 :: run extract (getNodeValues extract c q.1 q.2).1 qs

/-- `nuto/mechanics/cell/CellData.h` 35-36: whether the call enlarges the vector of the dof type
`d'`.  References to its elements obtained before are invalid after a `resize` that reallocates. -/
def grows (c : Cache V) (d' : Nat) (q : Nat × Int) : Prop :=
  q.1 = d' ∧ q.2 ≥ (((c.find? d').getD []).length : Int)

/-- No call of the sequence enlarges the vector of `d'`: references into it stay valid. -/
def Stable (extract : Nat → Nat → Res (Option V)) (d' : Nat) : Cache V → List (Nat × Int) → Prop
  | _, [] => True
  | c, q :: qs => ¬ grows c d' q ∧ Stable extract d' (getNodeValues extract c q.1 q.2).1 qs

end CellData

namespace CellIpData

variable {M Op : Type _}

/-- `nuto/mechanics/cell/CellIpData.h` 77-83: `N(dofType)`: `mNs[dofType]` creates an empty
matrix (`none`), which is replaced by the computed one.  `compute d` is `GetNMatrix`, `none` being
a matrix of size zero. -/
def getN (compute : Nat → Res (Option M)) (c : OMap Nat (Option M)) (d : Nat) :
    OMap Nat (Option M) × Res (Option M) :=
  let c1 := match c.find? d with | some _ => c | none => c.set d none
  match (c1.find? d).getD none with
  | some m => (c1, .ok (some m))
  | none =>
    match compute d with
    | .ok m => (c1.set d m, .ok m)
    | .throw => (c1, .throw)
    | .ub => (c1, .ub)

/-- `nuto/mechanics/cell/CellIpData.h` 89-95: `B(dofType, b)`: the cache is looked up by the dof
type only.  `compute d b` is `b(CalculateDerivativeShapeFunctionsGlobal(d))`. -/
def getB (compute : Nat → Op → Res (Option M)) (c : OMap Nat (Option M)) (d : Nat) (b : Op) :
    OMap Nat (Option M) × Res (Option M) :=
  getN (fun d' => compute d' b) c d

/-- A sequence of calls of `N`. -/
def runN (compute : Nat → Res (Option M)) (c : OMap Nat (Option M)) : List Nat → List (Res (Option M))
  | [] => []
  | d :: qs => (getN compute c d).2 :: runN compute (getN compute c d).1 qs

/-- A sequence of calls of `B`. -/
def runB (compute : Nat → Op → Res (Option M)) (c : OMap Nat (Option M)) :
    List (Nat × Op) → List (Res (Option M))
  | [] => []
  | q :: qs => (getB compute c q.1 q.2).2 :: runB compute (getB compute c q.1 q.2).1 qs

end CellIpData

/-! ### `NaturalCoordinateMemoizerMap` -/

namespace Memoizer

variable {K : Type _} [LinearOrder K] {R : Type _}

/-- `nuto/math/NaturalCoordinateMemoizer.h` 9-29: `CompareVector`.  Different sizes: `assert`.
Sizes other than 1, 2, 3: `throw;` without an active exception ends the program. -/
def less (l r : List K) : Res Bool :=
  Res.require (l.length = r.length) <|
    match l, r with
    | [a], [b] => .ok (decide (a < b))
    | [a0, a1], [b0, b1] => .ok (decide (a0 < b0 ∨ ¬ b0 < a0 ∧ a1 < b1))
    | [a0, a1, a2], [b0, b1, b2] =>
      .ok (decide (a0 < b0 ∨ ¬ b0 < a0 ∧ (a1 < b1 ∨ ¬ b1 < a1 ∧ a2 < b2)))
    | _, _ => .throw

/-- `std::map::find` with this comparison: an entry whose key is not less and not greater. -/
def find (v : List K) : List (List K × R) → Res (Option R)
  | [] => .ok none
  | (k, r) :: t => (less k v).bind fun a =>
    if a then find v t
    else (less v k).bind fun b => if b then .ok none else .ok (some r)

/-- `std::map::emplace_hint` for a key that is not in the map: insertion in order. -/
def insert (v : List K) (r : R) : List (List K × R) → Res (List (List K × R))
  | [] => .ok [(v, r)]
  | (k, r') :: t => (less k v).bind fun a =>
    if a then (insert v r t).bind fun t' => .ok ((k, r') :: t') else .ok ((v, r) :: (k, r') :: t)

/-- `nuto/math/NaturalCoordinateMemoizer.h` 49-70: `Get`; `function v = none` if the function
throws. -/
def get (function : List K → Res R) (c : List (List K × R)) (v : List K) :
    Res (List (List K × R) × R) :=
  (find v c).bind fun o => match o with
    | some r => .ok (c, r)
    | none => (function v).bind fun r => (insert v r c).bind fun c' => .ok (c', r)

/-- A call of the public interface. -/
inductive Query (K : Type _) where
  | get (v : List K)
  | clear

/-- `nuto/math/NaturalCoordinateMemoizer.h` 49-75: a sequence of calls and the returned values.
An exception of the function leaves the cache as it is and is reported as `throw`; an undefined
call makes the rest undefined. -/
def run (function : List K → Res R) (c : List (List K × R)) : List (Query K) → List (Res R)
  | [] => []
  | .clear :: qs => run function [] qs
  | .get v :: qs => match get function c v with
    | .ok (c', r) => .ok r :: run function c' qs
    | .throw => .throw :: run function c qs
    | .ub => .ub :: run function c qs

end Memoizer

/-! ### Cells -/

/-- What an integrand sees at an integration point, `nuto/mechanics/cell/CellIpData.h` 24-30: the
cell, the Jacobian, the coordinates and the number of the point. -/
structure IpData where
  cellId : Int
  ipId : Nat
  coords : List ℝ
  jacobian : Jacobian

/-- `nuto/mechanics/cell/Cell.h` 17-30, 121-125: the members used by the integration; `rule` are
weight and coordinates of the integration points. -/
structure Cell where
  id : Int
  coordElement : FemElement ℝ
  rule : List (ℝ × List ℝ)

namespace Cell

/-- `nuto/mechanics/cell/Cell.h` 17-30: the constructor compares the shapes. -/
def make (id : Int) (elementShape ruleShape : Nat) (coordElement : FemElement ℝ) (rule : List (ℝ × List ℝ)) :
    Res Cell :=
  if elementShape ≠ ruleShape then .throw else .ok ⟨id, coordElement, rule⟩

/-- `nuto/mechanics/cell/Cell.h` 111-115: the data of one integration point. -/
noncomputable def ipData (c : Cell) (iIP : Nat) (coords : List ℝ) : Res IpData :=
  (c.coordElement.extractNodeValues 0).bind fun v =>
    (Jacobian.make v c.coordElement.interp.dim (c.coordElement.interp.deriv fun k => coords.getD k 0)).bind
      fun J => .ok ⟨c.id, iIP, coords, J⟩

/-- `nuto/mechanics/cell/Cell.h` 109-117: body of the loop over the integration points;
`addScaled r x s t` is `result += x * s * t`. -/
noncomputable def integrateStep {R X : Type _} (addScaled : R → X → ℝ → ℝ → Res R) (c : Cell)
    (f : IpData → Res X) (r : R) (ip : (ℝ × List ℝ) × Nat) : Res R :=
  (c.ipData ip.2 ip.1.2).bind fun data => (f data).bind fun x => addScaled r x data.jacobian.det ip.1.1

/-- `nuto/mechanics/cell/Cell.h` 105-119: `IntegrateGeneric` -/
noncomputable def integrateGeneric {R X : Type _} (addScaled : R → X → ℝ → ℝ → Res R) (c : Cell)
    (f : IpData → Res X) (result : R) : Res R :=
  Res.foldlM (integrateStep addScaled c f) result c.rule.zipIdx

/-- `nuto/mechanics/cell/Cell.h` 42-45: `Integrate(ScalarFunction)` -/
noncomputable def integrateScalar (c : Cell) (f : IpData → Res ℝ) : Res ℝ :=
  integrateGeneric (fun r x s t => .ok (r + x * s * t)) c f 0

/-- `nuto/mechanics/cell/Cell.h` 32-35: `Integrate(VectorFunction)` -/
noncomputable def integrateVector (c : Cell) (f : IpData → Res (DofVec ℝ)) : Res (DofVec ℝ) :=
  integrateGeneric (fun r x s t => DofVec.addAssign r ((x.mulAssign s).mulAssign t)) c f []

/-- `nuto/mechanics/cell/Cell.h` 37-40: `Integrate(MatrixFunction)` -/
noncomputable def integrateMatrix (c : Cell) (f : IpData → Res (DofDMat ℝ)) : Res (DofDMat ℝ) :=
  integrateGeneric (fun r x s t => DofDMat.addAssign r (DofDMat.mulAssign (DofDMat.mulAssign x s) t)) c f []

/-- `nuto/mechanics/cell/Cell.h` 75-89: body of the loop of `Eval`. -/
noncomputable def evalStep {X : Type _} (c : Cell) (f : IpData → Res X) (r : List X)
    (ip : (ℝ × List ℝ) × Nat) : Res (List X) :=
  (c.ipData ip.2 ip.1.2).bind fun data => (f data).bind fun x => .ok (r ++ [x])

/-- `nuto/mechanics/cell/Cell.h` 75-89: `Eval` -/
noncomputable def eval {X : Type _} (c : Cell) (f : IpData → Res X) : Res (List X) :=
  Res.foldlM (evalStep c f) [] c.rule.zipIdx

end Cell

end NuTo
