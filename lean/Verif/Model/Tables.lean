/-
Table interpolation (`nuto/math/Interpolation.cpp`, `LinearInterpolation.cpp`,
`CubicSplineInterpolation.cpp`) and integration of load displacement curves
(`nuto/mechanics/tools/GlobalFractureEnergyIntegrator.cpp`).

Simplifications: exact arithmetic in an ordered field; a division by zero (infinity or not a number in
C++) is the outcome `ub`; sizes do not overflow `unsigned`.
-/
import Verif.Model.Basic
import Mathlib.Algebra.Order.Field.Basic

namespace NuTo

/-- A division whose denominator must not vanish. -/
def safeDiv {K : Type _} [Field K] [DecidableEq K] (a b : K) : Res K := if b = 0 then .ub else .ok (a / b)

namespace Table

variable {K : Type _} [Field K] [LinearOrder K]

/-- `nuto/math/Interpolation.cpp` 10-19: what the constructor stores.  `std::sort` with
`CompareDataPairs` (5-8) yields some permutation that is sorted by the first component; the order of
entries with the same first component is unspecified.  Too few entries raise. -/
def Constructs (data : List (K × K)) (numNeighborPoints : Nat) : Res (List (K × K)) → Prop
  | .throw => data.length < numNeighborPoints
  | .ub => False
  | .ok mData => numNeighborPoints ≤ data.length ∧ mData.Perm data ∧
      mData.Pairwise fun (a b : K × K) => a.1 ≤ b.1

/-- `mData[i]`: `std::vector::operator[]` does not check the index. -/
def entry (mData : List (K × K)) (i : Nat) : Res (K × K) :=
  match mData[i]? with
  | some e => .ok e
  | none => .ub

/-- `nuto/math/Interpolation.cpp` 25-36: the loop of `bisection`. -/
def bisectLoop (mData : List (K × K)) (x : K) (lower upper : Nat) : Res Nat :=
  if _h : upper - lower > 1 then
    let pivot := (upper + lower) / 2
    match mData[pivot]? with
    | some e => if x > e.1 then bisectLoop mData x pivot upper else bisectLoop mData x lower pivot
    | none => .ub
  else .ok lower
termination_by upper - lower
decreasing_by all_goals omega

/-- `nuto/math/Interpolation.cpp` 21-38: `bisection`; both interpolations use two neighbouring points. -/
def bisection (mData : List (K × K)) (numNeighborPoints : Nat) (x : K) : Res Nat :=
  if mData.length = 0 ∨ numNeighborPoints < 2 then .ub
  else (bisectLoop mData x 0 (mData.length - 1)).bind fun lower => .ok (lower + (numNeighborPoints - 2) / 2)

/-- `nuto/math/LinearInterpolation.cpp` 6-7, 18-19: the check of the range; `mData[0]`, `mData.back()`
of an empty vector are undefined. -/
def outOfRange (mData : List (K × K)) (x : K) : Res Bool :=
  match mData.head?, mData.getLast? with
  | some a, some b => .ok (decide (x < a.1 ∨ x > b.1))
  | _, _ => .ub

/-- `nuto/math/LinearInterpolation.cpp` 10, 22: the slope. -/
def slope (mData : List (K × K)) (index : Nat) : Res K :=
  (entry mData (index + 1)).bind fun b => (entry mData index).bind fun a => safeDiv (b.2 - a.2) (b.1 - a.1)

/-- `nuto/math/LinearInterpolation.cpp` 4-14: `operator()` -/
def linear (mData : List (K × K)) (x : K) : Res K :=
  (outOfRange mData x).bind fun out =>
    if out then .throw
    else
      (bisection mData 2 x).bind fun index => (slope mData index).bind fun m =>
        (entry mData index).bind fun a => .ok (m * (x - a.1) + a.2)

/-- `nuto/math/LinearInterpolation.cpp` 16-24 and `nuto/math/CubicSplineInterpolation.cpp` 45-53:
`derivative` -/
def linearDerivative (mData : List (K × K)) (x : K) : Res K :=
  (outOfRange mData x).bind fun out =>
    if out then .throw else (bisection mData 2 x).bind fun index => slope mData index

/-! ### Cubic splines

`nuto/math/CubicSplineInterpolation.cpp` 9-14 only reserves memory for `ddy` and `u` and then writes
through `operator[]`, which is undefined (`splineStrict`).  The functions below describe what the
algorithm computes if the reserved memory is usable, that is, with `resize` in place of `reserve`. -/

/-- `nuto/math/CubicSplineInterpolation.cpp` 4-13 read literally: `ddy[0] = u[0] = 0.0` accesses vectors
of size zero. -/
def splineStrict (_mData : List (K × K)) : Res (List K) :=
  let u : List K := []
  match u[0]? with
  | none => .ub
  | some _ => .ok []

/-- `nuto/math/CubicSplineInterpolation.cpp` 17-22: body of the forward loop; `s.1`, `s.2` are the
entries `i - 1` of `ddy` and `u`, the result their entries `i`. -/
def splineForward (d : Nat → K × K) (s : K × K) (i : Nat) : K × K :=
  let sigma := ((d i).1 - (d (i - 1)).1) / ((d (i + 1)).1 - (d (i - 1)).1)
  let p := sigma * s.1 + 2
  let u := ((d (i + 1)).2 - (d i).2) / ((d (i + 1)).1 - (d i).1) -
    ((d i).2 - (d (i - 1)).2) / ((d i).1 - (d (i - 1)).1)
  ((sigma - 1) / p, (6 * u / ((d (i + 1)).1 - (d (i - 1)).1) - sigma * s.2) / p)

/-- `nuto/math/CubicSplineInterpolation.cpp` 13, 15-23: entries `i` of `ddy` and `u` after the forward
loop. -/
def splineUp (d : Nat → K × K) : Nat → K × K
  | 0 => (0, 0)
  | i + 1 => splineForward d (splineUp d i) (i + 1)

/-- `nuto/math/CubicSplineInterpolation.cpp` 13-14, 25-28: entry `n - 1 - j` of `ddy` after the back
substitution. -/
def splineBack (d : Nat → K × K) (n : Nat) : Nat → K
  | 0 => 0
  | j + 1 =>
    if n - 1 - (j + 1) = 0 then 0
    else (splineUp d (n - 1 - (j + 1))).1 * splineBack d n j + (splineUp d (n - 1 - (j + 1))).2

/-- `nuto/math/CubicSplineInterpolation.cpp` 4-29: entry `k` of `ddy`. -/
def splineDdy (mData : List (K × K)) (k : Nat) : K :=
  splineBack (fun i => mData.getD i (0, 0)) mData.length (mData.length - 1 - k)

/-- `nuto/math/CubicSplineInterpolation.cpp` 37-42: the value of the spline on an interval. -/
def splineValue (mData : List (K × K)) (index : Nat) (x : K) : K :=
  let d := fun i => mData.getD i (0, 0)
  let h := (d (index + 1)).1 - (d index).1
  let a := ((d (index + 1)).1 - x) / h
  let b := (x - (d index).1) / h
  a * (d index).2 + b * (d (index + 1)).2 +
    ((a * a * a - a) * splineDdy mData index + (b * b * b - b) * splineDdy mData (index + 1)) * (h * h) / 6

/-- `nuto/math/CubicSplineInterpolation.cpp` 31-43: `operator()` -/
def spline (mData : List (K × K)) (x : K) : Res K :=
  (outOfRange mData x).bind fun out =>
    if out then .throw
    else
      (bisection mData 2 x).bind fun index => (slope mData index).bind fun _ => .ok (splineValue mData index x)

end Table

/-! ### Load displacement curves -/

namespace LoadCurve

variable {K : Type _} [Field K] [LinearOrder K]

/-- `nuto/mechanics/tools/GlobalFractureEnergyIntegrator.cpp` 86-96: `CheckData`; access to the first
entry of an empty vector is undefined. -/
def check (force displ : List K) : Res Unit :=
  if force.length ≠ displ.length then .throw
  else
    match force[0]?, displ[0]? with
    | some f, some d =>
      if |f| > 1 / 10 ^ 10 then .throw else if |d| > 1 / 10 ^ 10 then .throw else .ok ()
    | _, _ => .ub

/-- `nuto/mechanics/tools/GlobalFractureEnergyIntegrator.cpp` 8-14: the constructor; absolute values of
forces and displacements. -/
def make (forces displacements : List K) : Res (List K × List K) :=
  (check (forces.map fun x => |x|) (displacements.map fun x => |x|)).bind fun _ =>
    .ok (forces.map fun x => |x|, displacements.map fun x => |x|)

/-- `nuto/mechanics/tools/GlobalFractureEnergyIntegrator.cpp` 79-81: body of the loop. -/
def integralStep (force displ : List K) (integral : K) (iRow : Nat) : Res K :=
  match force[iRow]?, force[iRow + 1]?, displ[iRow]?, displ[iRow + 1]? with
  | some f0, some f1, some d0, some d1 => .ok (integral + (f1 + f0) / 2 * (d1 - d0))
  | _, _, _, _ => .ub

/-- `nuto/mechanics/tools/GlobalFractureEnergyIntegrator.cpp` 73-84:
`IntegrateSofteningCurveInternal` -/
def integral (force displ : List K) (rEnd : Nat) : Res K :=
  Res.foldlM (integralStep force displ) 0 (List.range (rEnd - 1))

/-- `nuto/mechanics/tools/GlobalFractureEnergyIntegrator.cpp` 65-69: the loop of
`FindIndexJustAboveForceThreshold`. -/
def findIndex (force : List K) (threshold : K) : Option Nat :=
  (List.range (force.length - 1)).find? fun i =>
    decide (force.getD i 0 > threshold ∧ force.getD (i + 1) 0 ≤ threshold)

/-- `nuto/mechanics/tools/GlobalFractureEnergyIntegrator.cpp` 59-71:
`FindIndexJustAboveForceThreshold` -/
def indexJustAbove (force : List K) (threshold : K) : Res Nat :=
  match force.getLast? with
  | none => .ub
  | some l =>
    if threshold < l then .throw
    else
      match findIndex force threshold with
      | some i => .ok i
      | none => .throw

/-- `nuto/mechanics/tools/GlobalFractureEnergyIntegrator.cpp` 39-57:
`IntegrateIndexToForceThreshold`; index `-1` is undefined. -/
def indexToThreshold (force displ : List K) (rIndexEnd : Nat) (threshold : K) : Res K :=
  match rIndexEnd with
  | 0 => .ub
  | k + 1 =>
    match displ[k]?, displ[k + 1]?, force[k]?, force[k + 1]? with
    | some d0, some d1, some f0, some f1 =>
      (safeDiv (d0 - d1) (f0 - f1)).bind fun q =>
        .ok ((threshold + f0) / 2 * (d0 + q * (threshold - f0) - d0))
    | _, _, _, _ => .ub

/-- `nuto/mechanics/tools/GlobalFractureEnergyIntegrator.cpp` 26-29: `IntegrateSofteningCurve(area)` -/
def energy (force displ : List K) (area : K) : Res K :=
  (integral force displ force.length).bind fun s => safeDiv s area

/-- `nuto/mechanics/tools/GlobalFractureEnergyIntegrator.cpp` 31-37:
`IntegrateSofteningCurve(area, threshold)` -/
def energyThreshold (force displ : List K) (area threshold : K) : Res K :=
  (indexJustAbove force threshold).bind fun iEnd => (integral force displ iEnd).bind fun s =>
    (indexToThreshold force displ iEnd threshold).bind fun t => safeDiv (s + t) area

end LoadCurve

end NuTo
