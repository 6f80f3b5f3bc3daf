import Mathlib.Analysis.SpecialFunctions.Pow.Real
import Mathlib.Analysis.Real.Pi.Bounds
import Verif.Model.Placement

/-!
The take phase of `NuTo::ParticleCreator` (`nuto/geometryConcrete/takeAndPlace/ParticleCreator.cpp`).

`double` is `ℝ`; `pow(x, 1.0 / 3.0)` is the real power with exponent `1 / 3`.  The random numbers are an argument, one
for each particle that is tried.  The matrix with its growing number of rows is the list of its radii.
-/

namespace NuTo.TakePhase

open Placement (Outcome)

/-- A row of the grading curve -/
structure GradingClass where
  dMin : ℝ
  dMax : ℝ
  volumeFrac : ℝ

/-- What a run with the given random numbers does -/
inductive Taken (α : Type) where
  | done (a : α) (rest : List ℝ)
  | more

/-- `radius`, `ParticleCreator.cpp:91-93` -/
noncomputable def radius (c : GradingClass) (u : ℝ) : ℝ :=
  1 / 2 * c.dMin * c.dMax /
    ((1 - u) * (c.dMax * c.dMax * c.dMax) + u * (c.dMin * c.dMin * c.dMin)) ^ ((1 : ℝ) / 3)

/-- `GetVolume`, `ParticleCreator.cpp:439-442`, also `:96` -/
noncomputable def volume (r : ℝ) : ℝ := 4 / 3 * Real.pi * r * r * r

/-- The loop `while (!finished)`, `ParticleCreator.cpp:79-114`: the radii of the new particles and `Vist[gc]` at the end -/
noncomputable def takeClass (c : GradingClass) (vSoll : ℝ) : ℝ → List ℝ → Taken (List ℝ × ℝ)
  | _, [] => .more
  | vIst, u :: us =>
    let r := radius c u
    if vIst + volume r < vSoll then
      match takeClass c vSoll (vIst + volume r) us with
      | .done (rs, v) rest => .done (r :: rs, v) rest
      | .more => .more
    else .done ([], vIst + volume r - volume r) us

/-- The loop over the grading classes, `ParticleCreator.cpp:62-118`; `missing` is `Vsoll[gc - 1] - Vist[gc - 1]`, zero for
the first class. -/
noncomputable def takeClasses (volumeSum : ℝ) : List GradingClass → ℝ → List ℝ → Taken (List ℝ × ℝ)
  | [], missing, rand => .done ([], missing) rand
  | c :: cs, missing, rand =>
    let vSoll := volumeSum * c.volumeFrac + missing
    match takeClass c vSoll 0 rand with
    | .done (rs, vIst) rest =>
      match takeClasses volumeSum cs (vSoll - vIst) rest with
      | .done (rs', m) rest' => .done (rs ++ rs', m) rest'
      | .more => .more
    | .more => .more

/-- `CheckGradingCurve`, `ParticleCreator.cpp:263-283` -/
noncomputable def checkGradingCurve (curve : List GradingClass) : Res PUnit :=
  if curve.length < 1 then .throw
  else if curve.all fun c => ¬ (c.dMin > c.dMax) ∧ ¬ (c.volumeFrac < 0 ∨ c.volumeFrac > 1) then .ok ()
  else .throw

/-- The result of `PerformTakePhase`, `ParticleCreator.cpp:44-141`, without boundary spheres: the radii in descending order,
shrunk -/
noncomputable def takePhase (specimenVolume relParticleVolume shrinkage : ℝ) (curve : List GradingClass) (rand : List ℝ) :
    Taken (List ℝ) :=
  match takeClasses (specimenVolume * relParticleVolume) curve 0 rand with
  | .done (rs, _) rest => .done ((rs.mergeSort (fun a b => decide (b ≤ a))).map (· * (1 - shrinkage))) rest
  | .more => .more

end NuTo.TakePhase
