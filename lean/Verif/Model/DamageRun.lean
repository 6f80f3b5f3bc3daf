/-
A structure whose cells have the law `LocalIsotropicDamage`, along a sequence of load steps: in each step the internal forces
are computed for the new displacements and then the history data are updated with them.

Simplifications: exact real arithmetic; one dof type and one law for all cells.  The displacements of the steps are given, as
`QuasistaticSolver` finds them with the Newton method (`Model/Quasistatic`).
-/
import Verif.Model.ElasticStep

namespace NuTo

open Balance ElasticStep

namespace DamageRun

variable {N : Nat}

/-- `nuto/mechanics/constitutive/LocalIsotropicDamage.h` 51-56: `Stress` for the strain of an integration point, as
`MomentumBalance` calls it (`nuto/mechanics/integrands/MomentumBalance.h` 31-32).  A strain with another number of components
does not compile. -/
noncomputable def stress (l : LocalDamage N) (eps : List ℝ) (d : IpData) : Res (List ℝ) :=
  Res.require (eps.length = N) ((l.stress (fun i => eps.getD i 0) d.cellId d.ipId).bind fun s => .ok (List.ofFn s))

/-- `applications/integrationtests/mechanics/QuasistaticProblem1D.cpp` 44-49: the update function of an integration point,
with `nuto/mechanics/constitutive/LocalIsotropicDamage.h` 70-73 -/
noncomputable def update (e : FemElement ℝ) (l : LocalDamage N) (d : IpData) : Res (LocalDamage N) :=
  (bMatrix e d).bind fun B => (e.extractNodeValues 0).bind fun u => (B.mulVec u).bind fun eps =>
    Res.require (eps.length = N) (l.update (fun i => eps.getD i 0) d.cellId d.ipId)

/-- `nuto/mechanics/cell/Cell.h` 50-57: body of the loop of `Apply`; `S` is what the function changes. -/
noncomputable def applyStep {S : Type} (c : Cell) (f : S → IpData → Res S) (s : S) (ip : (ℝ × List ℝ) × Nat) : Res S :=
  (c.ipData ip.2 ip.1.2).bind fun data => f s data

/-- `nuto/mechanics/cell/Cell.h` 47-58: `Apply` -/
noncomputable def applyCell {S : Type} (c : Cell) (f : S → IpData → Res S) (s : S) : Res S :=
  Res.foldlM (applyStep c f) s c.rule.zipIdx

/-- body of the loop of `updateHistory`, for the displacements `R` -/
noncomputable def updateStep (R : List ℝ) (l : LocalDamage N) (x : Cell × FemElement ℝ) : Res (LocalDamage N) :=
  applyCell x.1 (update (moved R x.2)) l

/-- `nuto/mechanics/tools/TimeDependentProblem.cpp` 78-85: `UpdateHistory` -/
noncomputable def updateHistory (cells : List (Cell × FemElement ℝ)) (l : LocalDamage N) (R : List ℝ) :
    Res (LocalDamage N) :=
  Res.foldlM (updateStep R) l cells

/-- `nuto/mechanics/tools/TimeDependentProblem.cpp` 56-65: the internal forces of the displacements `R`, assembled by
`threads` -/
noncomputable def forces (s : Assembly.DofSizes) (dof : Nat) (threads : List (List (Cell × FemElement ℝ)))
    (l : LocalDamage N) (R : List ℝ) : Res (List ℝ) :=
  (assembleVector s dof (momentum dof (stress l)) (movedThreads R threads)).bind fun v => v.at' dof

/-- `nuto/mechanics/tools/QuasistaticSolver.cpp` 128-147: a step to the displacements `R`: the internal forces that the
residual contains, and the law after `UpdateHistory`.  Each step has a schedule of the threads. -/
noncomputable def step (s : Assembly.DofSizes) (dof : Nat) (cells : List (Cell × FemElement ℝ)) (l : LocalDamage N)
    (x : List (List (Cell × FemElement ℝ)) × List ℝ) : Res (List ℝ × LocalDamage N) :=
  (forces s dof x.1 l x.2).bind fun f => (updateHistory cells l x.2).bind fun l' => .ok (f, l')

/-- a sequence of steps: displacements and internal forces -/
noncomputable def run (s : Assembly.DofSizes) (dof : Nat) (cells : List (Cell × FemElement ℝ)) :
    LocalDamage N → List (List (List (Cell × FemElement ℝ)) × List ℝ) → Res (List (List ℝ × List ℝ))
  | _, [] => .ok []
  | l, x :: t => (step s dof cells l x).bind fun y => (run s dof cells y.2 t).bind fun r => .ok ((x.2, y.1) :: r)

end DamageRun

end NuTo
