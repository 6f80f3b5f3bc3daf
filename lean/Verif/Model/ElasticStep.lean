/-
`QuasistaticSolver` with a `TimeDependentProblem` whose cells are linear elastic: what `Model/Quasistatic` leaves open is filled
with the assembly of `Model/Balance` and `Model/Stiffness`, the solver of `Model/Solve` and the constraints of
`Model/Constraints`.

Simplifications: exact real arithmetic; one dof type.  The external forces are given as an assembled vector for every time.
The law has no history data.
-/
import Verif.Model.Stiffness
import Verif.Model.Quasistatic
import Mathlib.Analysis.Real.Sqrt

namespace NuTo

open Balance

namespace ElasticStep

/-- `nuto/mechanics/tools/NodalValueMerger.cpp` 18-28: the element after `Merge`: the nodes, which the elements reference, hold
the entries of the vector at their dof numbers.  (Numbers outside the vector do not occur, see `Balance.Numbered`.) -/
def moved (R : List ℝ) (e : FemElement ℝ) : FemElement ℝ :=
  ⟨e.nodes.map fun nd => ⟨(nd.dofNumbers.map fun g => R.getD g.toNat 0) :: nd.values.tail, nd.dofNumbers⟩, e.interp⟩

/-- the cells of all threads after `Merge` -/
def movedThreads (R : List ℝ) (threads : List (List (Cell × FemElement ℝ))) : List (List (Cell × FemElement ℝ)) :=
  threads.map fun t => t.map fun x => (x.1, moved R x.2)

/-- data of the problem -/
structure Setup where
  dof : Nat
  dim : Nat
  E : ℝ
  nu : ℝ
  ps : PlaneState
  sizes : Assembly.DofSizes
  threads : List (List (Cell × FemElement ℝ))
  /-- assembled external forces -/
  load : ℝ → List ℝ

/-- `nuto/mechanics/tools/TimeDependentProblem.cpp` 56-65: `Gradient` with `MomentumBalance::Gradient` of the law
`LinearElastic` and a second function that delivers the external forces with negative sign -/
noncomputable def gradient (a : Setup) (x : DofVec ℝ) (t : ℝ) : Res (DofVec ℝ) :=
  (x.at' a.dof).bind fun R =>
    (assembleVector a.sizes a.dof (momentum a.dof fun e _ => elasticStress a.dim a.E a.nu a.ps e)
      (movedThreads R a.threads)).bind fun v => v.addAssign [(a.dof, (a.load t).map fun y => -y)]

/-- `nuto/mechanics/tools/TimeDependentProblem.cpp` 67-76: `Hessian0` with `MomentumBalance::Hessian0` -/
noncomputable def hessian (a : Setup) (x : DofVec ℝ) : Res (DofSpMat ℝ) :=
  (x.at' a.dof).bind fun R =>
    assembleMatrix a.sizes a.dof (stiffness a.dof fun _ _ => .ok (elasticTangent a.dim a.E a.nu a.ps))
      (movedThreads R a.threads)

/-- `nuto/mechanics/tools/QuasistaticSolver.cpp` 84-90: `Norm` -/
noncomputable def norm (cmat : DofSpMat ℝ) (dof : Nat) (r : DofVec ℝ) : Res ℝ :=
  (Quasistatic.normSq cmat [dof] r).bind fun q => .ok (Real.sqrt q)

/-- `nuto/mechanics/dofs/DofVector.h` 48-65 and 113-124: `x - alpha * dx` -/
noncomputable def axpy (x : DofVec ℝ) (alpha : ℝ) (dx : DofVec ℝ) : Res (DofVec ℝ) := x.subAssign (dx.mulAssign alpha)

/-- what `QuasistaticSolver::DoStep` uses, `nuto/mechanics/tools/QuasistaticSolver.cpp` 51-90 and 116-147; `lin` is
`EigenSparseSolve` with the name of the solver, `cmat` the member `mCmatUnit` -/
noncomputable def env (a : Setup) (lin : SpMat ℝ → List ℝ → Res (List ℝ)) (bcs : Bcs ℝ) (cmat : DofSpMat ℝ) (tol : ℝ) :
    Quasistatic.Env (DofVec ℝ) (DofSpMat ℝ) Unit ℝ where
  gradient _ x t _ := gradient a x t
  hessian _ x _ _ := hessian a x
  update _ _ _ _ := ((), true)
  solveTrial D f t0 t1 := Solve.solveTrialState lin bcs D f t0 t1 [a.dof]
  solve D f := Solve.solve lin bcs D f [a.dof]
  norm := norm cmat a.dof
  axpy := axpy
  tol := tol

end ElasticStep

end NuTo
