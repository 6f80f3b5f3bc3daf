import Verif.Model.Newton
import Verif.Model.Solve

/-!
Model of `/repo/nuto/mechanics/tools/QuasistaticSolver.cpp`: the convergence norm and the load step.
-/
namespace NuTo
namespace Quasistatic
variable {K : Type _} [Field K] [LinearOrder K]

/-- one pass of the loop QuasistaticSolver.cpp 37-42.  `setZero()` keeps the size of an existing block; an absent block is
default constructed with size 0 x 0 by the access. -/
def constraintStep (bcs : Bcs K) (size : Nat → Nat) (c : DofSpMat K) (p : Nat × Nat) : Res (DofSpMat K) :=
  if p.1 = p.2 then (bcs.unit p.1 (size p.1)).bind fun m => .ok (c.set (toLex p) m)
  else
    let old := (c.find? (toLex p)).getD ⟨0, 0, []⟩
    .ok (c.set (toLex p) ⟨old.rows, old.cols, []⟩)

/-- the member `mCmatUnit` after `SetConstraints`, QuasistaticSolver.cpp 29-43; `size d` is the number of dofs after
renumbering -/
def setConstraints (bcs : Bcs K) (size : Nat → Nat) (c : DofSpMat K) (dofs : List Nat) : Res (DofSpMat K) :=
  Res.foldlM (constraintStep bcs size) c (Solve.allPairs dofs)

/-- the square of `Norm`, QuasistaticSolver.cpp 84-90 (the square avoids the square root) -/
def normSq (cmat : DofSpMat K) (dofs : List Nat) (residual : DofVec K) : Res K :=
  (residual.toEigen dofs).bind fun tmp => (cmat.toEigen dofs).bind fun C => (C.transpose.mulVec tmp).bind fun y =>
    .ok (y.map fun v => v * v).sum

/-- what a load step uses of the `TimeDependentProblem`, the constraints and the linear solver.  `H` is the history data of
the integrands.  `update` returns the new history data and whether an update function threw. -/
structure Env (X D H K : Type _) where
  gradient : H → X → K → K → Res X        -- Gradient(x, dofs, t, dt)
  hessian : H → X → K → K → Res D         -- Hessian0(x, dofs, t, dt)
  update : H → X → K → K → H × Bool       -- UpdateHistory(x, dofs, t, dt); `true`: completed
  solveTrial : D → X → K → K → Res X      -- SolveTrialState(K, f, oldTime, newTime)
  solve : D → X → Res X                   -- Solve(K, f)
  norm : X → Res K
  axpy : X → K → X → Res X                -- x0 - alpha * dx
  tol : K

/-- the members `mX`, `mGlobalTime`, `mTimeStep`, and the history data of the integrands -/
structure State (X H K : Type _) where
  x : X
  time : K
  step : K
  hist : H
deriving DecidableEq

/-- outcome of `DoStep`.  `numIterations` is 0 if Newton's method did not write it. -/
inductive StepOut where
  | converged (numIterations : Nat)
  | noConvergence          -- `NewtonRaphson::NoConvergence`
  | trialError             -- exception of `TrialState` (not converted)
  | updateError            -- exception of `UpdateHistory` (not converted) or of the final norm
  | undefined
deriving DecidableEq, Repr

variable {X D H : Type _}

/-- `TrialState`, QuasistaticSolver.cpp 51-66 -/
def trialState (e : Env X D H K) (s : State X H K) (newTime : K) : Res X :=
  (e.hessian s.hist s.x s.time s.step).bind fun h =>
    (e.gradient s.hist s.x newTime (newTime - s.time)).bind fun g =>
      (e.solveTrial h g s.time newTime).bind fun d => e.axpy s.x 1 d

/-- the object passed to Newton's method, QuasistaticSolver.cpp 68-79: evaluated at `mGlobalTime + mTimeStep` -/
def problem (e : Env X D H K) (s : State X H K) : Newton.Problem X D K :=
  ⟨fun u => e.gradient s.hist u (s.time + s.step) s.step, fun u => e.hessian s.hist u (s.time + s.step) s.step, e.norm,
    e.tol, e.axpy⟩

/-- `DoStep`, QuasistaticSolver.cpp 116-147.  The node values of the mesh are not part of the state: every evaluation
merges its argument into the mesh, the last one on success is `UpdateHistory(tmpX)`. -/
def doStep (e : Env X D H K) (s : State X H K) (newTime : K) : State X H K × StepOut :=
  match trialState e s newTime with
  | .throw => (s, .trialError)
  | .ub => (s, .undefined)
  | .ok trial =>
    let s1 := { s with step := newTime - s.time }
    match (Newton.solve (problem e s1) e.solve (Newton.lineSearch 6) 6 trial).2 with
    | .throw => (s1, .noConvergence)
    | .ub => (s1, .undefined)
    | .ok (.noConvergence _) => (s1, .noConvergence)
    | .ok (.converged y k) =>
      match e.norm y with
      | .throw => (s1, .updateError)
      | .ub => (s1, .undefined)
      | .ok n =>
        if n > 10000000000 then (s1, .noConvergence)
        else
          let h := e.update s1.hist y (s1.time + s1.step) s1.step
          if h.2 then ({ s1 with hist := h.1, time := newTime, x := y }, .converged (k.getD 0))
          else ({ s1 with hist := h.1 }, .updateError)

/-- `SetGlobalTime`, QuasistaticSolver.cpp 45-49 -/
def setGlobalTime (s : State X H K) (t : K) : State X H K := { s with step := t - s.time, time := t }

/-- calls made by a user -/
inductive Op (K : Type _) where
  | doStep (newTime : K)
  | setGlobalTime (t : K)

/-- one call -/
def op (e : Env X D H K) (s : State X H K) : Op K → State X H K × Option StepOut
  | .doStep t => let r := doStep e s t; (r.1, some r.2)
  | .setGlobalTime t => (setGlobalTime s t, none)

end Quasistatic
end NuTo
