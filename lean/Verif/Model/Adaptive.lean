import Mathlib.Algebra.Field.Defs
import Mathlib.Order.Defs.LinearOrder

/-!
Model of `/repo/nuto/mechanics/tools/AdaptiveSolve.cpp`.
Exact arithmetic instead of `double`.  Logging and the timer are not modelled.
-/
namespace NuTo
namespace Adaptive
variable {K : Type _} [Field K] [LinearOrder K]

/-- the public parameters, AdaptiveSolve.h 27-32 (`dt` is part of the state) -/
structure Params (K : Type _) where
  dtMax : K
  dtMin : K
  increase : K
  decrease : K

/-- what the step callback does: `none` raises `NoConvergence`, `some n` returns the number of iterations.  (Any other
exception leaves `Solve` at once; so does an exception of the post processing callback.) -/
abbrev Response := Option Int

/-- local variables and the member `dt`; `posts` is the list of calls of the post processing callback (latest first) -/
structure St (K : Type _) where
  t : K
  dt : K
  posts : List K
deriving DecidableEq

inductive Out (K : Type _) where
  | running (s : St K)
  | finished (s : St K)
  | failed (s : St K)      -- exception "Time step smaller than prescribed minimal time step"
deriving DecidableEq

/-- one pass of the `while` loop, AdaptiveSolve.cpp 29-65 -/
def pass (p : Params K) (tEnd : K) (s : St K) : Response → Out K
  | some n =>
    let t := s.t + s.dt
    let posts := t :: s.posts
    if t ≥ tEnd then .finished ⟨t, s.dt, posts⟩
    else
      let dt := if n < 3 ∧ s.dt < p.dtMax then min (s.dt * p.increase) p.dtMax else s.dt
      .running ⟨t, if t + dt > tEnd then tEnd - t else dt, posts⟩
  | none =>
    let dt := s.dt * p.decrease
    if dt < p.dtMin then .failed ⟨s.t, dt, s.posts⟩ else .running ⟨s.t, dt, s.posts⟩

/-- the first `n` passes for a sequence of responses -/
def runFrom (p : Params K) (tEnd : K) (resp : Nat → Response) (o : Out K) : Nat → Out K
  | 0 => o
  | n + 1 => match runFrom p tEnd resp o n with
    | .running s => pass p tEnd s (resp n)
    | o => o

/-- `Solve(tEnd, tStart)`, AdaptiveSolve.cpp 18-67, after `n` passes.  The post processing is called once before the loop. -/
def run (p : Params K) (tStart tEnd dt0 : K) (resp : Nat → Response) (n : Nat) : Out K :=
  runFrom p tEnd resp (.running ⟨tStart, dt0, [tStart]⟩) n

end Adaptive
end NuTo
