import Verif.Model.Basic
import Mathlib.Algebra.Field.Defs

/-!
Model of `/repo/nuto/math/NewtonRaphson.h` and `/repo/nuto/math/LineSearch.h`.
The residual, derivative, norm, vector update and linear solver are arbitrary functions that may throw.
-/
namespace NuTo
namespace Newton

/-- what the algorithm uses of the problem: `Residual`, `Derivative`, `Norm`, `mTolerance` (NewtonRaphson.h 37-44) and the
vector operation `x0 - alpha * dx` (for `DofVector` this may throw or be undefined) -/
structure Problem (X D K : Type _) where
  residual : X → Res X
  derivative : X → Res D
  norm : X → Res K
  tol : K
  axpy : X → K → X → Res X

variable {X D K : Type _} [Field K] [LinearOrder K]

/-- result of one line search: the return value, and the new `x` and `r` -/
structure LsOut (X : Type _) where
  converged : Bool
  x : X
  r : X
deriving DecidableEq

/-- the `while` loop of LineSearch.h 45-61; the first argument is the number of remaining line search steps -/
def lsLoop (p : Problem X D K) (x0 dx : X) (prev : K) : Nat → K → X → X → Res (LsOut X)
  | 0, _, x, r => .ok ⟨false, x, r⟩
  | n + 1, alpha, _, _ =>
    (p.axpy x0 alpha dx).bind fun x => (p.residual x).bind fun r => (p.norm r).bind fun trial =>
      if trial < p.tol then .ok ⟨true, x, r⟩
      else if trial < (1 - alpha / 2) * prev then .ok ⟨false, x, r⟩
      else lsLoop p x0 dx prev n (alpha / 2) x r

/-- `LineSearchImplementation::operator()`, LineSearch.h 39-63 -/
def lineSearch (maxSteps : Nat) (p : Problem X D K) (r x dx : X) : Res (LsOut X) :=
  (p.residual x).bind fun r0 => (p.norm r0).bind fun prev => lsLoop p x dx prev maxSteps 1 x r

/-- `NoLineSearch::operator()`, LineSearch.h 79-89 -/
def noLineSearch (p : Problem X D K) (_r x dx : X) : Res (LsOut X) :=
  (p.axpy x 1 dx).bind fun x' => (p.residual x').bind fun r' => (p.norm r').bind fun n => .ok ⟨decide (n < p.tol), x', r'⟩

/-- outcome of `Solve`: the returned `x` with the value written to `*numIterations` (`none`: not written), or the exception
`NoConvergence` -/
inductive Out (X : Type _) where
  | converged (x : X) (numIterations : Option Nat)
  | noConvergence (numIterations : Nat)
deriving DecidableEq

/-- one call of `solver.Solve(dr, r)` as seen by the solver, with the `x` at that time -/
structure Call (X D : Type _) where
  x : X
  dr : D
  r : X
deriving DecidableEq

/-- the `while` loop of NewtonRaphson.h 73-89; the first argument is `maxIterations - iteration`.
The first component of the result lists the calls of the linear solver (also if the call throws). -/
def loop (p : Problem X D K) (solver : D → X → Res X) (ls : Problem X D K → X → X → X → Res (LsOut X)) :
    Nat → Nat → X → X → List (Call X D) × Res (Out X)
  | 0, it, _, _ => ([], .ok (.noConvergence it))
  | n + 1, it, x, r =>
    match p.derivative x with
    | .ok dr =>
      match (solver dr r).bind fun dx => ls p r x dx with
      | .ok o =>
        if o.converged then ([⟨x, dr, r⟩], .ok (.converged o.x (some (it + 1))))
        else
          let rest := loop p solver ls n (it + 1) o.x o.r
          (⟨x, dr, r⟩ :: rest.1, rest.2)
      | .throw => ([⟨x, dr, r⟩], .throw)
      | .ub => ([⟨x, dr, r⟩], .ub)
    | .throw => ([], .throw)
    | .ub => ([], .ub)

/-- `Solve`, NewtonRaphson.h 62-94 -/
def solve (p : Problem X D K) (solver : D → X → Res X) (ls : Problem X D K → X → X → X → Res (LsOut X)) (maxIterations : Nat)
    (x0 : X) : List (Call X D) × Res (Out X) :=
  match p.residual x0 with
  | .ok r =>
    match p.norm r with
    | .ok n => if n < p.tol then ([], .ok (.converged x0 none)) else loop p solver ls maxIterations 0 x0 r
    | .throw => ([], .throw)
    | .ub => ([], .ub)
  | .throw => ([], .throw)
  | .ub => ([], .ub)

end Newton
end NuTo
