/-
`nuto/math/Legendre.cpp`, `nuto/math/Quadrature.cpp` and
`nuto/mechanics/integrationtypes/IntegrationTypeTensorProduct.cpp`.

Simplifications: exact arithmetic over an ordered field instead of `double`; `std::tgamma` of
a positive integer is the factorial; a conversion of a number outside the range of `int` is
undefined.  The cosines of `FirstGuess` are a parameter.  The endless loop of Newton's method
is bounded by a number of iterations (`fuel`); the theorems are about the case that it stops.
Products of `int`s do not overflow.
-/
import Verif.Model.Basic
import Mathlib.Algebra.Order.Field.Basic
import Mathlib.Algebra.Order.AbsoluteValue.Basic
import Mathlib.Data.Nat.Factorial.Basic

namespace NuTo

namespace Legendre

/-- `nuto/math/Legendre.cpp` 10: the lambda `Factorial` (`double` converted to `int`). -/
def factorial (i : Nat) : Res Int :=
  if i.factorial ≤ 2147483647 then .ok i.factorial else .ub

section

variable {K : Type} [Field K]

/-- `nuto/math/Legendre.cpp` 15-19: the body of the loop. -/
def step (x : K) (k : Nat) (vals : List K) (i : Nat) : List K :=
  vals.set i (((2 * (i : K) - 1) * x * vals.getD (i - 1) 0 -
    ((i : K) - 1 + k) * (if 2 ≤ i then vals.getD (i - 2) 0 else 0)) / ((i : K) - (k : K)))

/-- `nuto/math/Legendre.cpp` 12-14: `vals` before the loop. -/
def start (n k : Nat) : Res (List K) := do
  let vals : List K := List.replicate (n + 1) 0
  if k ≤ n then do
    let a ← factorial (2 * k)
    let b ← factorial k
    pure (vals.set k ((a : K) / (2 ^ k * (b : K))))
  else pure vals

/-- `nuto/math/Legendre.cpp` 8-21: `Legendre`.  The size of the vector is `n + 1` converted to
`size_t`: negative values throw `std::length_error`, `back()` of the empty vector is
undefined, so is a negative derivative order. -/
def eval (n : Int) (x : K) (k : Int) : Res K :=
  if n < -1 then .throw
  else if n = -1 ∨ k < 0 then .ub
  else do
    let n := n.toNat
    let k := k.toNat
    let vals ← start n k
    let vals := (List.range' (k + 1) (n - k)).foldl (step x k) vals
    pure (vals.getD n 0)

end

section

variable {K : Type} [Field K] [LinearOrder K]

/-- `nuto/math/Legendre.cpp` 23-35: `FindLegendreRoot` with at most `fuel` iterations
(`none`: still running; a division by zero gives an infinite or undefined number and the
loop never ends). -/
def findRoot (n derivative : Int) : Nat → K → Res (Option K)
  | 0, _ => .ok none
  | fuel + 1, x => do
    let p ← eval n x derivative
    let q ← eval n x (derivative + 1)
    if q = 0 then .ok none
    else
      let xnew := x - p / q
      if |x - xnew| < 1 / 10 ^ 15 then .ok (some xnew) else findRoot n derivative fuel xnew

/-- `boost::range::sort`. -/
def sort (l : List K) : List K := l.mergeSort fun a b => decide (a ≤ b)

/-- `nuto/math/Legendre.cpp` 37-42: `FindLegendreRoots`; `none` if one of the loops is still
running. -/
def findRoots (fuel : Nat) (guess : List K) (n derivative : Int) : Res (Option (List K)) := do
  let r ← guess.mapM (findRoot n derivative fuel)
  pure (if r.all Option.isSome then some (sort (r.filterMap id)) else none)

/-- `nuto/math/Legendre.cpp` 44-50: `FirstGuess`; `cosine i` is the value of the cosine for
`i`.  A negative size throws. -/
def firstGuess (cosine : Nat → K) (n : Int) : Res (List K) :=
  if n < 0 then .throw else .ok ((List.range n.toNat).map fun (i : Nat) => cosine (i + 1))

/-- `nuto/math/Legendre.cpp` 52-55: `LegendreRoots`. -/
def roots (fuel : Nat) (cosine : Nat → K) (n : Int) : Res (Option (List K)) := do
  let guess ← firstGuess cosine n
  findRoots fuel guess n 0

/-- `nuto/math/Legendre.cpp` 57-66: `LegendreDerivRoots`. -/
def derivRoots (fuel : Nat) (cosine : Nat → K) (n : Int) : Res (Option (List K)) := do
  let ys ← firstGuess cosine n
  if n < 1 then .throw
  else
    let xs := (List.range (n.toNat - 1)).map fun (i : Nat) =>
      1 / 2 * (ys.getD i 0 + ys.getD (i + 1) 0)
    findRoots fuel xs n 1

end

end Legendre

namespace Quadrature

variable {K : Type} [Field K]

/-- `nuto/math/Quadrature.cpp` 26-40: `ComputeWeightsAndPoints1DGauss` after the roots have
been found; weights and points. -/
def gauss (nIps : Int) (points : List K) : Res (List K × List K) :=
  if nIps ≤ 0 then .throw
  else do
    let weights ← (List.range nIps.toNat).mapM fun (i : Nat) =>
      match points[i]? with
      | none => Res.ub
      | some p => do
        let dl ← Legendre.eval nIps p 1
        pure (2 / (1 - p * p) / (dl * dl))
    pure (weights, points)

/-- `nuto/math/Quadrature.cpp` 6-24: `ComputeWeightsAndPoints1DLobatto` after the roots of the
derivative (`inner`) have been found. -/
def lobatto (nIps : Int) (inner : List K) : Res (List K × List K) :=
  if nIps ≤ 1 then .throw
  else do
    let points := -1 :: (inner ++ [1])
    let edge : K := 2 / ((nIps * (nIps - 1) : Int) : K)
    let weights ← (List.range (nIps.toNat - 2)).mapM fun (i : Nat) =>
      match points[i + 1]? with
      | none => Res.ub
      | some p => do
        let lp ← Legendre.eval (nIps - 1) p 0
        pure (edge / (lp * lp))
    pure (edge :: (weights ++ [edge]), points)

/-- `nuto/mechanics/integrationtypes/IntegrationTypeTensorProduct.cpp` 30-37: the body of the
loop over the dimensions; the state is `(power, mWeights[i], mIPts[i])`. -/
def tensorStep (nIps : Nat) (weights points : List K) (i : Nat) (s : Nat × K × List K) (_ : Nat) :
    Nat × K × List K :=
  let index := (i / s.1) % nIps
  (s.1 * nIps, s.2.1 * weights.getD index 0, s.2.2 ++ [points.getD index 0])

/-- `nuto/mechanics/integrationtypes/IntegrationTypeTensorProduct.cpp` 15-39: the constructor
with a given one-dimensional rule with `nIps` points; the weight and the coordinates of every
integration point. -/
def tensor (dim nIps : Nat) (weights points : List K) : List (K × List K) :=
  (List.range (nIps ^ dim)).map fun (i : Nat) =>
    ((List.range dim).foldl (tensorStep nIps weights points i) (1, 1, [])).2

/-- `nuto/mechanics/integrationtypes/IntegrationTypeTensorProduct.cpp` 41-47 and 55-61:
coordinates and weight of an integration point. -/
def get (rule : List (K × List K)) (rIpNum : Int) : Res (K × List K) :=
  if 0 ≤ rIpNum then
    match rule[rIpNum.toNat]? with
    | some p => .ok p
    | none => .throw
  else .throw

end Quadrature

end NuTo
