/-
The Lobatto interpolation types: `InterpolationTrussLobatto`,
`InterpolationQuadLobatto`, `InterpolationBrickLobatto`.

Simplifications: exact arithmetic instead of `double`; the roots of the derivative of
the Legendre polynomial (`LegendreDerivRoots`, found by a Newton iteration) are a
parameter, so that every statement is about all node sets.  A division by zero (two
equal nodes) is totalised; the theorems assume separated nodes.
-/
import Verif.Model.Basic
import Mathlib.Algebra.Order.Field.Basic
import Mathlib.Algebra.Order.AbsoluteValue.Basic

namespace NuTo

namespace Lobatto

variable {K : Type} [Field K] [LinearOrder K]

/-- `nodes[i]` (only used below `nodes.rows()`). -/
def node (nodes : List K) (i : Nat) : K := nodes.getD i 0

/-- `nuto/mechanics/interpolation/InterpolationTrussLobatto.cpp` 10-25: `LocalCoords`;
`roots` is `LegendreDerivRoots(order)`. -/
def localCoords (roots : Int → List K) (order : Int) : Res (List K) :=
  if order < 1 then .throw else .ok (-1 :: (roots order ++ [1]))

/-- `nuto/mechanics/interpolation/InterpolationTrussLobatto.cpp` 32-38: the body of the
inner loop of `BarycentricWeights`. -/
def weightStep (nodes : List K) (j : Nat) (w : K) (i : Nat) : K :=
  if i ≠ j then w / (node nodes j - node nodes i) else w

/-- `nuto/mechanics/interpolation/InterpolationTrussLobatto.cpp` 28-40:
`BarycentricWeights`, entry `j`. -/
def weight (nodes : List K) (j : Nat) : K :=
  (List.range nodes.length).foldl (weightStep nodes j) 1

/-- `nuto/mechanics/interpolation/InterpolationTrussLobatto.cpp` 51: the tolerance
`1.e-15` of the node check. -/
def tol : K := 1 / 10 ^ 15

/-- `nuto/mechanics/interpolation/InterpolationTrussLobatto.cpp` 51:
`std::abs(x - nodes[j]) < 1.e-15`. -/
def near (nodes : List K) (x : K) (j : Nat) : Bool := decide (|x - node nodes j| < tol)

/-- `nuto/mechanics/interpolation/InterpolationTrussLobatto.cpp` 62-69: the quotient
stored in `result[j]` and added to `sum`. -/
def quotient (nodes : List K) (x : K) (j : Nat) : K := weight nodes j / (x - node nodes j)

/-- `nuto/mechanics/interpolation/InterpolationTrussLobatto.cpp` 43-76:
`ShapeFunctions`. -/
def shape (nodes : List K) (x : K) : List K :=
  if (List.range nodes.length).any (near nodes x) then
    (List.range nodes.length).map fun j => if near nodes x j then 1 else 0
  else
    let result := (List.range nodes.length).map (quotient nodes x)
    let sum := result.foldl (· + ·) 0
    result.map (· / sum)

/-- `nuto/mechanics/interpolation/InterpolationTrussLobatto.cpp` 89-96: the product over
`i` for given `j` and `k`. -/
def prodStep (nodes : List K) (x : K) (j k : Nat) (tmp : K) (i : Nat) : K :=
  if i ≠ j ∧ i ≠ k then tmp * (x - node nodes i) else tmp

/-- `nuto/mechanics/interpolation/InterpolationTrussLobatto.cpp` 85-99: the body of the
loop over `k`. -/
def sumStep (nodes : List K) (x : K) (j : Nat) (r : K) (k : Nat) : K :=
  if k ≠ j then r + (List.range nodes.length).foldl (prodStep nodes x j k) 1 else r

/-- `nuto/mechanics/interpolation/InterpolationTrussLobatto.cpp` 79-103:
`DerivativeShapeFunctions`. -/
def deriv (nodes : List K) (x : K) : List K :=
  (List.range nodes.length).map fun j =>
    (List.range nodes.length).foldl (sumStep nodes x j) 0 * weight nodes j

/-- `nuto/mechanics/interpolation/InterpolationTrussLobatto.cpp` 138-143:
`GetLocalCoords`; an index out of range is undefined. -/
def trussCoords (nodes : List K) (nodeId : Nat) : Res (List K) :=
  if nodeId < nodes.length then .ok [node nodes nodeId] else .ub

/-- `nuto/mechanics/interpolation/InterpolationQuadLobatto.cpp` 8-22: `LocalCoords`;
an index out of range fails the assertion. -/
def quadCoords (nodes : List K) (nodeId : Nat) : Res (List K) :=
  if nodeId < nodes.length * nodes.length then
    .ok [node nodes (nodeId % nodes.length), node nodes (nodeId / nodes.length)]
  else .ub

/-- `nuto/mechanics/interpolation/InterpolationQuadLobatto.cpp` 24-40:
`ShapeFunctions`. -/
def quadShape (nodes : List K) (x : Nat → K) : List K :=
  let Nx := shape nodes (x 0)
  let Ny := shape nodes (x 1)
  (List.range nodes.length).flatMap fun j =>
    (List.range nodes.length).map fun i => Nx.getD i 0 * Ny.getD j 0

/-- `nuto/mechanics/interpolation/InterpolationQuadLobatto.cpp` 42-63:
`DerivativeShapeFunctions`. -/
def quadDeriv (nodes : List K) (x : Nat → K) : List (List K) :=
  let DNx := deriv nodes (x 0)
  let DNy := deriv nodes (x 1)
  let Nx := shape nodes (x 0)
  let Ny := shape nodes (x 1)
  (List.range nodes.length).flatMap fun j =>
    (List.range nodes.length).map fun i =>
      [DNx.getD i 0 * Ny.getD j 0, Nx.getD i 0 * DNy.getD j 0]

/-- `nuto/mechanics/interpolation/InterpolationBrickLobatto.cpp` 8-24: `LocalCoords`;
an index out of range fails the assertion. -/
def brickCoords (nodes : List K) (nodeId : Nat) : Res (List K) :=
  let d := nodes.length
  if nodeId < d * d * d then
    .ok [node nodes (nodeId % d), node nodes (nodeId % (d * d) / d),
      node nodes (nodeId / (d * d))]
  else .ub

/-- `nuto/mechanics/interpolation/InterpolationBrickLobatto.cpp` 27-47:
`ShapeFunctions`. -/
def brickShape (nodes : List K) (x : Nat → K) : List K :=
  let Nx := shape nodes (x 0)
  let Ny := shape nodes (x 1)
  let Nz := shape nodes (x 2)
  (List.range nodes.length).flatMap fun k =>
    (List.range nodes.length).flatMap fun j =>
      (List.range nodes.length).map fun i => Nx.getD i 0 * Ny.getD j 0 * Nz.getD k 0

/-- `nuto/mechanics/interpolation/InterpolationBrickLobatto.cpp` 50-78:
`DerivativeShapeFunctions`. -/
def brickDeriv (nodes : List K) (x : Nat → K) : List (List K) :=
  let DNx := deriv nodes (x 0)
  let DNy := deriv nodes (x 1)
  let DNz := deriv nodes (x 2)
  let Nx := shape nodes (x 0)
  let Ny := shape nodes (x 1)
  let Nz := shape nodes (x 2)
  (List.range nodes.length).flatMap fun k =>
    (List.range nodes.length).flatMap fun j =>
      (List.range nodes.length).map fun i =>
        [DNx.getD i 0 * Ny.getD j 0 * Nz.getD k 0,
         Nx.getD i 0 * DNy.getD j 0 * Nz.getD k 0,
         Nx.getD i 0 * Ny.getD j 0 * DNz.getD k 0]

end Lobatto

end NuTo
