/-
`nuto/mechanics/iga/Nurbs.h` and `nuto/mechanics/elements/ElementIga.h`: points of NURBS curves and surfaces, isogeometric elements.

Simplifications: exact arithmetic in a field; a control point is a vector of `d` coordinates (`NodeSimple` with `d` values at the
requested instance); the arbitrary contents `g` of fresh matrices are the same in all calls.
-/
import Verif.Model.Nurbs
import Mathlib.Algebra.Group.Pi.Basic

namespace NuTo.Nurbs

variable {K : Type _} [Field K] [LinearOrder K] {d : Nat}

/-- `nuto/mechanics/iga/Nurbs.h` 324-337 `Nurbs<1>` -/
structure Curve (K : Type _) (d : Nat) where
  knots : List K
  points : List (Fin d → K)
  weights : List K
  degree : Nat

/-- `nuto/mechanics/iga/Nurbs.h` 339-353 `Nurbs<1>::GetControlPointsElement`: the assertion, `GetDimension` (line 47) and the points -/
def Curve.controlPoints (c : Curve K d) (id : Int) : Res (List (Fin d → K)) :=
  if id < c.degree then .ub
  else if id < c.points.length then
    .ok ((List.range (c.degree + 1)).map fun (i : Nat) => c.points.getD (id - c.degree + i).toNat 0)
  else .ub

/-- `nuto/mechanics/iga/Nurbs.h` 378-426 `Nurbs<1>::BasisFunctionsAndDerivativesRational` with lines 311-319 `FindSpan` -/
def Curve.shape (c : Curve K d) (g : Garbage K) (der : Nat) (u : K) : Res (List K) :=
  (findSpan u c.degree c.knots).bind fun span => rational g der u span c.degree c.knots c.weights

/-- `nuto/mechanics/iga/Nurbs.h` 105-107: the sum of control points times shape functions; also the product of the matrix of shape
functions (`nuto/mechanics/cell/Matrix.h` 8-14) with the nodal values in `Interpolate` (`ElementInterface.h` 31-34) -/
def combine (shape : List K) (points : List (Fin d → K)) : Fin d → K :=
  (List.range points.length).foldl (fun (c : Fin d → K) (j : Nat) => fun k => c k + shape.getD j 0 * points.getD j 0 k) fun _ => 0

/-- `nuto/mechanics/iga/Nurbs.h` 89-110 `Evaluate` for curves -/
def Curve.evaluate (c : Curve K d) (g : Garbage K) (u : K) (der : Nat) : Res (Fin d → K) :=
  (findSpan u c.degree c.knots).bind fun span => (c.shape g der u).bind fun shape => (c.controlPoints span).bind fun points =>
    if points.length = shape.length then .ok (combine shape points) else .ub

/-! ### Elements of curves -/

/-- `nuto/mechanics/elements/ElementIga.h` 22-31 `Transformation`, `Nurbs.h` 73-84 `GetKnotVectorElement` -/
def Curve.transformation (c : Curve K d) (id : Int) (xi : K) : Res K :=
  (knotAt c.knots id).bind fun a => (knotAt c.knots (id + 1)).bind fun b => .ok (a + 1 / 2 * (xi + 1) * (b - a))

/-- `nuto/mechanics/elements/ElementIga.h` 45-48 `GetShapeFunctions` -/
def Curve.elementShape (c : Curve K d) (g : Garbage K) (id : Int) (xi : K) : Res (List K) :=
  (c.transformation id xi).bind fun u => c.shape g 0 u

/-- `nuto/mechanics/elements/ElementIga.h` 50-53 `GetDerivativeShapeFunctions` -/
def Curve.elementDerivative (c : Curve K d) (g : Garbage K) (id : Int) (xi : K) : Res (List K) :=
  (c.transformation id xi).bind fun u => c.shape g 1 u

/-- `Interpolate` of an element (`ElementInterface.h` 31-34) with `GetNMatrix` and `ExtractNodeValues` (`ElementIga.h` 35-43) -/
def Curve.interpolate (c : Curve K d) (g : Garbage K) (id : Int) (xi : K) : Res (Fin d → K) :=
  (c.elementShape g id xi).bind fun shape => (c.controlPoints id).bind fun points => .ok (combine shape points)

/-- The Jacobian of an element: nodal values times derivatives of the shape functions (`nuto/mechanics/cell/Jacobian.h`, C40) -/
def Curve.tangent (c : Curve K d) (g : Garbage K) (id : Int) (xi : K) : Res (Fin d → K) :=
  (c.elementDerivative g id xi).bind fun shape => (c.controlPoints id).bind fun points => .ok (combine shape points)

/-! ### Surfaces -/

/-- `nuto/mechanics/iga/Nurbs.h` 324-337 `Nurbs<2>`; rows of control points run in the second direction -/
structure Surface (K : Type _) (d : Nat) where
  knotsX : List K
  knotsY : List K
  points : List (List (Fin d → K))
  weights : List (List K)
  px : Nat
  py : Nat

/-- The rows `idy - py` to `idy` have entries up to `idx` -/
def inRange {α : Type _} (rows : List (List α)) (idx idy : Int) (py : Nat) : Bool :=
  decide (idy < rows.length) && (List.range (py + 1)).all fun (i : Nat) => decide (idx < (rows.getD (idy - py + i).toNat []).length)

/-- `nuto/mechanics/iga/Nurbs.h` 355-376 `Nurbs<2>::GetControlPointsElement` -/
def Surface.controlPoints (c : Surface K d) (idx idy : Int) : Res (List (Fin d → K)) :=
  if idx < c.px ∨ idy < c.py then .ub
  else if inRange c.points idx idy c.py then
    .ok ((List.range (c.py + 1)).flatMap fun (i : Nat) => (List.range (c.px + 1)).map fun (j : Nat) =>
      (c.points.getD (idy - c.py + i).toNat []).getD (idx - c.px + j).toNat 0)
  else .ub

/-- `nuto/mechanics/iga/Nurbs.h` 428-531 `Nurbs<2>::BasisFunctionsAndDerivativesRational`: one row for each control point -/
def Surface.shape (c : Surface K d) (g : Garbage K) (der : Nat) (u v : K) : Res (List (List K)) :=
  if der ≤ 2 then
    (findSpan u c.px c.knotsX).bind fun sx => (findSpan v c.py c.knotsY).bind fun sy =>
      (basisFunctions g der u sx c.px c.knotsX).bind fun nx => (basisFunctions g der v sy c.py c.knotsY).bind fun ny =>
        if 0 ≤ sx - c.px ∧ 0 ≤ sy - c.py ∧ inRange c.weights sx sy c.py then
          .ok ((List.range (c.py + 1)).flatMap fun (i : Nat) => (List.range (c.px + 1)).map fun (j : Nat) =>
            surfaceRow nx ny c.px c.py (fun i j => (c.weights.getD (sy - c.py + i).toNat []).getD (sx - c.px + j).toNat 0) der i j)
        else .ub
  else .ub

/-- `nuto/mechanics/iga/Nurbs.h` 89-110 `Evaluate` for surfaces: column 0 of the shape functions -/
def Surface.evaluate (c : Surface K d) (g : Garbage K) (u v : K) (der : Nat) : Res (Fin d → K) :=
  (findSpan u c.px c.knotsX).bind fun sx => (findSpan v c.py c.knotsY).bind fun sy =>
    (c.shape g der u v).bind fun shape => (c.controlPoints sx sy).bind fun points =>
      if points.length = shape.length then .ok (combine (shape.map fun r => r.getD 0 0) points) else .ub

end NuTo.Nurbs
