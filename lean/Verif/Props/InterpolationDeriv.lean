/-
C29: the derivative tables of the interpolation classes are the partial derivatives
of the shape functions.
-/
import Verif.Props.Interpolation
import Mathlib.Analysis.Calculus.Deriv.Mul
import Mathlib.Analysis.Calculus.Deriv.Add
import Mathlib.Analysis.Calculus.Deriv.Inv
import Mathlib.Topology.Algebra.Field
import Mathlib.Tactic.FieldSimp

set_option linter.unusedSimpArgs false
set_option linter.unreachableTactic false
set_option linter.unusedTactic false
set_option linter.unnecessarySeqFocus false

namespace NuTo

open Interpolation

/-- The types whose shape functions are polynomials with exact coefficients. -/
noncomputable def polynomialTypes : List (Interpolation ℝ) :=
  [trussLinear, trussQuadratic, truss3rdOrder,
   triangleLinear, triangleQuadratic, triangle3rdOrder,
   quadLinear, quadSerendipity,
   tetrahedronLinear, tetrahedronQuadratic,
   brickLinear, brickQuadratic,
   prismLinear, prismQuadratic]

theorem exactTypes_eq : exactTypes = polynomialTypes ++ [pyramidLinear] := rfl

/-- Entry `(i, j)` of the derivative matrix is the partial derivative of shape function
`i` in direction `j` at `x`. -/
def Interpolation.DerivAt (I : Interpolation ℝ) (x : Nat → ℝ) (i j : Nat) : Prop :=
  HasDerivAt (fun h => (I.shape (Function.update x j h)).getD i 0)
    (((I.deriv x).getD i []).getD j 0) (x j)

/-- Differentiates a polynomial expression. -/
syntax "poly_deriv" : tactic
macro_rules
  | `(tactic| poly_deriv) => `(tactic|
      (repeat' first
        | exact hasDerivAt_id' _
        | exact hasDerivAt_const _ _
        | apply HasDerivAt.fun_add
        | apply HasDerivAt.fun_sub
        | apply HasDerivAt.fun_mul
        | apply HasDerivAt.fun_neg))

theorem trussLinear_deriv (x : Nat → ℝ) (i j : Nat) (hi : i < 2) (hj : j < 1) :
    (trussLinear (K := ℝ)).DerivAt x i j := by
  unfold DerivAt
  interval_cases j <;> interval_cases i <;>
    simp only [trussLinear, trussLinearShape, trussLinearDeriv, List.getD_cons_succ,
      List.getD_cons_zero, Function.update_self, ne_eq, Function.update_of_ne,
      not_false_eq_true, OfNat.ofNat_ne_zero, OfNat.zero_ne_ofNat, OfNat.ofNat_ne_one,
      OfNat.one_ne_ofNat, one_ne_zero, zero_ne_one] <;>
    eapply HasDerivAt.congr_deriv
  all_goals first | (poly_deriv; done) | ring

theorem trussQuadratic_deriv (x : Nat → ℝ) (i j : Nat) (hi : i < 3) (hj : j < 1) :
    (trussQuadratic (K := ℝ)).DerivAt x i j := by
  unfold DerivAt
  interval_cases j <;> interval_cases i <;>
    simp only [trussQuadratic, trussQuadraticShape, trussQuadraticDeriv, List.getD_cons_succ,
      List.getD_cons_zero, Function.update_self, ne_eq, Function.update_of_ne,
      not_false_eq_true, OfNat.ofNat_ne_zero, OfNat.zero_ne_ofNat, OfNat.ofNat_ne_one,
      OfNat.one_ne_ofNat, one_ne_zero, zero_ne_one] <;>
    eapply HasDerivAt.congr_deriv
  all_goals first | (poly_deriv; done) | ring

theorem truss3rdOrder_deriv (x : Nat → ℝ) (i j : Nat) (hi : i < 4) (hj : j < 1) :
    (truss3rdOrder (K := ℝ)).DerivAt x i j := by
  unfold DerivAt
  interval_cases j <;> interval_cases i <;>
    simp only [truss3rdOrder, truss3rdOrderShape, truss3rdOrderDeriv, List.getD_cons_succ,
      List.getD_cons_zero, Function.update_self, ne_eq, Function.update_of_ne,
      not_false_eq_true, OfNat.ofNat_ne_zero, OfNat.zero_ne_ofNat, OfNat.ofNat_ne_one,
      OfNat.one_ne_ofNat, one_ne_zero, zero_ne_one] <;>
    eapply HasDerivAt.congr_deriv
  all_goals first | (poly_deriv; done) | ring

theorem triangleLinear_deriv (x : Nat → ℝ) (i j : Nat) (hi : i < 3) (hj : j < 2) :
    (triangleLinear (K := ℝ)).DerivAt x i j := by
  unfold DerivAt
  interval_cases j <;> interval_cases i <;>
    simp only [triangleLinear, triangleLinearShape, triangleLinearDeriv, List.getD_cons_succ,
      List.getD_cons_zero, Function.update_self, ne_eq, Function.update_of_ne,
      not_false_eq_true, OfNat.ofNat_ne_zero, OfNat.zero_ne_ofNat, OfNat.ofNat_ne_one,
      OfNat.one_ne_ofNat, one_ne_zero, zero_ne_one] <;>
    eapply HasDerivAt.congr_deriv
  all_goals first | (poly_deriv; done) | ring

theorem triangleQuadratic_deriv (x : Nat → ℝ) (i j : Nat) (hi : i < 6) (hj : j < 2) :
    (triangleQuadratic (K := ℝ)).DerivAt x i j := by
  unfold DerivAt
  interval_cases j <;> interval_cases i <;>
    simp only [triangleQuadratic, triangleQuadraticShape, triangleQuadraticDeriv, List.getD_cons_succ,
      List.getD_cons_zero, Function.update_self, ne_eq, Function.update_of_ne,
      not_false_eq_true, OfNat.ofNat_ne_zero, OfNat.zero_ne_ofNat, OfNat.ofNat_ne_one,
      OfNat.one_ne_ofNat, one_ne_zero, zero_ne_one] <;>
    eapply HasDerivAt.congr_deriv
  all_goals first | (poly_deriv; done) | ring

theorem triangle3rdOrder_deriv (x : Nat → ℝ) (i j : Nat) (hi : i < 10) (hj : j < 2) :
    (triangle3rdOrder (K := ℝ)).DerivAt x i j := by
  unfold DerivAt
  interval_cases j <;> interval_cases i <;>
    simp only [triangle3rdOrder, triangle3rdOrderShape, triangle3rdOrderDeriv, List.getD_cons_succ,
      List.getD_cons_zero, Function.update_self, ne_eq, Function.update_of_ne,
      not_false_eq_true, OfNat.ofNat_ne_zero, OfNat.zero_ne_ofNat, OfNat.ofNat_ne_one,
      OfNat.one_ne_ofNat, one_ne_zero, zero_ne_one] <;>
    eapply HasDerivAt.congr_deriv
  all_goals first | (poly_deriv; done) | ring

theorem quadLinear_deriv (x : Nat → ℝ) (i j : Nat) (hi : i < 4) (hj : j < 2) :
    (quadLinear (K := ℝ)).DerivAt x i j := by
  unfold DerivAt
  interval_cases j <;> interval_cases i <;>
    simp only [quadLinear, quadLinearShape, quadLinearDeriv, List.getD_cons_succ,
      List.getD_cons_zero, Function.update_self, ne_eq, Function.update_of_ne,
      not_false_eq_true, OfNat.ofNat_ne_zero, OfNat.zero_ne_ofNat, OfNat.ofNat_ne_one,
      OfNat.one_ne_ofNat, one_ne_zero, zero_ne_one] <;>
    eapply HasDerivAt.congr_deriv
  all_goals first | (poly_deriv; done) | ring

theorem quadSerendipity_deriv (x : Nat → ℝ) (i j : Nat) (hi : i < 8) (hj : j < 2) :
    (quadSerendipity (K := ℝ)).DerivAt x i j := by
  unfold DerivAt
  interval_cases j <;> interval_cases i <;>
    simp only [quadSerendipity, quadSerendipityShape, quadSerendipityDeriv, List.getD_cons_succ,
      List.getD_cons_zero, Function.update_self, ne_eq, Function.update_of_ne,
      not_false_eq_true, OfNat.ofNat_ne_zero, OfNat.zero_ne_ofNat, OfNat.ofNat_ne_one,
      OfNat.one_ne_ofNat, one_ne_zero, zero_ne_one] <;>
    eapply HasDerivAt.congr_deriv
  all_goals first | (poly_deriv; done) | ring

theorem tetrahedronLinear_deriv (x : Nat → ℝ) (i j : Nat) (hi : i < 4) (hj : j < 3) :
    (tetrahedronLinear (K := ℝ)).DerivAt x i j := by
  unfold DerivAt
  interval_cases j <;> interval_cases i <;>
    simp only [tetrahedronLinear, tetrahedronLinearShape, tetrahedronLinearDeriv, List.getD_cons_succ,
      List.getD_cons_zero, Function.update_self, ne_eq, Function.update_of_ne,
      not_false_eq_true, OfNat.ofNat_ne_zero, OfNat.zero_ne_ofNat, OfNat.ofNat_ne_one,
      OfNat.one_ne_ofNat, one_ne_zero, zero_ne_one] <;>
    eapply HasDerivAt.congr_deriv
  all_goals first | (poly_deriv; done) | ring

theorem tetrahedronQuadratic_deriv (x : Nat → ℝ) (i j : Nat) (hi : i < 10) (hj : j < 3) :
    (tetrahedronQuadratic (K := ℝ)).DerivAt x i j := by
  unfold DerivAt
  interval_cases j <;> interval_cases i <;>
    simp only [tetrahedronQuadratic, tetrahedronQuadraticShape, tetrahedronQuadraticDeriv, List.getD_cons_succ,
      List.getD_cons_zero, Function.update_self, ne_eq, Function.update_of_ne,
      not_false_eq_true, OfNat.ofNat_ne_zero, OfNat.zero_ne_ofNat, OfNat.ofNat_ne_one,
      OfNat.one_ne_ofNat, one_ne_zero, zero_ne_one] <;>
    eapply HasDerivAt.congr_deriv
  all_goals first | (poly_deriv; done) | ring

theorem brickLinear_deriv (x : Nat → ℝ) (i j : Nat) (hi : i < 8) (hj : j < 3) :
    (brickLinear (K := ℝ)).DerivAt x i j := by
  unfold DerivAt
  interval_cases j <;> interval_cases i <;>
    simp only [brickLinear, brickLinearShape, brickLinearDeriv, List.getD_cons_succ,
      List.getD_cons_zero, Function.update_self, ne_eq, Function.update_of_ne,
      not_false_eq_true, OfNat.ofNat_ne_zero, OfNat.zero_ne_ofNat, OfNat.ofNat_ne_one,
      OfNat.one_ne_ofNat, one_ne_zero, zero_ne_one] <;>
    eapply HasDerivAt.congr_deriv
  all_goals first | (poly_deriv; done) | ring

theorem brickQuadratic_deriv (x : Nat → ℝ) (i j : Nat) (hi : i < 20) (hj : j < 3) :
    (brickQuadratic (K := ℝ)).DerivAt x i j := by
  unfold DerivAt
  interval_cases j <;> interval_cases i <;>
    simp only [brickQuadratic, brickQuadraticShape, brickQuadraticDeriv, List.getD_cons_succ,
      List.getD_cons_zero, Function.update_self, ne_eq, Function.update_of_ne,
      not_false_eq_true, OfNat.ofNat_ne_zero, OfNat.zero_ne_ofNat, OfNat.ofNat_ne_one,
      OfNat.one_ne_ofNat, one_ne_zero, zero_ne_one] <;>
    eapply HasDerivAt.congr_deriv
  all_goals first | (poly_deriv; done) | ring

theorem prismLinear_deriv (x : Nat → ℝ) (i j : Nat) (hi : i < 6) (hj : j < 3) :
    (prismLinear (K := ℝ)).DerivAt x i j := by
  unfold DerivAt
  interval_cases j <;> interval_cases i <;>
    simp only [prismLinear, prismLinearShape, prismLinearDeriv, List.getD_cons_succ,
      List.getD_cons_zero, Function.update_self, ne_eq, Function.update_of_ne,
      not_false_eq_true, OfNat.ofNat_ne_zero, OfNat.zero_ne_ofNat, OfNat.ofNat_ne_one,
      OfNat.one_ne_ofNat, one_ne_zero, zero_ne_one] <;>
    eapply HasDerivAt.congr_deriv
  all_goals first | (poly_deriv; done) | ring

theorem prismQuadratic_deriv (x : Nat → ℝ) (i j : Nat) (hi : i < 18) (hj : j < 3) :
    (prismQuadratic (K := ℝ)).DerivAt x i j := by
  unfold DerivAt
  interval_cases j <;> interval_cases i <;>
    simp only [prismQuadratic, prismQuadraticShape, prismQuadraticDeriv, triangleQuadraticShape, trussQuadraticShape,
      triangleQuadraticDeriv, trussQuadraticDeriv, List.getD_cons_succ,
      List.getD_cons_zero, Function.update_self, ne_eq, Function.update_of_ne,
      not_false_eq_true, OfNat.ofNat_ne_zero, OfNat.zero_ne_ofNat, OfNat.ofNat_ne_one,
      OfNat.one_ne_ofNat, one_ne_zero, zero_ne_one] <;>
    eapply HasDerivAt.congr_deriv
  all_goals first | (poly_deriv; done) | ring

/-- C29: for every type with exact polynomial formulas and every coordinate, each entry
of `DerivativeShapeFunctions` is the partial derivative of the shape function.

Partial: see `C29_pyramid_partial`, `C29_pyramid_counterexample` for the pyramid and
`C29_truncated_partial`, `C29_truncated_counterexample` for the types with truncated
decimals. -/
theorem C29_polynomial_partial (I : Interpolation ℝ) (hI : I ∈ polynomialTypes)
    (x : Nat → ℝ) (i j : Nat) (hi : i < I.numNodes) (hj : j < I.dim) : I.DerivAt x i j := by
  simp only [polynomialTypes, List.mem_cons, List.not_mem_nil, or_false] at hI
  rcases hI with rfl | rfl | rfl | rfl | rfl | rfl | rfl | rfl | rfl | rfl | rfl | rfl | rfl |
    rfl
  · exact trussLinear_deriv x i j hi hj
  · exact trussQuadratic_deriv x i j hi hj
  · exact truss3rdOrder_deriv x i j hi hj
  · exact triangleLinear_deriv x i j hi hj
  · exact triangleQuadratic_deriv x i j hi hj
  · exact triangle3rdOrder_deriv x i j hi hj
  · exact quadLinear_deriv x i j hi hj
  · exact quadSerendipity_deriv x i j hi hj
  · exact tetrahedronLinear_deriv x i j hi hj
  · exact tetrahedronQuadratic_deriv x i j hi hj
  · exact brickLinear_deriv x i j hi hj
  · exact brickQuadratic_deriv x i j hi hj
  · exact prismLinear_deriv x i j hi hj
  · exact prismQuadratic_deriv x i j hi hj

end NuTo
