/-
C29 for the pyramid and for the interpolation classes with truncated decimals.
-/
import Verif.Props.InterpolationDeriv

set_option linter.unusedSimpArgs false
set_option linter.unreachableTactic false
set_option linter.unusedTactic false
set_option linter.unnecessarySeqFocus false

namespace NuTo

open Interpolation

/-- C29 for `InterpolationPyramidLinear`: the table is exact at every coordinate that is
not in the plane of the apex, and at the apex itself.

Partial: see `C29_pyramid_counterexample`. -/
theorem C29_pyramid_partial (x : Nat → ℝ) (i j : Nat) (hi : i < 5) (hj : j < 3)
    (h : x 2 ≠ 1 ∨ (x 0 = 0 ∧ x 1 = 0)) : (pyramidLinear (K := ℝ)).DerivAt x i j := by
  unfold DerivAt
  rcases h with h | ⟨h0, h1⟩
  · have hz : (1 : ℝ) - x 2 ≠ 0 := fun hc => h (by linarith)
    by_cases hj2 : j = 2
    · subst hj2
      have hev : ∀ᶠ w in nhds (x 2), (1 : ℝ) - w ≠ 0 := by
        have hc : Continuous fun w : ℝ => 1 - w := by fun_prop
        exact hc.continuousAt.eventually_ne hz
      have hrat : HasDerivAt (fun w : ℝ => x 0 * x 1 * w / (1 - w))
          (x 0 * x 1 / (1 - x 2) / (1 - x 2)) (x 2) := by
        have h1 : HasDerivAt (fun w : ℝ => x 0 * x 1 * w) (x 0 * x 1) (x 2) := by
          simpa using (hasDerivAt_id' (x 2)).const_mul (x 0 * x 1)
        have h2 : HasDerivAt (fun w : ℝ => 1 - w) (-1) (x 2) := by
          simpa using (hasDerivAt_id' (x 2)).const_sub 1
        refine (h1.fun_div h2 hz).congr_deriv ?_
        field_simp
        ring
      interval_cases i <;>
        simp only [pyramidLinear, pyramidLinearShape, pyramidLinearDeriv,
          List.getD_cons_succ, List.getD_cons_zero, Function.update_self, ne_eq,
          Function.update_of_ne, not_false_eq_true, OfNat.ofNat_ne_zero,
          OfNat.zero_ne_ofNat, OfNat.ofNat_ne_one, OfNat.one_ne_ofNat, one_ne_zero,
          zero_ne_one, hz, if_false]
      · refine HasDerivAt.congr_of_eventuallyEq (f := fun w => 1 / 4 * ((1 + x 0) * (1 + x 1)
          - w + x 0 * x 1 * w / (1 - w))) ?_ ?_
        · refine ((((hasDerivAt_const _ _).fun_sub (hasDerivAt_id' _)).fun_add hrat).const_mul
            (1 / 4)).congr_deriv ?_
          ring
        · filter_upwards [hev] with w hw
          simp [hw]
      · refine HasDerivAt.congr_of_eventuallyEq (f := fun w => 1 / 4 * ((1 + x 0) * (1 - x 1)
          - w - x 0 * x 1 * w / (1 - w))) ?_ ?_
        · refine ((((hasDerivAt_const _ _).fun_sub (hasDerivAt_id' _)).fun_sub hrat).const_mul
            (1 / 4)).congr_deriv ?_
          ring
        · filter_upwards [hev] with w hw
          simp [hw]
      · refine HasDerivAt.congr_of_eventuallyEq (f := fun w => 1 / 4 * ((1 - x 0) * (1 - x 1)
          - w + x 0 * x 1 * w / (1 - w))) ?_ ?_
        · refine ((((hasDerivAt_const _ _).fun_sub (hasDerivAt_id' _)).fun_add hrat).const_mul
            (1 / 4)).congr_deriv ?_
          ring
        · filter_upwards [hev] with w hw
          simp [hw]
      · refine HasDerivAt.congr_of_eventuallyEq (f := fun w => 1 / 4 * ((1 - x 0) * (1 + x 1)
          - w - x 0 * x 1 * w / (1 - w))) ?_ ?_
        · refine ((((hasDerivAt_const _ _).fun_sub (hasDerivAt_id' _)).fun_sub hrat).const_mul
            (1 / 4)).congr_deriv ?_
          ring
        · filter_upwards [hev] with w hw
          simp [hw]
      · exact hasDerivAt_id' _
    · have hj' : j < 2 := by omega
      interval_cases j <;> interval_cases i <;>
        simp only [pyramidLinear, pyramidLinearShape, pyramidLinearDeriv,
          List.getD_cons_succ, List.getD_cons_zero, Function.update_self, ne_eq,
          Function.update_of_ne, not_false_eq_true, OfNat.ofNat_ne_zero,
          OfNat.zero_ne_ofNat, OfNat.ofNat_ne_one, OfNat.one_ne_ofNat, one_ne_zero,
          zero_ne_one, hz, if_true, if_false, div_eq_mul_inv] <;>
        eapply HasDerivAt.congr_deriv
      all_goals first | (poly_deriv; done) | ring1 | (field_simp; ring)
  · interval_cases j <;> interval_cases i <;>
      simp only [pyramidLinear, pyramidLinearShape, pyramidLinearDeriv,
        List.getD_cons_succ, List.getD_cons_zero, Function.update_self, ne_eq,
        Function.update_of_ne, not_false_eq_true, OfNat.ofNat_ne_zero,
        OfNat.zero_ne_ofNat, OfNat.ofNat_ne_one, OfNat.one_ne_ofNat, one_ne_zero,
        zero_ne_one, h0, h1, zero_mul, mul_zero, zero_div, ite_self] <;>
      eapply HasDerivAt.congr_deriv
    all_goals first | (poly_deriv; done) | ring

/-- C29 is false for the pyramid in the plane of the apex (outside the element): at
`(1, 0, 1)` the derivative of shape function 0 in direction 1 is `3/4`, the table
contains `(1 + 2 ^ 52) / 4`. -/
theorem C29_pyramid_counterexample :
    (((pyramidLinear (K := ℝ)).deriv (vec [1, 0, 1])).getD 0 []).getD 1 0
      = (1 + 2 ^ 52) / 4 ∧
    ¬ (pyramidLinear (K := ℝ)).DerivAt (vec [1, 0, 1]) 0 1 := by
  have hval : (((pyramidLinear (K := ℝ)).deriv (vec [1, 0, 1])).getD 0 []).getD 1 0
      = (1 + 2 ^ 52) / 4 := by
    norm_num [pyramidLinear, pyramidLinearDeriv, vec, dblEpsilon]
  refine ⟨hval, fun h => ?_⟩
  unfold DerivAt at h
  rw [hval] at h
  have h2 : HasDerivAt (fun w => ((pyramidLinear (K := ℝ)).shape
      (Function.update (vec [1, 0, 1]) 1 w)).getD 0 0) (3 / 4) (vec [1, 0, 1] 1) := by
    simp only [pyramidLinear, pyramidLinearShape, List.getD_cons_zero, Function.update_self,
      ne_eq, Function.update_of_ne, not_false_eq_true, OfNat.ofNat_ne_one, zero_ne_one, vec,
      List.getD_cons_succ, sub_self, not_true_eq_false, if_false]
    eapply HasDerivAt.congr_deriv
    · poly_deriv
    · norm_num
  have := h.unique h2
  norm_num at this

set_option maxHeartbeats 4000000 in
/-- C29 for the two types with truncated decimals: the table differs from the partial
derivatives by at most `10⁻⁹` at coordinates with components of magnitude at most one.

Partial: the entries are not exact, see `C29_truncated_counterexample`. -/
theorem C29_truncated_partial (I : Interpolation ℝ) (hI : I ∈ truncatedTypes)
    (x : Nat → ℝ) (hx : ∀ k, |x k| ≤ 1) (i j : Nat) (hi : i < I.numNodes) (hj : j < I.dim) :
    ∃ d, HasDerivAt (fun h => (I.shape (Function.update x j h)).getD i 0) d (x j) ∧
      |d - ((I.deriv x).getD i []).getD j 0| ≤ 1 / 1000000000 := by
  have b0 := abs_le.1 (hx 0)
  have b1 := abs_le.1 (hx 1)
  have m2 : ∀ a b : ℝ, -1 ≤ a ∧ a ≤ 1 → -1 ≤ b ∧ b ≤ 1 → -1 ≤ a * b ∧ a * b ≤ 1 := by
    intro a b ha hb
    have h := mul_le_mul (abs_le.2 ha) (abs_le.2 hb) (abs_nonneg b) zero_le_one
    rw [← abs_mul, one_mul] at h
    exact abs_le.1 h
  have b00 := m2 _ _ b0 b0
  have b01 := m2 _ _ b0 b1
  have b11 := m2 _ _ b1 b1
  have b000 := m2 _ _ b00 b0
  have b001 := m2 _ _ b00 b1
  have b011 := m2 _ _ b0 b11
  have b111 := m2 _ _ b11 b1
  simp only [truncatedTypes, List.mem_cons, List.not_mem_nil, or_false] at hI
  rcases hI with rfl | rfl
  · have hi' : i < 5 := hi
    have hj' : j < 1 := hj
    interval_cases j <;> interval_cases i <;>
      simp only [truss4thOrder, truss4thOrderShape, truss4thOrderDeriv, List.getD_cons_succ,
        List.getD_cons_zero, Function.update_self] <;>
      refine ⟨_, (by poly_deriv), ?_⟩ <;>
      rw [abs_le] <;> constructor <;> linarith
  · have hi' : i < 15 := hi
    have hj' : j < 2 := hj
    interval_cases j <;> interval_cases i <;>
      simp only [triangle4thOrder, triangle4thOrderShape, triangle4thOrderDeriv,
        List.getD_cons_succ, List.getD_cons_zero, Function.update_self, ne_eq,
        Function.update_of_ne, not_false_eq_true, one_ne_zero, zero_ne_one] <;>
      refine ⟨_, (by poly_deriv), ?_⟩ <;>
      rw [abs_le] <;> constructor <;> linarith

/-- C29 is false for `InterpolationTruss4thOrder`: at the coordinate one the derivative
of the second shape function is `-2.66666666668`, the table contains `-2.6666666667`. -/
theorem C29_truncated_counterexample :
    ¬ (truss4thOrder (K := ℝ)).DerivAt (vec [1]) 1 0 := by
  intro h
  unfold DerivAt at h
  simp only [truss4thOrder, truss4thOrderShape, truss4thOrderDeriv, List.getD_cons_succ,
    List.getD_cons_zero, Function.update_self, vec] at h
  have h2 : HasDerivAt (fun w : ℝ => -(133333333333 / 100000000000) * w
      + 266666666667 / 100000000000 * (w * w) + 133333333333 / 100000000000 * (w * w * w)
      - 266666666667 / 100000000000 * (w * w * w * w)) (-266666666668 / 100000000000) 1 := by
    eapply HasDerivAt.congr_deriv
    · poly_deriv
    · norm_num
  have := h.unique h2
  norm_num at this

/-- The hypotheses are met: the apex and an interior point of the pyramid, an interior
point of the triangle, the last entry of the twenty node brick. -/
example : (vec [(0 : ℝ), 0, 1] 0 = 0 ∧ vec [(0 : ℝ), 0, 1] 1 = 0) ∧
    vec [(1 / 4 : ℝ), 1 / 3, 1 / 2] 2 ≠ 1 ∧
    (brickQuadratic : Interpolation ℝ) ∈ polynomialTypes ∧
    19 < (brickQuadratic : Interpolation ℝ).numNodes := by
  refine ⟨by simp [vec], by norm_num [vec], by simp [polynomialTypes], by decide⟩

end NuTo
