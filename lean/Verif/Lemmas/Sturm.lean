/-
Solutions of `u'' = -(N² + 1 / (4 sin²)) u` on `(0, π)`: zeros (Sturm), amplitudes, and comparison with sine and cosine.
-/
import Mathlib.Analysis.SpecialFunctions.Trigonometric.Deriv
import Mathlib.Analysis.SpecialFunctions.Trigonometric.Bounds
import Mathlib.Analysis.Calculus.Deriv.MeanValue
import Mathlib.Analysis.Calculus.MeanValue
import Mathlib.Tactic.Linarith
import Mathlib.Tactic.FieldSimp
import Mathlib.Tactic.LinearCombination

namespace NuTo

namespace Sturm

open Real Set

/-- `u` is a solution with derivative `du`. -/
structure Osc (N : ℝ) (u du : ℝ → ℝ) : Prop where
  deriv : ∀ t ∈ Ioo 0 π, HasDerivAt u (du t) t
  second : ∀ t ∈ Ioo 0 π, HasDerivAt du (-(N ^ 2 + 1 / (4 * sin t ^ 2)) * u t) t

variable {N : ℝ} {u du : ℝ → ℝ}

theorem Osc.neg (h : Osc N u du) : Osc N (fun t => -u t) (fun t => -du t) where
  deriv t ht := (h.deriv t ht).neg
  second t ht := by
    refine (h.second t ht).neg.congr_deriv ?_
    ring

theorem Osc.cont (h : Osc N u du) {a b : ℝ} (ha : 0 < a) (hb : b < π) : ContinuousOn u (Icc a b) := fun t ht =>
  (h.deriv t ⟨by linarith [ht.1], by linarith [ht.2]⟩).continuousAt.continuousWithinAt

/-- The Wronskian with a solution of `v'' = -N² v`. -/
theorem Osc.wronskian (h : Osc N u du) {v dv : ℝ → ℝ} (hv : ∀ t, HasDerivAt v (dv t) t)
    (hdv : ∀ t, HasDerivAt dv (-N ^ 2 * v t) t) (t : ℝ) (ht : t ∈ Ioo 0 π) :
    HasDerivAt (fun t => du t * v t - u t * dv t) (-(1 / (4 * sin t ^ 2)) * u t * v t) t := by
  have := ((h.second t ht).mul (hv t)).sub ((h.deriv t ht).mul (hdv t))
  refine this.congr_deriv ?_
  ring

theorem hasDerivAt_sinN (N a t : ℝ) : HasDerivAt (fun t => sin (N * (t - a))) (N * cos (N * (t - a))) t := by
  have h1 : HasDerivAt (fun t : ℝ => N * (t - a)) N t := by
    simpa using ((hasDerivAt_id t).sub_const a).const_mul N
  have := h1.sin
  refine this.congr_deriv ?_
  ring

theorem hasDerivAt_cosN (N a t : ℝ) : HasDerivAt (fun t => cos (N * (t - a))) (-N * sin (N * (t - a))) t := by
  have h1 : HasDerivAt (fun t : ℝ => N * (t - a)) N t := by
    simpa using ((hasDerivAt_id t).sub_const a).const_mul N
  have := h1.cos
  refine this.congr_deriv ?_
  ring

/-- The Wronskian with the sine that vanishes at `a`. -/
theorem Osc.wsin (h : Osc N u du) (a t : ℝ) (ht : t ∈ Ioo 0 π) :
    HasDerivAt (fun t => du t * sin (N * (t - a)) - u t * (N * cos (N * (t - a))))
      (-(1 / (4 * sin t ^ 2)) * u t * sin (N * (t - a))) t :=
  h.wronskian (hasDerivAt_sinN N a) (fun t => by
    refine ((hasDerivAt_cosN N a t).const_mul N).congr_deriv ?_
    ring) t ht

theorem Osc.wcos (h : Osc N u du) (a t : ℝ) (ht : t ∈ Ioo 0 π) :
    HasDerivAt (fun t => du t * cos (N * (t - a)) - u t * (-N * sin (N * (t - a))))
      (-(1 / (4 * sin t ^ 2)) * u t * cos (N * (t - a))) t :=
  h.wronskian (hasDerivAt_cosN N a) (fun t => by
    refine ((hasDerivAt_sinN N a t).const_mul (-N)).congr_deriv ?_
    ring) t ht

/-- Sturm: every interval of the length `π / N` has a zero inside. -/
theorem Osc.zero (h : Osc N u du) (hN : 0 < N) {a : ℝ} (ha : 0 < a) (hb : a + π / N < π) :
    ∃ t ∈ Ioo a (a + π / N), u t = 0 := by
  by_contra hcon
  push Not at hcon
  have hl : 0 < π / N := div_pos pi_pos hN
  -- constant sign
  have key : ∀ (u du : ℝ → ℝ), Osc N u du → (∀ t ∈ Ioo a (a + π / N), 0 < u t) → False := by
    intro u du h hpos
    have hcl : ∀ s ∈ Icc a (a + π / N), 0 ≤ u s := by
      have hc := h.cont ha hb
      have : Icc a (a + π / N) ⊆ closure (Ioo a (a + π / N)) := by
        rw [closure_Ioo (by linarith)]
      intro s hs
      have hcs : ContinuousWithinAt u (Ioo a (a + π / N)) s := (hc s hs).mono Ioo_subset_Icc_self
      have hne : (nhdsWithin s (Ioo a (a + π / N))).NeBot := mem_closure_iff_nhdsWithin_neBot.1 (this hs)
      refine ge_of_tendsto hcs.tendsto ?_
      filter_upwards [self_mem_nhdsWithin] with t ht using (hpos t ht).le
    have hanti : StrictAntiOn (fun t => du t * sin (N * (t - a)) - u t * (N * cos (N * (t - a)))) (Icc a (a + π / N)) := by
      refine strictAntiOn_of_deriv_neg (convex_Icc _ _) (fun t ht => ?_) fun t ht => ?_
      · exact (h.wsin a t ⟨by linarith [ht.1], by linarith [ht.2]⟩).continuousAt.continuousWithinAt
      · rw [interior_Icc] at ht
        have htp : t ∈ Ioo 0 π := ⟨by linarith [ht.1], by linarith [ht.2]⟩
        rw [(h.wsin a t htp).deriv]
        have h1 := sin_pos_of_mem_Ioo htp
        have h2 : 0 < sin (N * (t - a)) := sin_pos_of_mem_Ioo ⟨mul_pos hN (by linarith [ht.1]), by
          have : N * (t - a) < N * (π / N) := mul_lt_mul_of_pos_left (by linarith [ht.2]) hN
          rwa [mul_div_cancel₀ _ hN.ne'] at this⟩
        have h3 := hpos t ht
        have : 0 < 1 / (4 * sin t ^ 2) * u t * sin (N * (t - a)) := by positivity
        linarith
    have := hanti (left_mem_Icc.2 (by linarith)) (right_mem_Icc.2 (by linarith)) (by linarith)
    simp only [sub_self, mul_zero, sin_zero, cos_zero, add_sub_cancel_left, mul_div_cancel₀ _ hN.ne', sin_pi, cos_pi] at this
    have e1 := mul_nonneg (hcl a (left_mem_Icc.2 (by linarith))) hN.le
    have e2 := mul_nonneg (hcl _ (right_mem_Icc.2 (show a ≤ a + π / N by linarith))) hN.le
    linarith
  obtain ⟨m, hm⟩ : ∃ m, m = a + π / N / 2 := ⟨_, rfl⟩
  have hmI : m ∈ Ioo a (a + π / N) := ⟨by linarith, by linarith⟩
  have hsame : ∀ (u du : ℝ → ℝ), Osc N u du → (∀ t ∈ Ioo a (a + π / N), u t ≠ 0) → 0 < u m →
      ∀ t ∈ Ioo a (a + π / N), 0 < u t := by
    intro u du h hne hpos t ht
    by_contra hle
    push Not at hle
    have hco : ContinuousOn u (uIcc m t) := fun s hs => by
      have : s ∈ Ioo a (a + π / N) := (ordConnected_Ioo.uIcc_subset hmI ht) hs
      exact (h.deriv s ⟨by linarith [this.1], by linarith [this.2]⟩).continuousAt.continuousWithinAt
    have := intermediate_value_uIcc hco
    obtain ⟨s, hs, h0⟩ := this (show (0 : ℝ) ∈ uIcc (u m) (u t) from by
      rw [mem_uIcc]
      right
      exact ⟨hle, hpos.le⟩)
    exact hne s ((ordConnected_Ioo.uIcc_subset hmI ht) hs) h0
  rcases lt_or_gt_of_ne (hcon m hmI) with hneg | hpos
  · exact key _ _ h.neg (hsame _ _ h.neg (fun t ht => neg_ne_zero.2 (hcon t ht)) (by linarith))
  · exact key _ _ h (hsame _ _ h hcon hpos)

/-- The amplitude does not decrease towards the middle. -/
theorem Osc.amplitude (h : Osc N u du) (hN : 0 < N) {t : ℝ} (ht : 0 < t) (ht2 : t ≤ π / 2) :
    u t ^ 2 ≤ u (π / 2) ^ 2 + du (π / 2) ^ 2 / (N ^ 2 + 1 / 4) := by
  have hq : ∀ s ∈ Ioo 0 π, 0 < N ^ 2 + 1 / (4 * sin s ^ 2) := fun s hs => by
    have := sin_pos_of_mem_Ioo hs
    positivity
  have hdq : ∀ s ∈ Ioo 0 π, HasDerivAt (fun s => N ^ 2 + 1 / (4 * sin s ^ 2)) (-(cos s / (2 * sin s ^ 3))) s := by
    intro s hs
    have h0 := (sin_pos_of_mem_Ioo hs).ne'
    have h1 : HasDerivAt (fun s => 4 * sin s ^ 2) (4 * (2 * sin s * cos s)) s := by
      refine (((hasDerivAt_sin s).pow 2).const_mul 4).congr_deriv ?_
      simp
    have h2 : (4 * sin s ^ 2) ≠ 0 := by positivity
    refine (((hasDerivAt_const s (1 : ℝ)).div h1 h2).const_add (N ^ 2)).congr_deriv ?_
    field_simp
    ring
  have hE : ∀ s ∈ Ioo 0 π, HasDerivAt (fun s => u s ^ 2 + du s ^ 2 / (N ^ 2 + 1 / (4 * sin s ^ 2)))
      (du s ^ 2 * (cos s / (2 * sin s ^ 3)) / (N ^ 2 + 1 / (4 * sin s ^ 2)) ^ 2) s := by
    intro s hs
    have h1 := (((h.deriv s hs).pow 2).add (((h.second s hs).pow 2).div (hdq s hs) (hq s hs).ne'))
    refine h1.congr_deriv ?_
    have h0 := (sin_pos_of_mem_Ioo hs).ne'
    have h2 := (hq s hs).ne'
    simp only [Pi.pow_apply]
    generalize N ^ 2 + 1 / (4 * sin s ^ 2) = q at *
    field_simp
    ring
  have hmono : MonotoneOn (fun s => u s ^ 2 + du s ^ 2 / (N ^ 2 + 1 / (4 * sin s ^ 2))) (Icc t (π / 2)) := by
    refine monotoneOn_of_deriv_nonneg (convex_Icc _ _) (fun s hs => ?_) (fun s hs => ?_) fun s hs => ?_
    · exact (hE s ⟨by linarith [hs.1], by linarith [hs.2, pi_pos]⟩).continuousAt.continuousWithinAt
    · rw [interior_Icc] at hs
      exact (hE s ⟨by linarith [hs.1], by linarith [hs.2, pi_pos]⟩).differentiableAt.differentiableWithinAt
    · rw [interior_Icc] at hs
      have hs' : s ∈ Ioo 0 π := ⟨by linarith [hs.1], by linarith [hs.2, pi_pos]⟩
      rw [(hE s hs').deriv]
      have h1 := sin_pos_of_mem_Ioo hs'
      have h2 : 0 ≤ cos s := cos_nonneg_of_mem_Icc ⟨by linarith [hs.1, pi_pos], hs.2.le⟩
      positivity
  have := hmono (left_mem_Icc.2 ht2) (right_mem_Icc.2 ht2) ht2
  simp only [sin_pi_div_two, one_pow, mul_one] at this
  have h0 : 0 ≤ du t ^ 2 / (N ^ 2 + 1 / (4 * sin t ^ 2)) :=
    div_nonneg (sq_nonneg _) (hq t ⟨ht, by linarith [pi_pos]⟩).le
  linarith

/-- A function with small derivative changes little. -/
theorem change {W w : ℝ → ℝ} {U a : ℝ} (ha : 0 < a) (ha2 : a ≤ π / 2)
    (hW : ∀ t ∈ Ioo 0 π, HasDerivAt W (w t) t) (hw : ∀ t ∈ Icc a (π / 2), |w t| ≤ U * (1 / (4 * sin t ^ 2))) :
    |W (π / 2) - W a| ≤ U * (cos a / sin a / 4) := by
  have hcot : ∀ t ∈ Ioo 0 π, HasDerivAt (fun t => cos t / sin t / 4) (-(1 / (4 * sin t ^ 2))) t := by
    intro t ht
    have h0 := (sin_pos_of_mem_Ioo ht).ne'
    refine (((hasDerivAt_cos t).div (hasDerivAt_sin t) h0).div_const 4).congr_deriv ?_
    have := sin_sq_add_cos_sq t
    field_simp
    linear_combination -this
  have key : ∀ (s : ℝ), (s = 1 ∨ s = -1) → s * (W (π / 2) - W a) ≤ U * (cos a / sin a / 4) := by
    intro s hs
    have hD : ∀ t ∈ Ioo 0 π, HasDerivAt (fun t => s * W t + U * (cos t / sin t / 4)) (s * w t + U * -(1 / (4 * sin t ^ 2))) t :=
      fun t ht => ((hW t ht).const_mul s).add ((hcot t ht).const_mul U)
    have hanti : AntitoneOn (fun t => s * W t + U * (cos t / sin t / 4)) (Icc a (π / 2)) := by
      refine antitoneOn_of_deriv_nonpos (convex_Icc _ _) (fun t ht => ?_) (fun t ht => ?_) fun t ht => ?_
      · exact (hD t ⟨by linarith [ht.1], by linarith [ht.2, pi_pos]⟩).continuousAt.continuousWithinAt
      · rw [interior_Icc] at ht
        exact (hD t ⟨by linarith [ht.1], by linarith [ht.2, pi_pos]⟩).differentiableAt.differentiableWithinAt
      · rw [interior_Icc] at ht
        rw [(hD t ⟨by linarith [ht.1], by linarith [ht.2, pi_pos]⟩).deriv]
        have := abs_le.1 (hw t ⟨ht.1.le, ht.2.le⟩)
        rcases hs with rfl | rfl <;> linarith [this.1, this.2]
    have := hanti (left_mem_Icc.2 ha2) (right_mem_Icc.2 ha2) ha2
    simp only [cos_pi_div_two, zero_div, mul_zero, add_zero] at this
    linarith
  exact abs_le.2 ⟨by linarith [key (-1) (Or.inr rfl)], by linarith [key 1 (Or.inl rfl)]⟩

end Sturm

end NuTo
