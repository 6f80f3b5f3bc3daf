/-
C115: the Newton iterations of `LegendreDerivRoots` end at the roots of the derivative.
-/
import Verif.Lemmas.LobattoNewton

namespace NuTo

namespace LegendreZeros

open Real Set Sturm

variable {n : Nat}

/-- the angles in the middle of two starts of `FirstGuess` -/
noncomputable def gm (n i : Nat) : ℝ := (i + 5 / 4) * (π / (n + 1 / 2))

theorem gm_eq (n i : Nat) : gm n i = g n i + π / (n + 1 / 2) / 2 := by
  rw [gm, g]
  ring

theorem gm_pos (n i : Nat) : 0 < gm n i := by
  have := g_pos n i
  have := step_pos n
  rw [gm_eq]
  linarith

theorem gm_half {i : Nat} (h : 2 * i + 3 ≤ n) : gm n i + π / (n + 1 / 2) / 2 ≤ π / 2 := by
  rw [half_pi n, gm, ← sub_nonneg]
  have h1 : (2 : ℝ) * i + 3 ≤ n := by exact_mod_cast h
  have h2 := step_pos n
  have : (n / 2 + 1 / 4 - (i + 5 / 4) - 1 / 2 : ℝ) * (π / ((n : ℝ) + 1 / 2)) ≥ 0 := mul_nonneg (by linarith) h2.le
  linarith

theorem gm_phase (n i : Nat) : ((n : ℝ) + 1 / 2) * (π / 2 - gm n i) = (n / 2 - i - 1) * π := by
  have hN : ((n : ℝ) + 1 / 2) ≠ 0 := by positivity
  rw [gm]
  field_simp
  ring

theorem gm_cot {i : Nat} (h : 2 * i + 3 ≤ n) : 3.92 * cos (gm n i) ≤ ((n : ℝ) + 1 / 2) * sin (gm n i) := by
  have hg := gm_pos n i
  have hh := gm_half h
  have hs := step_pos n
  have hN : (0 : ℝ) < n + 1 / 2 := by positivity
  have hcos : 0 < cos (gm n i) := cos_pos_of_mem_Ioo ⟨by linarith [pi_pos], by linarith⟩
  have htan := lt_tan hg (by linarith)
  rw [tan_eq_sin_div_cos, lt_div_iff₀ hcos] at htan
  have hge : 3.92 ≤ ((n : ℝ) + 1 / 2) * gm n i := by
    rw [gm]
    have : ((n : ℝ) + 1 / 2) * ((i + 5 / 4) * (π / ((n : ℝ) + 1 / 2))) = (i + 5 / 4) * π := by field_simp
    rw [this]
    have h1 : (0 : ℝ) ≤ i := Nat.cast_nonneg i
    nlinarith [pi_gt_d2]
  calc 3.92 * cos (gm n i) ≤ ((n : ℝ) + 1 / 2) * gm n i * cos (gm n i) := mul_le_mul_of_nonneg_right hge hcos.le
    _ = ((n : ℝ) + 1 / 2) * (gm n i * cos (gm n i)) := by ring
    _ ≤ _ := mul_le_mul_of_nonneg_left htan.le hN.le

theorem dw_small {i : Nat} (h : 2 * i + 3 ≤ n) : |dw n (gm n i)| ≤ amp n * (cos (gm n i) / sin (gm n i) / 4) := by
  have hg := gm_pos n i
  have hh := gm_half h
  have hs := step_pos n
  have hN : (0 : ℝ) < n + 1 / 2 := by positivity
  have := change hg (by linarith) (fun t ht => (osc n).wcos (gm n i) t ht) (U := amp n) (fun t ht => by
    have h1 := amp_bound (n := n) (lt_of_lt_of_le hg ht.1) ht.2
    have h2 := abs_cos_le_one (((n : ℝ) + 1 / 2) * (t - gm n i))
    rw [abs_mul, abs_mul, abs_neg, abs_of_nonneg (by positivity : (0 : ℝ) ≤ 1 / (4 * sin t ^ 2))]
    have h3 : 0 ≤ 1 / (4 * sin t ^ 2) := by positivity
    have h4 := (amp_pos (n := n)).le
    calc _ ≤ 1 / (4 * sin t ^ 2) * amp n * 1 := by
          gcongr
      _ = _ := by ring)
  rw [gm_phase] at this
  have hz : dw n (π / 2) * cos ((n / 2 - i - 1) * π) - w n (π / 2) * (-((n : ℝ) + 1 / 2) * sin ((n / 2 - i - 1) * π)) = 0 := by
    rcases Nat.even_or_odd n with he | ho
    · rw [(middle_even he).2.1]
      obtain ⟨m, hm⟩ := he
      have : ((n : ℝ) / 2 - i - 1) * π = ((m : ℤ) - (i : ℤ) - 1 : ℤ) * π := by
        push_cast
        rw [hm]
        push_cast
        ring
      rw [this, sin_int_mul_pi]
      ring
    · rw [(middle_odd ho).1]
      obtain ⟨m, hm⟩ := ho
      have : ((n : ℝ) / 2 - i - 1) * π = ((m : ℤ) - (i : ℤ) : ℤ) * π - π / 2 := by
        push_cast
        rw [hm]
        push_cast
        ring
      rw [this, cos_sub_pi_div_two, sin_int_mul_pi]
      ring
  rw [hz] at this
  simp only [sub_self, mul_zero, cos_zero, sin_zero, mul_one, sub_zero, zero_sub, abs_neg] at this
  linarith

theorem w_large {i : Nat} (h : 2 * i + 3 ≤ n) :
    amp n * (((n : ℝ) + 1 / 2) - cos (gm n i) / sin (gm n i) / 4) ≤ ((n : ℝ) + 1 / 2) * |w n (gm n i)| := by
  have hg := gm_pos n i
  have hh := gm_half h
  have hs := step_pos n
  have hN : (0 : ℝ) < n + 1 / 2 := by positivity
  have := change hg (by linarith) (fun t ht => (osc n).wsin (gm n i) t ht) (U := amp n) (fun t ht => by
    have h1 := amp_bound (n := n) (lt_of_lt_of_le hg ht.1) ht.2
    have h2 := abs_sin_le_one (((n : ℝ) + 1 / 2) * (t - gm n i))
    rw [abs_mul, abs_mul, abs_neg, abs_of_nonneg (by positivity : (0 : ℝ) ≤ 1 / (4 * sin t ^ 2))]
    have h3 : 0 ≤ 1 / (4 * sin t ^ 2) := by positivity
    have h4 := (amp_pos (n := n)).le
    calc _ ≤ 1 / (4 * sin t ^ 2) * amp n * 1 := by
          gcongr
      _ = _ := by ring)
  rw [gm_phase] at this
  have hz : |dw n (π / 2) * sin ((n / 2 - i - 1) * π) - w n (π / 2) * (((n : ℝ) + 1 / 2) * cos ((n / 2 - i - 1) * π))| =
      amp n * ((n : ℝ) + 1 / 2) := by
    rcases Nat.even_or_odd n with he | ho
    · obtain ⟨e1, e2, _⟩ := middle_even he
      rw [e1, e2, amp, if_pos he]
      obtain ⟨m, hm⟩ := he
      have : ((n : ℝ) / 2 - i - 1) * π = ((m : ℤ) - (i : ℤ) - 1 : ℤ) * π := by
        push_cast
        rw [hm]
        push_cast
        ring
      rw [this, zero_mul, zero_sub, abs_neg, abs_mul, abs_mul, abs_cos_int_mul_pi, abs_of_pos hN, mul_one]
    · obtain ⟨e1, e2, _⟩ := middle_odd ho
      rw [e1, e2, amp, if_neg (Nat.not_even_iff_odd.2 ho)]
      obtain ⟨m, hm⟩ := ho
      have : ((n : ℝ) / 2 - i - 1) * π = ((m : ℤ) - (i : ℤ) : ℤ) * π - π / 2 := by
        push_cast
        rw [hm]
        push_cast
        ring
      rw [this, sin_sub_pi_div_two, zero_mul, sub_zero, abs_mul, abs_neg, abs_neg, abs_cos_int_mul_pi, mul_one,
        div_mul_cancel₀ _ hN.ne']
  have h2 := abs_sub_abs_le_abs_sub (dw n (π / 2) * sin ((n / 2 - i - 1) * π) -
    w n (π / 2) * (((n : ℝ) + 1 / 2) * cos ((n / 2 - i - 1) * π))) (dw n (gm n i) * sin (((n : ℝ) + 1 / 2) * (gm n i - gm n i)) -
      w n (gm n i) * (((n : ℝ) + 1 / 2) * cos (((n : ℝ) + 1 / 2) * (gm n i - gm n i))))
  rw [hz] at h2
  have h3 : |dw n (gm n i) * sin (((n : ℝ) + 1 / 2) * (gm n i - gm n i)) -
      w n (gm n i) * (((n : ℝ) + 1 / 2) * cos (((n : ℝ) + 1 / 2) * (gm n i - gm n i)))| = ((n : ℝ) + 1 / 2) * |w n (gm n i)| := by
    rw [sub_self, mul_zero, sin_zero, cos_zero, mul_zero, mul_one, zero_sub, abs_neg, abs_mul, abs_of_pos hN, mul_comm]
  rw [h3] at h2
  linarith

/-- The zero behind a start lies before the next middle. -/
theorem zero_before (z : Nat → ℝ) (hz : ∀ i < n / 2, g n i < z i ∧ z i < g n (i + 1) ∧ z i < π / 2 ∧ p n (cos (z i)) = 0)
    (hall : ∀ t, 0 < t → t < π / 2 → p n (cos t) = 0 → ∃ i < n / 2, t = z i) {i : Nat} (h3 : 2 * i + 3 ≤ n) : z i < gm n i := by
  have h : i < n / 2 := by omega
  by_contra hcon
  push Not at hcon
  obtain ⟨σ, hσ, hpos, hneg⟩ := signs h
  have hg := g_pos n i
  have hh := gm_half h3
  have hs := step_pos n
  have hN : (0 : ℝ) < n + 1 / 2 := by positivity
  have hA := amp_pos (n := n)
  have hκ := cot_bound h
  have hσ2 : |σ| = 1 := by rcases hσ with rfl | rfl <;> simp
  have hσ0 : σ ≠ 0 := by rcases hσ with rfl | rfl <;> norm_num
  have hgm := gm_eq n i
  have hdt : ∀ t ∈ Icc (g n i) (gm n i), t ∈ Ioo 0 π := fun t ht => ⟨by linarith [ht.1], by linarith [ht.2, pi_pos]⟩
  have hcont : ContinuousOn (fun t => σ * w n t) (Icc (g n i) (gm n i)) := fun t ht =>
    (((osc n).deriv t (hdt t ht)).const_mul σ).continuousAt.continuousWithinAt
  have hle : g n i ≤ gm n i := by linarith
  have hposall : ∀ t ∈ Icc (g n i) (gm n i), 0 ≤ σ * w n t := by
    intro t ht
    by_contra hlt
    push Not at hlt
    have hsub : Icc (g n i) t ⊆ Icc (g n i) (gm n i) := Icc_subset_Icc_right ht.2
    obtain ⟨r, hr, h0⟩ := intermediate_value_Icc' ht.1 (hcont.mono hsub) (show (0 : ℝ) ∈ Icc _ _ from ⟨hlt.le, hpos.le⟩)
    have hr0 : w n r = 0 := (mul_eq_zero.1 h0).resolve_left hσ0
    obtain ⟨j, hj, e⟩ := hall r (by linarith [hr.1]) (by linarith [hr.2, ht.2]) ((w_zero (hdt r (hsub hr))).1 hr0)
    have hne : r ≠ t := by
      rintro rfl
      rw [hr0, mul_zero] at hlt
      exact lt_irrefl _ hlt
    have hrt : r < t := lt_of_le_of_ne hr.2 hne
    rcases lt_trichotomy j i with hl | hl | hl
    · linarith [(hz j hj).2.1, g_le (n := n) (show j + 1 ≤ i from hl), hr.1]
    · rw [hl] at e
      linarith [ht.2]
    · have := (hz j hj).1
      have h5 := g_le (n := n) (show i + 1 ≤ j from hl)
      rw [g_succ] at h5
      linarith [ht.2]
  have hanti : AntitoneOn (fun t => σ * dw n t) (Icc (g n i) (gm n i)) := by
    refine antitoneOn_of_deriv_nonpos (convex_Icc _ _) (fun t ht => ?_) (fun t ht => ?_) fun t ht => ?_
    · exact (((osc n).second t (hdt t ht)).const_mul σ).continuousAt.continuousWithinAt
    · exact (((osc n).second t (hdt t (interior_subset ht))).const_mul σ).differentiableAt.differentiableWithinAt
    · have ht' := interior_subset ht
      rw [(((osc n).second t (hdt t ht')).const_mul σ).deriv]
      have h1 := hposall t ht'
      have h2 : 0 ≤ 1 / (4 * sin t ^ 2) := by positivity
      have : 0 ≤ (((n : ℝ) + 1 / 2) ^ 2 + 1 / (4 * sin t ^ 2)) * (σ * w n t) := by positivity
      linarith
  obtain ⟨ξ, hξ, hξ'⟩ := exists_hasDerivAt_eq_slope (fun t => σ * w n t) (fun t => σ * dw n t) (show g n i < gm n i by linarith)
    hcont (fun t ht => ((osc n).deriv t (hdt t ⟨ht.1.le, ht.2.le⟩)).const_mul σ)
  have h1 := hanti (left_mem_Icc.2 hle) ⟨hξ.1.le, hξ.2.le⟩ hξ.1.le
  beta_reduce at h1 hξ'
  have hlen : gm n i - g n i = π / (n + 1 / 2) / 2 := by rw [hgm]; ring
  rw [hξ', hlen, div_le_iff₀ (by linarith)] at h1
  have hb1 := hposall (gm n i) (right_mem_Icc.2 hle)
  have h2 := w_small h
  have h3 := dw_large h
  have h4 : |dw n (g n i)| = -(σ * dw n (g n i)) := by rw [← abs_of_neg hneg, abs_mul, hσ2, one_mul]
  have h5 : |w n (g n i)| = σ * w n (g n i) := by rw [← abs_of_pos hpos, abs_mul, hσ2, one_mul]
  rw [h4] at h3
  rw [h5] at h2
  have h6 : ((n : ℝ) + 1 / 2) * (σ * w n (g n i)) ≤ amp n * (((n : ℝ) + 1 / 2) / 9) :=
    h2.trans (mul_le_mul_of_nonneg_left hκ hA.le)
  have h7 : σ * w n (g n i) ≤ amp n / 9 := by
    have : ((n : ℝ) + 1 / 2) * (σ * w n (g n i)) ≤ ((n : ℝ) + 1 / 2) * (amp n / 9) := by linarith
    exact le_of_mul_le_mul_left this hN
  have h8 : amp n * (((n : ℝ) + 1 / 2) * (8 / 9)) ≤ -(σ * dw n (g n i)) := by
    refine le_trans (mul_le_mul_of_nonneg_left ?_ hA.le) h3
    linarith
  have h9 : amp n * (8 / 9) * (π / 2) ≤ -(σ * dw n (g n i)) * (π / ((n : ℝ) + 1 / 2) / 2) := by
    calc _ = amp n * (((n : ℝ) + 1 / 2) * (8 / 9)) * (π / ((n : ℝ) + 1 / 2) / 2) := by
          field_simp
      _ ≤ _ := mul_le_mul_of_nonneg_right h8 (by positivity)
  have : amp n * (8 / 9) * (3 / 2) ≤ amp n * (8 / 9) * (π / 2) := by
    refine mul_le_mul_of_nonneg_left ?_ (by positivity)
    linarith [pi_gt_three]
  linarith

/-- third derivative -/
noncomputable def d3p (n : Nat) (x : ℝ) : ℝ :=
  (Polynomial.derivative (Polynomial.derivative (Polynomial.derivative (LegendrePoly.P ℝ n)))).eval x

theorem hasDerivAt_ddp (n : Nat) (x : ℝ) : HasDerivAt (ddp n) (d3p n x) x :=
  (Polynomial.derivative (Polynomial.derivative (LegendrePoly.P ℝ n))).hasDerivAt x

theorem ode_third (n : Nat) (x : ℝ) : (1 - x ^ 2) * d3p n x = 4 * x * ddp n x - ((n : ℝ) * (n + 1) - 2) * dp n x := by
  have h1 : HasDerivAt (fun x : ℝ => 1 - x ^ 2) (-(2 * x)) x := by
    refine ((hasDerivAt_pow 2 x).const_sub 1).congr_deriv ?_
    simp
  have a1 : HasDerivAt (fun x : ℝ => 2 * x) 2 x := by simpa using (hasDerivAt_id x).const_mul 2
  have h2 : HasDerivAt (fun x => (1 - x ^ 2) * ddp n x) (-(2 * x) * ddp n x + (1 - x ^ 2) * d3p n x) x :=
    h1.mul (hasDerivAt_ddp n x)
  have h3 : HasDerivAt (fun x => (1 - x ^ 2) * ddp n x)
      (2 * dp n x + 2 * x * ddp n x - (n : ℝ) * (n + 1) * dp n x) x := by
    refine ((a1.mul (hasDerivAt_dp n x)).sub ((hasDerivAt_p n x).const_mul ((n : ℝ) * (n + 1)))).congr_of_eventuallyEq
      (Filter.Eventually.of_forall fun t => ?_)
    simp only [Pi.sub_apply, Pi.mul_apply]
    linear_combination ode_eval n t
  have := h2.unique h3
  linear_combination this

/-- The sizes at the middle of two starts. -/
theorem middle_sizes {A N S X q R dws : ℝ} (hN : 0 < N) (hS : 0 < S) (hX : 0 < X) (hA : 0 < A) (hR : 0 < R) (hRS : R * R = S)
    (hcot : 3.92 * X ≤ N * S) (hw : A * (N - X / S / 4) ≤ N * (R * q)) (hd : |dws| ≤ A * (X / S / 4)) (hq : 0 < q) :
    |R * dws| ≤ 0.269 * X * q := by
  have h1 : X / S / 4 ≤ N * (25 / 392) := by
    rw [div_div, div_le_iff₀ (by positivity)]
    linarith
  have h2 : A * (N * (367 / 392)) ≤ N * (R * q) := by
    refine le_trans (mul_le_mul_of_nonneg_left ?_ hA.le) hw
    linarith
  have h3 : A * (367 / 392) ≤ R * q := by
    have : N * (A * (367 / 392)) ≤ N * (R * q) := by linarith
    exact le_of_mul_le_mul_left this hN
  rw [abs_mul, abs_of_pos hR]
  have h4 : R * |dws| ≤ R * (A * (X / S / 4)) := mul_le_mul_of_nonneg_left hd hR.le
  have h5 : 0 < R * (X / S / 4) := by positivity
  have h6 : A * (367 / 392) * (R * (X / S / 4)) ≤ R * q * (R * (X / S / 4)) := mul_le_mul_of_nonneg_right h3 h5.le
  have h7 : R * q * (R * (X / S / 4)) = q * X / 4 := by
    rw [← hRS]
    field_simp
  have h8 : 0 < X * q := by positivity
  linarith

theorem distance_bound {N c X C : ℝ} (hN : 0 < N) (hc0 : 0 ≤ c) (hc : c ≤ N ^ 2) (hX : 0 < X)
    (hC : 1 - (π / N / 2) ^ 2 / 2 ≤ C) : c * (X - X * C) ≤ 1.24 * X := by
  have h2 : X - X * C ≤ X * ((π / N / 2) ^ 2 / 2) := by
    have := mul_le_mul_of_nonneg_left hC hX.le
    linarith
  have h4 : c * ((π / N / 2) ^ 2 / 2) ≤ 1.24 := by
    have e2 : N ^ 2 * ((π / N / 2) ^ 2 / 2) = π ^ 2 / 8 := by
      field_simp
      ring
    have e3 : π ^ 2 / 8 ≤ 1.24 := by
      have : π ^ 2 ≤ 3.1416 ^ 2 := pow_le_pow_left₀ pi_pos.le pi_lt_d4.le 2
      norm_num at this ⊢
      linarith
    have := mul_le_mul_of_nonneg_right hc (by positivity : 0 ≤ (π / N / 2) ^ 2 / 2)
    linarith
  have h5 := mul_le_mul_of_nonneg_left h2 hc0
  have h6 := mul_le_mul_of_nonneg_right h4 hX.le
  linarith

theorem sine_bound {N c X S : ℝ} (hX : 0 < X) (hcot : 3.92 * X ≤ N * S) (hc : 0.979 * N ^ 2 ≤ c) (hXS : S ^ 2 + X ^ 2 = 1) :
    15 * X ^ 2 ≤ c * (1 - X ^ 2) := by
  have hD : 1 - X ^ 2 = S ^ 2 := by linarith
  rw [hD]
  have e1 : (3.92 * X) ^ 2 ≤ (N * S) ^ 2 := pow_le_pow_left₀ (by positivity) hcot 2
  have e3 := mul_le_mul_of_nonneg_right hc (sq_nonneg S)
  have e4 : 0 ≤ X ^ 2 := sq_nonneg _
  have e5 : (N * S) ^ 2 = N ^ 2 * S ^ 2 := by ring
  norm_num at e1 e3 ⊢
  rw [e5] at e1
  nlinarith

theorem no_zero_between (z : Nat → ℝ) (hz : ∀ i < n / 2, g n i < z i ∧ z i < g n (i + 1) ∧ z i < π / 2 ∧ p n (cos (z i)) = 0)
    (hall : ∀ t, 0 < t → t < π / 2 → p n (cos t) = 0 → ∃ i < n / 2, t = z i) {i : Nat} (h3 : 2 * i + 3 ≤ n) (x : ℝ) :
    (cos (g n i) + cos (g n (i + 1))) / 2 ≤ x → x < cos (z i) → p n x ≠ 0 := by
  have h : i < n / 2 := by omega
  obtain ⟨z1, z2, z3, z4⟩ := hz i h
  have hg := g_pos n i
  have hh := gm_half h3
  have hs := step_pos n
  have hg1 : g n (i + 1) = gm n i + π / (n + 1 / 2) / 2 := by rw [g_succ, gm_eq]; ring
  have hg0 : g n i = gm n i - π / (n + 1 / 2) / 2 := by rw [gm_eq]; ring
  intro h1 h2 h0
  have hlt : cos (g n (i + 1)) < cos (g n i) := cos_lt_cos_of_nonneg_of_le_pi hg.le (by linarith [pi_pos]) (by linarith)
  have hnn : 0 ≤ cos (g n (i + 1)) := cos_nonneg_of_mem_Icc ⟨by linarith [pi_pos], by linarith⟩
  have hx0 : 0 < x := by linarith
  have hx1 : x < 1 := lt_of_lt_of_le h2 (cos_le_one _)
  obtain ⟨j, hj, e⟩ := hall (arccos x) (arccos_pos.2 hx1) (arccos_lt_pi_div_two.2 hx0) (by
    rw [cos_arccos (by linarith) hx1.le]; exact h0)
  have e2 : x = cos (z j) := by rw [← e, cos_arccos (by linarith) hx1.le]
  have h4 : z i < z j := by
    by_contra hge
    push Not at hge
    have := cos_le_cos_of_nonneg_of_le_pi (by linarith [(hz j hj).1, g_pos n j] : 0 ≤ z j) (by linarith [pi_pos]) hge
    rw [← e2] at this
    linarith
  have h5 : z j < g n (i + 1) := by
    by_contra hge
    push Not at hge
    have := cos_le_cos_of_nonneg_of_le_pi (by linarith : 0 ≤ g n (i + 1)) (by linarith [(hz j hj).2.2.1, pi_pos]) hge
    rw [← e2] at this
    linarith
  rcases lt_trichotomy j i with hl | hl | hl
  · linarith [(hz j hj).2.1, g_le (n := n) (show j + 1 ≤ i from hl)]
  · rw [hl] at h4
    exact lt_irrefl _ h4
  · linarith [(hz j hj).1, g_le (n := n) (show i + 1 ≤ j from hl)]

/-- Value and derivative in the middle of two starts. -/
theorem at_middle {i : Nat} (h3 : 2 * i + 3 ≤ n) (hpX : p n (cos (gm n i)) ≠ 0) :
    ∃ σ : ℝ, (σ = 1 ∨ σ = -1) ∧ 0 < -(σ * p n (cos (gm n i))) ∧
      -(0.77 * cos (gm n i) * -(σ * p n (cos (gm n i)))) ≤ (1 - cos (gm n i) ^ 2) * (σ * dp n (cos (gm n i))) ∧
      (1 - cos (gm n i) ^ 2) * (σ * dp n (cos (gm n i))) < 0 := by
  have hgm := gm_pos n i
  have hh := gm_half h3
  have hs := step_pos n
  have hN : (0 : ℝ) < n + 1 / 2 := by positivity
  have hS : 0 < sin (gm n i) := sin_pos_of_mem_Ioo ⟨hgm, by linarith [pi_pos]⟩
  have hX : 0 < cos (gm n i) := cos_pos_of_mem_Ioo ⟨by linarith [pi_pos], by linarith⟩
  have hA := amp_pos (n := n)
  have hcotb := gm_cot h3
  obtain ⟨σ, hσ, hq0⟩ : ∃ σ : ℝ, (σ = 1 ∨ σ = -1) ∧ 0 < -(σ * p n (cos (gm n i))) := by
    rcases lt_or_gt_of_ne hpX with hlt | hgt
    · exact ⟨1, Or.inl rfl, by linarith⟩
    · exact ⟨-1, Or.inr rfl, by linarith⟩
  have hσ2 : |σ| = 1 := by rcases hσ with rfl | rfl <;> simp
  have hR := sqrt_pos.2 hS
  have hRS : √(sin (gm n i)) * √(sin (gm n i)) = sin (gm n i) := mul_self_sqrt hS.le
  have hwq : |w n (gm n i)| = √(sin (gm n i)) * -(σ * p n (cos (gm n i))) := by
    rw [w, abs_mul, abs_of_pos hR]
    congr 1
    rw [← abs_of_pos hq0, abs_neg, abs_mul, hσ2, one_mul]
  have hwl := w_large h3
  rw [hwq] at hwl
  have hds : |σ * dw n (gm n i)| ≤ amp n * (cos (gm n i) / sin (gm n i) / 4) := by
    rw [abs_mul, hσ2, one_mul]
    exact dw_small h3
  have hsz := middle_sizes hN hS hX hA hR hRS hcotb hwl hds hq0
  have hu : (1 - cos (gm n i) ^ 2) * (σ * dp n (cos (gm n i))) =
      -(cos (gm n i) * -(σ * p n (cos (gm n i))) / 2) - √(sin (gm n i)) * (σ * dw n (gm n i)) := by
    have hD : 1 - cos (gm n i) ^ 2 = sin (gm n i) ^ 2 := by linarith [sin_sq_add_cos_sq (gm n i)]
    have hd : √(sin (gm n i)) * dw n (gm n i) = cos (gm n i) * p n (cos (gm n i)) / 2 - sin (gm n i) ^ 2 * dp n (cos (gm n i)) := by
      rw [dw, ← mul_assoc, hRS]
      field_simp
    rw [hD]
    linear_combination σ * hd
  have hqX : 0 < cos (gm n i) * -(σ * p n (cos (gm n i))) := mul_pos hX hq0
  rw [abs_le] at hsz
  refine ⟨σ, hσ, hq0, ?_, ?_⟩
  · rw [hu]
    linarith [hsz.2]
  · rw [hu]
    linarith [hsz.1]

/-- A continuous function without zeros in an interval does not change its sign. -/
theorem keeps_sign {F : ℝ → ℝ} (hF : Continuous F) {lo hi X x : ℝ} (hne : ∀ r, lo ≤ r → r < hi → F r ≠ 0) (hX : lo ≤ X)
    (hX2 : X < hi) (h0 : 0 < F X) (hx : lo ≤ x) (hx2 : x < hi) : 0 < F x := by
  by_contra hle
  push Not at hle
  obtain ⟨r, hr, h0⟩ := intermediate_value_uIcc (a := x) (b := X) hF.continuousOn (show (0 : ℝ) ∈ uIcc _ _ from by
    rw [mem_uIcc]
    left
    exact ⟨hle, h0.le⟩)
  rw [mem_uIcc] at hr
  rcases hr with hr | hr
  · exact hne r (by linarith [hr.1]) (by linarith [hr.2]) h0
  · exact hne r (by linarith [hr.1]) (by linarith [hr.2]) h0

/-- Between the middle of two starts and the zero before it, `LegendreDerivRoots` finds the situation of `Extremum`. -/
theorem extremum (z : Nat → ℝ) (hz : ∀ i < n / 2, g n i < z i ∧ z i < g n (i + 1) ∧ z i < π / 2 ∧ p n (cos (z i)) = 0)
    (hall : ∀ t, 0 < t → t < π / 2 → p n (cos t) = 0 → ∃ i < n / 2, t = z i) {i : Nat} (h3 : 2 * i + 3 ≤ n) :
    ∃ σ : ℝ, (σ = 1 ∨ σ = -1) ∧ Extremum (fun x => -(σ * p n x)) (fun x => σ * dp n x) (fun x => σ * ddp n x)
      (fun x => σ * d3p n x) ((n : ℝ) * (n + 1)) (cos (gm n i)) (cos (gm n i) - (cos (g n i) + cos (g n (i + 1))) / 2) (cos (z i)) := by
  have h : i < n / 2 := by omega
  obtain ⟨z1, z2, z3, z4⟩ := hz i h
  have hzg := zero_before z hz hall h3
  have hg := g_pos n i
  have hgm := gm_pos n i
  have hh := gm_half h3
  have hs := step_pos n
  have hN : (0 : ℝ) < n + 1 / 2 := by positivity
  have hn3 : (3 : ℝ) ≤ n := by exact_mod_cast (by omega : 3 ≤ n)
  have hX : 0 < cos (gm n i) := cos_pos_of_mem_Ioo ⟨by linarith [pi_pos], by linarith⟩
  have hg1 : g n (i + 1) = gm n i + π / (n + 1 / 2) / 2 := by rw [g_succ, gm_eq]; ring
  have hg0 : g n i = gm n i - π / (n + 1 / 2) / 2 := by rw [gm_eq]; ring
  have hcoscos : (cos (g n i) + cos (g n (i + 1))) / 2 = cos (gm n i) * cos (π / (n + 1 / 2) / 2) := by
    rw [hg0, hg1, cos_sub, cos_add]
    ring
  have hnz := no_zero_between z hz hall h3
  have hXe : cos (gm n i) < cos (z i) := cos_lt_cos_of_nonneg_of_le_pi (by linarith) (by linarith [pi_pos]) hzg
  have hcos1 : cos (π / ((n : ℝ) + 1 / 2) / 2) < 1 := by
    have h1 : π / ((n : ℝ) + 1 / 2) / 2 ≤ π := by linarith
    have := cos_lt_cos_of_nonneg_of_le_pi (le_refl (0 : ℝ)) h1 (by linarith)
    rwa [cos_zero] at this
  have hXa : (cos (g n i) + cos (g n (i + 1))) / 2 < cos (gm n i) := by
    rw [hcoscos]
    have := mul_lt_mul_of_pos_left hcos1 hX
    linarith
  obtain ⟨σ, hσ, hq0, hu1, hu2⟩ := at_middle h3 (hnz (cos (gm n i)) hXa.le hXe)
  have hσ0 : σ ≠ 0 := by rcases hσ with rfl | rfl <;> norm_num
  have hc : Continuous fun x => -(σ * p n x) := continuous_iff_continuousAt.2 fun y =>
    ((hasDerivAt_p n y).const_mul σ).neg.continuousAt
  have he1 : cos (z i) < 1 := by
    have := cos_lt_cos_of_nonneg_of_le_pi (le_refl (0 : ℝ)) (by linarith [pi_pos]) (by linarith : 0 < z i)
    rwa [cos_zero] at this
  have hcN : (n : ℝ) * (n + 1) ≤ ((n : ℝ) + 1 / 2) ^ 2 := by nlinarith
  have hcN' : 0.979 * ((n : ℝ) + 1 / 2) ^ 2 ≤ (n : ℝ) * (n + 1) := by norm_num; nlinarith
  have hc12 : 12 ≤ (n : ℝ) * (n + 1) := by nlinarith
  have hca : 0 ≤ (cos (g n i) + cos (g n (i + 1))) / 2 := by
    rw [hcoscos]
    exact mul_nonneg hX.le (cos_nonneg_of_mem_Icc ⟨by linarith, by linarith⟩)
  have hdist : (n : ℝ) * (n + 1) * (cos (gm n i) - (cos (g n i) + cos (g n (i + 1))) / 2) ≤ 1.24 * cos (gm n i) := by
    rw [hcoscos]
    exact distance_bound hN (by linarith) hcN hX one_sub_sq_div_two_le_cos
  refine ⟨σ, hσ, ⟨fun x => ((hasDerivAt_p n x).const_mul σ).neg, fun x => (hasDerivAt_dp n x).const_mul σ,
    fun x => (hasDerivAt_ddp n x).const_mul σ, fun x => ?_, fun x => ?_, hX, hc12, sub_pos.2 hXa, ?_, hdist,
    sine_bound hX (gm_cot h3) hcN' (sin_sq_add_cos_sq _), hu1, hu2, hXe, he1, by simp [z4], fun x h1 h2 => ?_⟩⟩
  · linear_combination σ * ode_eval n x
  · linear_combination σ * ode_third n x
  · rw [sub_sub_cancel]
    exact hca
  · rw [sub_sub_cancel] at h1
    exact keeps_sign hc (fun r k1 k2 k0 => hnz r k1 k2 ((mul_eq_zero.1 (neg_eq_zero.1 k0)).resolve_left hσ0)) hXa.le hXe hq0 h1 h2

/-! ### All roots of the derivative -/

theorem ddp_neg (n : Nat) (x : ℝ) : ddp n (-x) = (-1) ^ n * ddp n x := by
  have h1 : HasDerivAt (fun x => dp n (-x)) (ddp n (-x) * -1) x :=
    HasDerivAt.comp x (hasDerivAt_dp n (-x)) (hasDerivAt_neg x)
  have h2 : HasDerivAt (fun x => dp n (-x)) (-(-1) ^ n * ddp n x) x :=
    ((hasDerivAt_dp n x).const_mul (-(-1) ^ n)).congr_of_eventuallyEq (Filter.Eventually.of_forall fun t => dp_neg n t)
  have := h1.unique h2
  linarith

theorem eval_dp' (n : Nat) (y : ℝ) : Legendre.eval (n : Int) y 1 = .ok (dp n y) := by
  have := C32_derivative_partial n 1 y (Or.inl (by norm_num))
  simpa [dp] using this

theorem eval_ddp (n : Nat) (y : ℝ) : Legendre.eval (n : Int) y (1 + 1) = .ok (ddp n y) := by
  have := C32_derivative_partial n 2 y (Or.inl (by norm_num))
  simpa [ddp] using this

/-- the starts of `LegendreDerivRoots` -/
noncomputable def ga (n i : Nat) : ℝ := 1 / 2 * (cos (g n i) + cos (g n (i + 1)))

theorem ga_mirror {i : Nat} (h : i + 2 ≤ n) : ga n (n - 2 - i) = -ga n i := by
  have e1 : n - 2 - i + 1 = n - 1 - i := by omega
  have e2 : n - 2 - i = n - 1 - (i + 1) := by omega
  rw [ga, ga, e1, e2, g_mirror (by omega), g_mirror (by omega), cos_pi_sub, cos_pi_sub]
  ring

theorem found (z : Nat → ℝ) (hz : ∀ i < n / 2, g n i < z i ∧ z i < g n (i + 1) ∧ z i < π / 2 ∧ p n (cos (z i)) = 0)
    (hall : ∀ t, 0 < t → t < π / 2 → p n (cos t) = 0 → ∃ i < n / 2, t = z i) {i : Nat} (h3 : 2 * i + 3 ≤ n) :
    ∃ (ρ r : ℝ) (k : Nat), dp n ρ = 0 ∧ ga n i < ρ ∧ ρ ≤ r ∧ r < cos (z i) ∧ r - ρ < 1 / 10 ^ 15 ∧
      ∀ fuel, k < fuel → Legendre.findRoot (n : Int) 1 fuel (ga n i) = .ok (some r) := by
  obtain ⟨σ, hσ, E⟩ := extremum z hz hall h3
  have hσ0 : σ ≠ 0 := by rcases hσ with rfl | rfl <;> norm_num
  obtain ⟨ρ, r1, r2, hd, hxe, hnear⟩ := E.near
  have hga : cos (gm n i) - (cos (gm n i) - (cos (g n i) + cos (g n (i + 1))) / 2) = ga n i := by rw [ga]; ring
  rw [hga, mul_div_mul_left _ _ hσ0] at hxe hnear
  rw [hga] at hd
  have hXa : ga n i < cos (gm n i) := by
    have := E.h0
    rw [← hga]
    linarith
  have hdd : ddp n (ga n i) ≠ 0 := fun h0 => by simp [h0] at hd
  have hroot : dp n ρ = 0 := (mul_eq_zero.1 hnear.root).resolve_left hσ0
  obtain ⟨x1, hx1⟩ : ∃ x1, x1 = ga n i - dp n (ga n i) / ddp n (ga n i) := ⟨_, rfl⟩
  rw [← hx1] at hxe hnear
  obtain ⟨k, hk⟩ := exists_nat_gt ((x1 - ρ) / (1 / 10 ^ 15))
  rw [div_lt_iff₀ (by positivity)] at hk
  obtain ⟨r, h1, h2, h3, h4⟩ := findRoot_near n 1 (eval_dp' n) (eval_ddp n) hσ k _ hnear (by
    refine hk.trans_le ?_
    have : (0 : ℝ) ≤ 1 / 10 ^ 15 := by positivity
    linarith)
  have hle := hnear.le
  by_cases hε : |ga n i - x1| < 1 / 10 ^ 15
  · refine ⟨ρ, x1, 0, hroot, by linarith, hle, hxe, ?_, fun fuel hf => ?_⟩
    · have := neg_abs_le (ga n i - x1)
      linarith
    · obtain ⟨m, rfl⟩ : ∃ m, fuel = m + 1 := ⟨fuel - 1, by omega⟩
      rw [Legendre.findRoot, eval_dp', eval_ddp]
      simp only [Res.bind_ok]
      rw [if_neg hdd, ← hx1, if_pos hε]
  · refine ⟨ρ, r, k + 1, hroot, by linarith, h1, by linarith, h3, fun fuel hf => ?_⟩
    obtain ⟨m, rfl⟩ : ∃ m, fuel = m + 1 := ⟨fuel - 1, by omega⟩
    rw [Legendre.findRoot, eval_dp', eval_ddp]
    simp only [Res.bind_ok]
    rw [if_neg hdd, ← hx1, if_neg hε]
    exact h4 m (by omega)

/-- The iterations from all starts of `LegendreDerivRoots`. -/
theorem all_deriv_found (n : Nat) : ∃ ρ r : Nat → ℝ,
    (∀ i < (n - 1) / 2, dp n (ρ i) = 0 ∧ 0 < ρ i ∧ ρ i ≤ r i ∧ r i - ρ i < 1 / 10 ^ 15) ∧
    (∀ i j, i < j → j < (n - 1) / 2 → r j < ρ i) ∧
    ∃ k, ∀ fuel, k < fuel → ∀ i < n - 1, Legendre.findRoot (n : Int) 1 fuel (ga n i) = .ok (some (mirror (n - 1) r i)) := by
  obtain ⟨z, hz, hall⟩ := zeros n
  have hr : ∀ i, ∃ (ρ r : ℝ) (k : Nat), i < (n - 1) / 2 → dp n ρ = 0 ∧ ga n i < ρ ∧ ρ ≤ r ∧ r < cos (z i) ∧ r - ρ < 1 / 10 ^ 15 ∧
      ∀ fuel, k < fuel → Legendre.findRoot (n : Int) 1 fuel (ga n i) = .ok (some r) := by
    intro i
    by_cases hi : i < (n - 1) / 2
    · obtain ⟨ρ, r, k, h⟩ := found z hz hall (i := i) (by omega)
      exact ⟨ρ, r, k, fun _ => h⟩
    · exact ⟨0, 0, 0, fun h => absurd h hi⟩
  choose ρ r k hrk using hr
  have hcosg : ∀ i, 2 * i + 3 ≤ n → 0 ≤ cos (g n (i + 1)) ∧ cos (g n (i + 1)) < ga n i := by
    intro i hi
    have h1 := gm_half hi
    have hg1 : g n (i + 1) = gm n i + π / (n + 1 / 2) / 2 := by rw [g_succ, gm_eq]; ring
    have hlt : cos (g n (i + 1)) < cos (g n i) := cos_lt_cos_of_nonneg_of_le_pi (g_pos n i).le (by linarith [pi_pos])
      (g_lt (Nat.lt_succ_self i))
    refine ⟨cos_nonneg_of_mem_Icc ⟨by linarith [g_pos n (i + 1), pi_pos], by linarith⟩, ?_⟩
    rw [ga]
    linarith
  refine ⟨ρ, r, fun i hi => ⟨(hrk i hi).1, ?_, (hrk i hi).2.2.1, (hrk i hi).2.2.2.2.1⟩, ?_, ?_⟩
  · have := hcosg i (by omega)
    linarith [(hrk i hi).2.1]
  · intro i j hij hj
    have hi : i < (n - 1) / 2 := by omega
    have h1 := hcosg i (by omega)
    have h2 := (hrk i hi).2.1
    have h3 := (hrk j hj).2.2.2.1
    have h4 := hz j (by omega)
    have h5 : g n (i + 1) ≤ g n j := g_le (by omega)
    have h6 : cos (z j) < cos (g n (i + 1)) := cos_lt_cos_of_nonneg_of_le_pi (g_pos n (i + 1)).le (by linarith [pi_pos]) (by linarith)
    linarith
  · refine ⟨(Finset.range ((n - 1) / 2)).sup k, fun fuel hf i hi => ?_⟩
    have hfuel : ∀ j < (n - 1) / 2, k j < fuel := fun j hj =>
      (Finset.le_sup (f := k) (Finset.mem_range.2 hj)).trans_lt hf
    rw [mirror]
    by_cases ci : i < (n - 1) / 2
    · rw [if_pos ci]
      exact (hrk i ci).2.2.2.2.2 fuel (hfuel i ci)
    · rw [if_neg ci]
      by_cases di : n - 1 ≤ i + (n - 1) / 2
      · rw [if_pos di]
        have hj : n - 1 - 1 - i < (n - 1) / 2 := by omega
        have := findRoot_neg n 1 (eval_dp' n) (eval_ddp n) (s := -(-1) ^ n) (neg_ne_zero.2 (pow_ne_zero _ (by norm_num)))
          (fun y => dp_neg n y) (fun y => by rw [ddp_neg]; ring) fuel _ _ ((hrk _ hj).2.2.2.2.2 fuel (hfuel _ hj))
        rw [← this, show n - 1 - 1 - i = n - 2 - i by omega, ga_mirror (by omega), neg_neg]
      · rw [if_neg di]
        have hn : Even n := by
          rcases Nat.even_or_odd n with h | h
          · exact h
          · obtain ⟨m, rfl⟩ := h
            omega
        have hgi : ga n i = 0 := by
          have := ga_mirror (n := n) (i := i) (by omega)
          have h2 : n - 2 - i = i := by
            obtain ⟨m, rfl⟩ := hn
            omega
          rw [h2] at this
          linarith
        obtain ⟨m, rfl⟩ : ∃ m, fuel = m + 1 := ⟨fuel - 1, by omega⟩
        have hdd : ddp n 0 ≠ 0 := by
          have := ode_eval n 0
          have hn1 : (0 : ℝ) < n := by exact_mod_cast (by omega : 0 < n)
          intro h0
          rw [h0] at this
          have h5 : (n : ℝ) * (n + 1) * p n 0 = 0 := by linarith
          exact p_zero_ne hn ((mul_eq_zero.1 h5).resolve_left (by positivity))
        rw [hgi, Legendre.findRoot, eval_dp', eval_ddp]
        simp only [Res.bind_ok]
        rw [if_neg hdd, (middle_even hn).2.2]
        simp

end LegendreZeros

open LegendreZeros Real in
/-- `LegendreDerivRoots(n)`, with cosines in exact arithmetic: every Newton iteration ends, and the result has `n - 1` increasing
entries, each within the tolerance `1e-15` of another root of the derivative of the Legendre polynomial. -/
theorem C115_deriv_roots (n : Nat) (hn : 1 ≤ n) : ∃ l e : List ℝ,
    e.length = n - 1 ∧ e.Pairwise (· < ·) ∧ (∀ x ∈ e, (Polynomial.derivative (LegendrePoly.P ℝ n)).eval x = 0) ∧
    l.length = n - 1 ∧ l.Pairwise (· < ·) ∧ (∀ i (h1 : i < l.length) (h2 : i < e.length), |l[i] - e[i]| < 1 / 10 ^ 15) ∧
    ∃ k, ∀ fuel, k < fuel →
      Legendre.derivRoots fuel (fun i => cos (π * (4 * i - 1) / (4 * n + 2))) n = .ok (some l) := by
  obtain ⟨ρ, r, h1, h2, k, hk⟩ := all_deriv_found n
  have hra : ∀ i j, i < j → j < n - 1 → mirror (n - 1) r j < mirror (n - 1) r i := fun i j => mirror_anti
    (fun i j hij hj => (h2 i j hij hj).trans_le (h1 i (by omega)).2.2.1) (fun i hi => (h1 i hi).2.1.trans_le (h1 i hi).2.2.1)
  have hea : ∀ i j, i < j → j < n - 1 → mirror (n - 1) ρ j < mirror (n - 1) ρ i := fun i j => mirror_anti
    (fun i j hij hj => (h1 j hj).2.2.1.trans_lt (h2 i j hij hj)) (fun i hi => (h1 i hi).2.1)
  have hdec : ∀ a : Nat → ℝ, (∀ i j, i < j → j < n - 1 → a j < a i) → (((List.range (n - 1)).map a).reverse).Pairwise (· < ·) := by
    intro a ha
    rw [List.pairwise_reverse, List.pairwise_map]
    refine List.pairwise_lt_range.imp_of_mem ?_
    intro i j hi hj hij
    exact ha i j hij (List.mem_range.1 hj)
  refine ⟨((List.range (n - 1)).map (mirror (n - 1) r)).reverse, ((List.range (n - 1)).map (mirror (n - 1) ρ)).reverse, by simp,
    hdec _ hea, ?_, by simp, hdec _ hra, ?_, k, fun fuel hf => ?_⟩
  · intro x hx
    simp only [List.mem_reverse, List.mem_map, List.mem_range] at hx
    obtain ⟨i, hi, rfl⟩ := hx
    show dp n _ = 0
    rw [mirror]
    by_cases ci : i < (n - 1) / 2
    · rw [if_pos ci]
      exact (h1 i ci).1
    · rw [if_neg ci]
      by_cases di : n - 1 ≤ i + (n - 1) / 2
      · rw [if_pos di, dp_neg, (h1 _ (by omega)).1, mul_zero]
      · rw [if_neg di]
        refine (middle_even ?_).2.2
        rcases Nat.even_or_odd n with h | h
        · exact h
        · obtain ⟨m, rfl⟩ := h
          omega
  · intro i hl he
    simp only [List.length_reverse, List.length_map, List.length_range] at hl
    simp only [List.getElem_reverse, List.getElem_map, List.getElem_range, List.length_map, List.length_range]
    exact mirror_abs (by positivity) (fun j hj => by
      have := h1 j hj
      rw [abs_of_nonneg (by linarith)]
      exact this.2.2.2) (by omega)
  · rw [Legendre.derivRoots, Legendre.firstGuess, if_neg (by omega), Res.bind_ok, if_neg (by omega), Legendre.findRoots]
    rw [mapM_map_ok _ _ (mirror (n - 1) r), Res.bind_ok]
    · rw [if_pos (by simp)]
      have hfm : ((List.range (n - 1)).map fun i => some (mirror (n - 1) r i)).filterMap id =
          (List.range (n - 1)).map (mirror (n - 1) r) := by
        rw [List.filterMap_map]
        exact congrFun (List.filterMap_eq_map (f := mirror (n - 1) r)) _
      rw [Int.toNat_natCast, hfm, sort_eq _ _ (List.reverse_perm _).symm (hdec _ hra)]
      rfl
    · intro i hi
      rw [Int.toNat_natCast, List.mem_range] at hi
      have hcos : ∀ j < n, ((List.range (n : Int).toNat).map fun (i : Nat) =>
          cos (π * (4 * ((i + 1 : Nat) : ℝ) - 1) / (4 * n + 2))).getD j 0 = cos (g n j) := by
        intro j hj
        rw [Int.toNat_natCast, List.getD_eq_getElem _ _ (by simpa using hj), List.getElem_map, List.getElem_range, g]
        congr 1
        have : (n : ℝ) + 1 / 2 ≠ 0 := by positivity
        have : 4 * (n : ℝ) + 2 ≠ 0 := by positivity
        push_cast
        field_simp
        ring
      rw [hcos i (by omega), hcos (i + 1) (by omega)]
      exact hk fuel hf i hi

/-- Three inner points of the Lobatto rule with five points: the middle one is found at once. -/
example : ∃ l : List ℝ, l.length = 3 ∧ ∃ k, ∀ fuel, k < fuel →
    Legendre.derivRoots fuel (fun i => Real.cos (Real.pi * (4 * i - 1) / (4 * (4 : Nat) + 2))) 4 = .ok (some l) := by
  obtain ⟨l, e, -, -, -, h, -, -, k, hk⟩ := C115_deriv_roots 4 (by norm_num)
  exact ⟨l, h, k, fun fuel hf => by simpa using hk fuel hf⟩

end NuTo
