/-
Where the zeros of the Legendre polynomials are: the points at which `FirstGuess` starts separate them.
-/
import Verif.Lemmas.Sturm
import Verif.Props.QuadraturePoints
import Mathlib.Analysis.SpecialFunctions.Sqrt
import Mathlib.Analysis.Real.Pi.Bounds

namespace NuTo

namespace LegendreZeros

open Real Set Sturm LegendrePoly

variable {n : Nat}

/-- value, first and second derivative -/
noncomputable def p (n : Nat) (x : ℝ) : ℝ := (P ℝ n).eval x
noncomputable def dp (n : Nat) (x : ℝ) : ℝ := (Polynomial.derivative (P ℝ n)).eval x
noncomputable def ddp (n : Nat) (x : ℝ) : ℝ := (Polynomial.derivative (Polynomial.derivative (P ℝ n))).eval x

theorem hasDerivAt_p (n : Nat) (x : ℝ) : HasDerivAt (p n) (dp n x) x := (P ℝ n).hasDerivAt x
theorem hasDerivAt_dp (n : Nat) (x : ℝ) : HasDerivAt (dp n) (ddp n x) x := (Polynomial.derivative (P ℝ n)).hasDerivAt x

theorem ode_eval (n : Nat) (x : ℝ) : (1 - x ^ 2) * ddp n x - 2 * x * dp n x + (n : ℝ) * (n + 1) * p n x = 0 := by
  have := congrArg (Polynomial.eval x) (LegendrePoly.ode (K := ℝ) n)
  simpa [p, dp, ddp] using this

/-- parity -/
theorem p_neg (n : Nat) (x : ℝ) : p n (-x) = (-1) ^ n * p n x ∧ p (n + 1) (-x) = (-1) ^ (n + 1) * p (n + 1) x := by
  induction n with
  | zero => simp [p, P_zero', P_one']
  | succ n ih =>
    refine ⟨ih.2, ?_⟩
    have hr := recursion (K := ℝ) n 0
    simp only [Function.iterate_zero, id] at hr
    have h1 := congrArg (Polynomial.eval x) hr
    have h2 := congrArg (Polynomial.eval (-x)) hr
    simp only [Polynomial.eval_mul, Polynomial.eval_sub, Polynomial.eval_C, Polynomial.eval_X, Nat.cast_zero, sub_zero,
      add_zero] at h1 h2
    have e1 := ih.1
    have e2 := ih.2
    simp only [p] at e1 e2 ⊢
    rw [e1, e2] at h2
    have hn : ((n : ℝ) + 2) ≠ 0 := by positivity
    have h3 : ((n : ℝ) + 2) * Polynomial.eval (-x) (P ℝ (n + 1 + 1)) =
        ((n : ℝ) + 2) * ((-1) ^ (n + 1 + 1) * Polynomial.eval x (P ℝ (n + 1 + 1))) := by
      rw [show n + 1 + 1 = n + 2 from rfl]
      rw [h2]
      linear_combination (-1) ^ (n + 2) * (-h1)
    exact mul_left_cancel₀ hn h3

theorem dp_neg (n : Nat) (x : ℝ) : dp n (-x) = -(-1) ^ n * dp n x := by
  have h1 : HasDerivAt (fun x => p n (-x)) (dp n (-x) * -1) x :=
    HasDerivAt.comp x (hasDerivAt_p n (-x)) (hasDerivAt_neg x)
  have h2 : HasDerivAt (fun x => p n (-x)) ((-1) ^ n * dp n x) x := by
    have := (hasDerivAt_p n x).const_mul ((-1 : ℝ) ^ n)
    exact this.congr_of_eventuallyEq (Filter.Eventually.of_forall fun y => (p_neg n y).1)
  have := h1.unique h2
  linarith

/-- the function of the angle -/
noncomputable def w (n : Nat) (t : ℝ) : ℝ := √(sin t) * p n (cos t)
noncomputable def dw (n : Nat) (t : ℝ) : ℝ := √(sin t) * (cos t / (2 * sin t) * p n (cos t) - sin t * dp n (cos t))

theorem osc (n : Nat) : Osc (n + 1 / 2) (w n) (dw n) where
  deriv t ht := by
    have h0 := sin_pos_of_mem_Ioo ht
    have hR : HasDerivAt (fun t => √(sin t)) (√(sin t) * (cos t / (2 * sin t))) t := by
      refine ((hasDerivAt_sin t).sqrt h0.ne').congr_deriv ?_
      have : √(sin t) * √(sin t) = sin t := mul_self_sqrt h0.le
      have h1 : √(sin t) ≠ 0 := (sqrt_pos.2 h0).ne'
      field_simp
      linear_combination -cos t * this
    have hp : HasDerivAt (fun t => p n (cos t)) (dp n (cos t) * -sin t) t := (hasDerivAt_p n (cos t)).comp t (hasDerivAt_cos t)
    refine (hR.mul hp).congr_deriv ?_
    rw [dw]
    ring
  second t ht := by
    have h0 := sin_pos_of_mem_Ioo ht
    have hR : HasDerivAt (fun t => √(sin t)) (√(sin t) * (cos t / (2 * sin t))) t := by
      refine ((hasDerivAt_sin t).sqrt h0.ne').congr_deriv ?_
      have : √(sin t) * √(sin t) = sin t := mul_self_sqrt h0.le
      have h1 : √(sin t) ≠ 0 := (sqrt_pos.2 h0).ne'
      field_simp
      linear_combination -cos t * this
    have hp : HasDerivAt (fun t => p n (cos t)) (dp n (cos t) * -sin t) t := (hasDerivAt_p n (cos t)).comp t (hasDerivAt_cos t)
    have hdp : HasDerivAt (fun t => dp n (cos t)) (ddp n (cos t) * -sin t) t := (hasDerivAt_dp n (cos t)).comp t (hasDerivAt_cos t)
    have hq : HasDerivAt (fun t => cos t / (2 * sin t)) (-(1 / (2 * sin t ^ 2))) t := by
      refine ((hasDerivAt_cos t).div ((hasDerivAt_sin t).const_mul 2) (by positivity)).congr_deriv ?_
      have := sin_sq_add_cos_sq t
      field_simp
      linear_combination -this
    refine (hR.mul ((hq.mul hp).sub ((hasDerivAt_sin t).mul hdp))).congr_deriv ?_
    have ho := ode_eval n (cos t)
    have hs := sin_sq_add_cos_sq t
    have hs' : 1 - cos t ^ 2 = sin t ^ 2 := by linarith
    rw [hs'] at ho
    simp only [w, Pi.mul_apply, Pi.sub_apply]
    have e : sin t ^ 2 * ddp n (cos t) = 2 * cos t * dp n (cos t) - (n : ℝ) * (n + 1) * p n (cos t) := by linarith
    have h1 : sin t ≠ 0 := h0.ne'
    have : √(sin t) * (cos t / (2 * sin t)) * (cos t / (2 * sin t) * p n (cos t) - sin t * dp n (cos t)) +
      √(sin t) * (-(1 / (2 * sin t ^ 2)) * p n (cos t) + cos t / (2 * sin t) * (dp n (cos t) * -sin t) -
        (cos t * dp n (cos t) + sin t * (ddp n (cos t) * -sin t))) =
      √(sin t) * (cos t ^ 2 / (4 * sin t ^ 2) * p n (cos t) - 1 / (2 * sin t ^ 2) * p n (cos t) - 2 * cos t * dp n (cos t) +
        sin t ^ 2 * ddp n (cos t)) := by
      field_simp
      ring
    rw [this, e]
    have hc : cos t ^ 2 = 1 - sin t ^ 2 := by linarith
    rw [hc]
    field_simp
    ring

theorem w_zero {t : ℝ} (ht : t ∈ Ioo 0 π) : w n t = 0 ↔ p n (cos t) = 0 := by
  have := sqrt_pos.2 (sin_pos_of_mem_Ioo ht)
  simp [w, this.ne']

/-- the middle: one of value and derivative vanishes -/
theorem middle_even (h : Even n) : w n (π / 2) = p n 0 ∧ dw n (π / 2) = 0 ∧ dp n 0 = 0 := by
  have h1 := dp_neg n 0
  rw [neg_zero, h.neg_one_pow] at h1
  have h2 : dp n 0 = 0 := by linarith
  simp [w, dw, h2]

theorem middle_odd (h : Odd n) : w n (π / 2) = 0 ∧ dw n (π / 2) = -dp n 0 ∧ p n 0 = 0 := by
  have h1 := (p_neg n 0).1
  rw [neg_zero, h.neg_one_pow] at h1
  have h2 : p n 0 = 0 := by linarith
  simp [w, dw, h2]

/-- the amplitude in the middle -/
noncomputable def amp (n : Nat) : ℝ := if Even n then |p n 0| else |dp n 0| / (n + 1 / 2)

theorem amp_bound {t : ℝ} (ht : 0 < t) (ht2 : t ≤ π / 2) : |w n t| ≤ amp n := by
  have hN : (0 : ℝ) < n + 1 / 2 := by positivity
  have := (osc n).amplitude hN ht ht2
  rw [amp]
  split_ifs with he
  · obtain ⟨h1, h2, _⟩ := middle_even he
    rw [h1, h2] at this
    refine sq_le_sq.1 ?_
    simpa using this
  · obtain ⟨h1, h2, _⟩ := middle_odd (Nat.not_even_iff_odd.1 he)
    rw [h1, h2] at this
    refine abs_le_of_sq_le_sq ?_ (by positivity) |>.trans (le_refl _)
    rw [div_pow, sq_abs]
    refine this.trans ?_
    rw [zero_pow two_ne_zero, zero_add, neg_sq]
    exact div_le_div_of_nonneg_left (sq_nonneg _) (by positivity) (by linarith)

theorem amp_pos : 0 < amp n := by
  have h0 : 0 ≤ amp n := by
    rw [amp]
    split_ifs <;> positivity
  refine lt_of_le_of_ne h0 fun h => P_ne_zero n ?_
  refine Polynomial.eq_zero_of_infinite_isRoot _ (Set.Infinite.mono (s := Ioo (0 : ℝ) 1) ?_ (Ioo_infinite one_pos))
  intro x hx
  have hx1 : 0 < arccos x := arccos_pos.2 hx.2
  have hx2 : arccos x ≤ π / 2 := arccos_le_pi_div_two.2 hx.1.le
  have h1 := amp_bound (n := n) hx1 hx2
  rw [← h] at h1
  have h2 : w n (arccos x) = 0 := abs_nonpos_iff.1 h1
  rw [w_zero ⟨hx1, by linarith [pi_pos]⟩, cos_arccos (by linarith [hx.1]) hx.2.le] at h2
  exact h2

/-- the angles of `FirstGuess`, counted from zero -/
noncomputable def g (n i : Nat) : ℝ := (i + 3 / 4) * (π / (n + 1 / 2))

theorem g_succ (n i : Nat) : g n (i + 1) = g n i + π / (n + 1 / 2) := by
  simp only [g]
  push_cast
  ring

theorem step_pos (n : Nat) : 0 < π / ((n : ℝ) + 1 / 2) := by
  have := pi_pos
  positivity

theorem g_pos (n i : Nat) : 0 < g n i := by
  have := step_pos n
  rw [g]
  positivity

theorem g_lt {i j : Nat} (h : i < j) : g n i < g n j := by
  rw [g, g]
  refine mul_lt_mul_of_pos_right ?_ (step_pos n)
  have : (i : ℝ) < j := by exact_mod_cast h
  linarith

theorem g_le {i j : Nat} (h : i ≤ j) : g n i ≤ g n j := by
  rcases h.lt_or_eq with h | rfl
  · exact (g_lt h).le
  · exact le_refl _

theorem half_pi (n : Nat) : π / 2 = (n / 2 + 1 / 4) * (π / ((n : ℝ) + 1 / 2)) := by
  have : ((n : ℝ) + 1 / 2) ≠ 0 := by positivity
  field_simp
  ring

theorem g_half {i : Nat} (h : i < n / 2) : g n i + π / (n + 1 / 2) / 2 ≤ π / 2 := by
  rw [half_pi n, g, ← sub_nonneg]
  have h1 : (i : ℝ) + 1 ≤ n / 2 := by
    have : 2 * (i + 1) ≤ n := by omega
    have : (2 * ((i : ℝ) + 1)) ≤ n := by exact_mod_cast this
    linarith
  have h2 := step_pos n
  have : (n / 2 + 1 / 4 - (i + 3 / 4) - 1 / 2 : ℝ) * (π / ((n : ℝ) + 1 / 2)) ≥ 0 := mul_nonneg (by linarith) h2.le
  linarith

theorem p_zero_ne (h : Even n) : p n 0 ≠ 0 := by
  have := amp_pos (n := n)
  rw [amp, if_pos h] at this
  exact abs_pos.1 this

theorem dp_zero_ne (h : Odd n) : dp n 0 ≠ 0 := by
  have := amp_pos (n := n)
  rw [amp, if_neg (Nat.not_even_iff_odd.2 h)] at this
  intro h0
  rw [h0] at this
  simp at this

theorem w_reflect {t : ℝ} (ht : t ∈ Ioo 0 π) (h : w n t = 0) : w n (π - t) = 0 := by
  have ht' : π - t ∈ Ioo 0 π := ⟨by linarith [ht.2], by linarith [ht.1]⟩
  rw [w_zero ht] at h
  rw [w_zero ht', cos_pi_sub, (p_neg n _).1, h, mul_zero]

/-- one zero behind each start -/
theorem exists_zero {i : Nat} (h : i < n / 2) : ∃ z, g n i < z ∧ z < g n (i + 1) ∧ z < π / 2 ∧ p n (cos z) = 0 := by
  have hs := step_pos n
  have hN : (0 : ℝ) < n + 1 / 2 := by positivity
  have hh := g_half h
  have hlt : π / ((n : ℝ) + 1 / 2) < π := div_lt_self pi_pos (by
    have : (1 : ℝ) ≤ n := by exact_mod_cast (by omega : 1 ≤ n)
    linarith)
  obtain ⟨z, hz, h0⟩ := (osc n).zero hN (g_pos n i) (by linarith)
  have hzp : z ∈ Ioo 0 π := ⟨by linarith [hz.1, g_pos n i], by linarith [hz.2, pi_pos]⟩
  rw [← g_succ] at hz
  rcases lt_trichotomy z (π / 2) with hlt | heq | hgt
  · exact ⟨z, hz.1, hz.2, hlt, (w_zero hzp).1 h0⟩
  all_goals
    have hgi : π / 2 < g n (i + 1) := by linarith [hz.2]
    have hi : i + 1 = n / 2 ∧ Even n := by
      rw [half_pi n, g] at hgi
      have := lt_of_mul_lt_mul_right hgi hs.le
      push_cast at this
      have h1 : (n : ℝ) < 2 * i + 3 := by linarith
      have h2 : n < 2 * i + 3 := by exact_mod_cast h1
      refine ⟨by omega, ?_⟩
      rw [Nat.even_iff]
      omega
  · exfalso
    have := (w_zero hzp).1 h0
    rw [heq, cos_pi_div_two] at this
    exact p_zero_ne hi.2 this
  · obtain ⟨m, hm⟩ := hi.2
    have hsum : g n (i + 1) = π - g n i := by
      have e : (i : ℝ) + 1 = n / 2 := by
        have : 2 * (i + 1) = n := by omega
        have : (2 * ((i : ℝ) + 1)) = n := by exact_mod_cast this
        linarith
      have e2 := half_pi n
      rw [g_succ]
      have : g n i = (n / 2 - 1 / 4) * (π / ((n : ℝ) + 1 / 2)) := by
        rw [g]
        congr 1
        linarith
      rw [this]
      linarith
    exact ⟨π - z, by linarith [hz.2], by linarith [g_pos n i, hz.1], by linarith,
      (w_zero ⟨by linarith [hzp.2], by linarith [hzp.1]⟩).1 (w_reflect hzp h0)⟩

/-- the zeros in the first quadrant, one behind each start and no others -/
theorem zeros (n : Nat) : ∃ z : Nat → ℝ, (∀ i < n / 2, g n i < z i ∧ z i < g n (i + 1) ∧ z i < π / 2 ∧ p n (cos (z i)) = 0) ∧
    ∀ t, 0 < t → t < π / 2 → p n (cos t) = 0 → ∃ i < n / 2, t = z i := by
  have hz' : ∀ i, ∃ z, i < n / 2 → g n i < z ∧ z < g n (i + 1) ∧ z < π / 2 ∧ p n (cos z) = 0 := by
    intro i
    by_cases h : i < n / 2
    · obtain ⟨z, hz⟩ := exists_zero h
      exact ⟨z, fun _ => hz⟩
    · exact ⟨0, fun h' => absurd h' h⟩
  choose z hz using hz'
  refine ⟨z, hz, fun t h0 h1 hp => ?_⟩
  classical
  obtain ⟨S, hS⟩ : ∃ S, S = (P ℝ n).roots.toFinset := ⟨_, rfl⟩
  have hmem : ∀ x, x ∈ S ↔ p n x = 0 := by
    intro x
    rw [hS, Multiset.mem_toFinset, Polynomial.mem_roots (P_ne_zero n)]
    exact Iff.rfl
  have hcard : S.card ≤ n := by
    have h2 := Multiset.toFinset_card_le (P ℝ n).roots
    have h3 := Polynomial.card_roots' (P ℝ n)
    rw [natDegree_P] at h3
    rw [hS]
    omega
  obtain ⟨Q, hQ⟩ : ∃ Q, Q = S.filter (0 < ·) := ⟨_, rfl⟩
  have hQm : ∀ x, x ∈ Q ↔ p n x = 0 ∧ 0 < x := fun x => by rw [hQ, Finset.mem_filter, hmem]
  obtain ⟨M, hM⟩ : ∃ M, M = Q.image (fun x => -x) := ⟨_, rfl⟩
  have hMm : ∀ x ∈ M, p n x = 0 ∧ x < 0 := by
    intro x hx
    rw [hM, Finset.mem_image] at hx
    obtain ⟨y, hy, rfl⟩ := hx
    obtain ⟨y1, y2⟩ := (hQm y).1 hy
    exact ⟨by rw [(p_neg n y).1, y1, mul_zero], by linarith⟩
  have hMc : M.card = Q.card := by
    rw [hM]
    exact Finset.card_image_of_injective _ neg_injective
  have hdis : Disjoint Q M := Finset.disjoint_left.2 fun x h1 h2 => by
    linarith [((hQm x).1 h1).2, (hMm x h2).2]
  have hQc : Q.card ≤ n / 2 := by
    by_cases he : Even n
    · have hsub : Q ∪ M ⊆ S := by
        intro x hx
        rw [hmem]
        rcases Finset.mem_union.1 hx with h | h
        · exact ((hQm x).1 h).1
        · exact (hMm x h).1
      have := Finset.card_le_card hsub
      rw [Finset.card_union_of_disjoint hdis] at this
      omega
    · have ho := Nat.not_even_iff_odd.1 he
      have h00 : (0 : ℝ) ∉ Q ∪ M := by
        intro h
        rcases Finset.mem_union.1 h with h | h
        · exact lt_irrefl _ ((hQm 0).1 h).2
        · exact lt_irrefl _ (hMm 0 h).2
      have hsub : insert 0 (Q ∪ M) ⊆ S := by
        intro x hx
        rw [hmem]
        rcases Finset.mem_insert.1 hx with rfl | hx
        · exact (middle_odd ho).2.2
        rcases Finset.mem_union.1 hx with h | h
        · exact ((hQm x).1 h).1
        · exact (hMm x h).1
      have := Finset.card_le_card hsub
      rw [Finset.card_insert_of_notMem h00, Finset.card_union_of_disjoint hdis] at this
      omega
  have hzpos : ∀ i < n / 2, 0 < z i ∧ z i < π / 2 := fun i hi =>
    ⟨lt_trans (g_pos n i) (hz i hi).1, (hz i hi).2.2.1⟩
  have hzlt : ∀ i j, i < j → j < n / 2 → z i < z j := fun i j hij hj =>
    lt_trans (hz i (by omega)).2.1 (lt_of_le_of_lt (g_le hij) (hz j hj).1)
  have hinj : Set.InjOn (fun i => cos (z i)) (Finset.range (n / 2)) := by
    intro i hi j hj hij
    rw [Finset.coe_range, Set.mem_Iio] at hi hj
    have := injOn_cos ⟨(hzpos i hi).1.le, by linarith [(hzpos i hi).2, pi_pos]⟩
      ⟨(hzpos j hj).1.le, by linarith [(hzpos j hj).2, pi_pos]⟩ hij
    rcases lt_trichotomy i j with h | h | h
    · exact absurd this (hzlt i j h hj).ne
    · exact h
    · exact absurd this (hzlt j i h hi).ne'
  have hZQ : (Finset.range (n / 2)).image (fun i => cos (z i)) = Q := by
    refine Finset.eq_of_subset_of_card_le (fun x hx => ?_) ?_
    · obtain ⟨i, hi, rfl⟩ := Finset.mem_image.1 hx
      have hi := Finset.mem_range.1 hi
      exact (hQm _).2 ⟨(hz i hi).2.2.2, cos_pos_of_mem_Ioo ⟨by linarith [(hzpos i hi).1, pi_pos], (hzpos i hi).2⟩⟩
    · rw [Finset.card_image_of_injOn hinj, Finset.card_range]
      exact hQc
  have htQ : cos t ∈ Q := (hQm _).2 ⟨hp, cos_pos_of_mem_Ioo ⟨by linarith [pi_pos], h1⟩⟩
  rw [← hZQ] at htQ
  obtain ⟨i, hi, he⟩ := Finset.mem_image.1 htQ
  have hi := Finset.mem_range.1 hi
  exact ⟨i, hi, (injOn_cos ⟨(hzpos i hi).1.le, by linarith [(hzpos i hi).2, pi_pos]⟩
      ⟨h0.le, by linarith [pi_pos]⟩ he).symm⟩

/-- no zero shortly before a start -/
theorem no_zero (i : Nat) : i < n / 2 → ∀ t, g n i - 3 / 4 * (π / (n + 1 / 2)) < t → t ≤ g n i → p n (cos t) ≠ 0 := by
  obtain ⟨z, hz, hall⟩ := zeros n
  have hs := step_pos n
  have huniq : ∀ i j, j < n / 2 → g n i < z j → z j ≤ g n (i + 1) → j = i := by
    intro i j hj h1 h2
    rcases lt_trichotomy j i with h | h | h
    · linarith [(hz j hj).2.1, g_le (n := n) (show j + 1 ≤ i from h)]
    · exact h
    · linarith [(hz j hj).1, g_le (n := n) (show i + 1 ≤ j from h)]
  induction i with
  | zero =>
    intro hi t h1 h2 h0
    have ht : 0 < t := by
      have : g n 0 - 3 / 4 * (π / (n + 1 / 2)) = 0 := by simp [g]
      linarith
    obtain ⟨j, hj, rfl⟩ := hall t ht (by linarith [g_half hi]) h0
    linarith [(hz j hj).1, g_le (n := n) (Nat.zero_le j)]
  | succ i ih =>
    intro hi t h1 h2 h0
    have hi' : i < n / 2 := by omega
    have hN : (0 : ℝ) < n + 1 / 2 := by positivity
    rw [g_succ] at h1
    have hg : 0 ≤ g n i - 3 / 4 * (π / (n + 1 / 2)) := by
      have := g_le (n := n) (Nat.zero_le i)
      have : g n 0 - 3 / 4 * (π / (n + 1 / 2)) = 0 := by simp [g]
      linarith
    have ht2 : t < π / 2 := by linarith [g_half hi]
    have ha : 0 < t - π / (n + 1 / 2) := by linarith
    obtain ⟨s, hs1, hs2⟩ := (osc n).zero hN ha (by linarith [pi_pos])
    rw [sub_add_cancel] at hs1
    have hs3 : s ∈ Ioo 0 π := ⟨by linarith [hs1.1], by linarith [hs1.2, pi_pos]⟩
    have hs4 := (w_zero hs3).1 hs2
    by_cases hle : s ≤ g n i
    · exact ih hi' s (by linarith [hs1.1]) hle hs4
    · push Not at hle
      obtain ⟨j, hj, e1⟩ := hall t (by linarith) ht2 h0
      obtain ⟨k, hk, e2⟩ := hall s hs3.1 (by linarith [hs1.2]) hs4
      have := huniq i j hj (by linarith) (by linarith)
      have h' := huniq i k hk (by linarith [hs1.2]) (by linarith [hs1.2])
      rw [this] at e1
      rw [h'] at e2
      linarith [hs1.2]

theorem cot_bound {i : Nat} (h : i < n / 2) : cos (g n i) / sin (g n i) / 4 ≤ ((n : ℝ) + 1 / 2) / 9 := by
  have hg := g_pos n i
  have hh := g_half h
  have hs := step_pos n
  have hN : (0 : ℝ) < n + 1 / 2 := by positivity
  have hsin : 0 < sin (g n i) := sin_pos_of_mem_Ioo ⟨hg, by linarith [pi_pos]⟩
  have hcos : 0 < cos (g n i) := cos_pos_of_mem_Ioo ⟨by linarith [pi_pos], by linarith⟩
  have htan := lt_tan hg (by linarith)
  rw [tan_eq_sin_div_cos, lt_div_iff₀ hcos] at htan
  have hge : 9 / 4 / ((n : ℝ) + 1 / 2) ≤ g n i := by
    rw [g, div_le_iff₀ hN, mul_assoc, div_mul_cancel₀ _ hN.ne']
    have h1 : (0 : ℝ) ≤ i := Nat.cast_nonneg i
    nlinarith [pi_gt_three]
  rw [div_div, div_le_iff₀ (by positivity)]
  have h1 : 9 / 4 / ((n : ℝ) + 1 / 2) * cos (g n i) ≤ sin (g n i) :=
    (mul_le_mul_of_nonneg_right hge hcos.le).trans htan.le
  rw [div_mul_eq_mul_div, div_le_iff₀ hN] at h1
  linarith

theorem phase (n i : Nat) : ((n : ℝ) + 1 / 2) * (π / 2 - g n i) = (n / 2 - i - 1 / 2) * π := by
  have hN : ((n : ℝ) + 1 / 2) ≠ 0 := by positivity
  rw [g]
  field_simp
  ring

theorem w_small {i : Nat} (h : i < n / 2) : ((n : ℝ) + 1 / 2) * |w n (g n i)| ≤ amp n * (cos (g n i) / sin (g n i) / 4) := by
  have hg := g_pos n i
  have hh := g_half h
  have hs := step_pos n
  have hN : (0 : ℝ) < n + 1 / 2 := by positivity
  have := change hg (by linarith) (fun t ht => (osc n).wsin (g n i) t ht) (U := amp n) (fun t ht => by
    have h1 := amp_bound (n := n) (lt_of_lt_of_le hg ht.1) ht.2
    have h2 := abs_sin_le_one (((n : ℝ) + 1 / 2) * (t - g n i))
    rw [abs_mul, abs_mul, abs_neg, abs_of_nonneg (by positivity : (0 : ℝ) ≤ 1 / (4 * sin t ^ 2))]
    have h3 : 0 ≤ 1 / (4 * sin t ^ 2) := by positivity
    have h4 := (amp_pos (n := n)).le
    calc _ ≤ 1 / (4 * sin t ^ 2) * amp n * 1 := by
          gcongr
      _ = _ := by ring)
  rw [phase] at this
  have hz : dw n (π / 2) * sin ((n / 2 - i - 1 / 2) * π) - w n (π / 2) * (((n : ℝ) + 1 / 2) * cos ((n / 2 - i - 1 / 2) * π)) = 0 := by
    rcases Nat.even_or_odd n with he | ho
    · rw [(middle_even he).2.1]
      obtain ⟨m, hm⟩ := he
      have : ((n : ℝ) / 2 - i - 1 / 2) * π = ((m : ℤ) - (i : ℤ) : ℤ) * π - π / 2 := by
        push_cast
        rw [hm]
        push_cast
        ring
      rw [this, cos_sub_pi_div_two, sin_int_mul_pi]
      ring
    · rw [(middle_odd ho).1]
      obtain ⟨m, hm⟩ := ho
      have : ((n : ℝ) / 2 - i - 1 / 2) * π = ((m : ℤ) - (i : ℤ) : ℤ) * π := by
        push_cast
        rw [hm]
        push_cast
        ring
      rw [this, sin_int_mul_pi]
      ring
  rw [hz, sub_self, mul_zero, sin_zero, cos_zero, mul_zero, mul_one, zero_sub, zero_sub, neg_neg, abs_mul,
    abs_of_pos hN] at this
  linarith

theorem dw_large {i : Nat} (h : i < n / 2) :
    amp n * (((n : ℝ) + 1 / 2) - cos (g n i) / sin (g n i) / 4) ≤ |dw n (g n i)| := by
  have hg := g_pos n i
  have hh := g_half h
  have hs := step_pos n
  have hN : (0 : ℝ) < n + 1 / 2 := by positivity
  have := change hg (by linarith) (fun t ht => (osc n).wcos (g n i) t ht) (U := amp n) (fun t ht => by
    have h1 := amp_bound (n := n) (lt_of_lt_of_le hg ht.1) ht.2
    have h2 := abs_cos_le_one (((n : ℝ) + 1 / 2) * (t - g n i))
    rw [abs_mul, abs_mul, abs_neg, abs_of_nonneg (by positivity : (0 : ℝ) ≤ 1 / (4 * sin t ^ 2))]
    have h3 : 0 ≤ 1 / (4 * sin t ^ 2) := by positivity
    have h4 := (amp_pos (n := n)).le
    calc _ ≤ 1 / (4 * sin t ^ 2) * amp n * 1 := by
          gcongr
      _ = _ := by ring)
  rw [phase] at this
  have hz : |dw n (π / 2) * cos ((n / 2 - i - 1 / 2) * π) - w n (π / 2) * (-((n : ℝ) + 1 / 2) * sin ((n / 2 - i - 1 / 2) * π))| =
      amp n * ((n : ℝ) + 1 / 2) := by
    rcases Nat.even_or_odd n with he | ho
    · obtain ⟨e1, e2, _⟩ := middle_even he
      rw [e1, e2, amp, if_pos he]
      obtain ⟨m, hm⟩ := he
      have : ((n : ℝ) / 2 - i - 1 / 2) * π = ((m : ℤ) - (i : ℤ) : ℤ) * π - π / 2 := by
        push_cast
        rw [hm]
        push_cast
        ring
      rw [this, sin_sub_pi_div_two, zero_mul, zero_sub, abs_neg, abs_mul, abs_mul, abs_neg, abs_neg, abs_cos_int_mul_pi,
        abs_of_pos hN, mul_one]
    · obtain ⟨e1, e2, _⟩ := middle_odd ho
      rw [e1, e2, amp, if_neg (Nat.not_even_iff_odd.2 ho)]
      obtain ⟨m, hm⟩ := ho
      have : ((n : ℝ) / 2 - i - 1 / 2) * π = ((m : ℤ) - (i : ℤ) : ℤ) * π := by
        push_cast
        rw [hm]
        push_cast
        ring
      rw [this, zero_mul, sub_zero, abs_mul, abs_neg, abs_cos_int_mul_pi, mul_one, div_mul_cancel₀ _ hN.ne']
  have h2 := abs_sub_abs_le_abs_sub (dw n (π / 2) * cos ((n / 2 - i - 1 / 2) * π) -
    w n (π / 2) * (-((n : ℝ) + 1 / 2) * sin ((n / 2 - i - 1 / 2) * π))) (dw n (g n i) * cos (((n : ℝ) + 1 / 2) * (g n i - g n i)) -
      w n (g n i) * (-((n : ℝ) + 1 / 2) * sin (((n : ℝ) + 1 / 2) * (g n i - g n i))))
  rw [hz] at h2
  have h3 : dw n (g n i) * cos (((n : ℝ) + 1 / 2) * (g n i - g n i)) -
      w n (g n i) * (-((n : ℝ) + 1 / 2) * sin (((n : ℝ) + 1 / 2) * (g n i - g n i))) = dw n (g n i) := by simp
  rw [h3] at h2 this
  linarith

/-- At the starts, value and derivative with respect to the angle have opposite signs. -/
theorem signs {i : Nat} (h : i < n / 2) : ∃ σ : ℝ, (σ = 1 ∨ σ = -1) ∧ 0 < σ * w n (g n i) ∧ σ * dw n (g n i) < 0 := by
  have hg := g_pos n i
  have hh := g_half h
  have hs := step_pos n
  have hN : (0 : ℝ) < n + 1 / 2 := by positivity
  have hgI : g n i ∈ Ioo 0 π := ⟨hg, by linarith [pi_pos]⟩
  have hw0 : w n (g n i) ≠ 0 := fun h0 => no_zero i h (g n i) (by linarith) le_rfl ((w_zero hgI).1 h0)
  have hκ := cot_bound h
  have hA := amp_pos (n := n)
  have key : ∀ σ : ℝ, (σ = 1 ∨ σ = -1) → 0 < σ * w n (g n i) → σ * dw n (g n i) < 0 := by
    intro σ hσ hpos
    by_contra hle
    push Not at hle
    obtain ⟨b, hb⟩ : ∃ b, b = g n i - π / (n + 1 / 2) / 2 := ⟨_, rfl⟩
    have hb0 : 0 < b := by
      have h1 := g_le (n := n) (Nat.zero_le i)
      have h2 : g n 0 - 3 / 4 * (π / (n + 1 / 2)) = 0 := by simp [g]
      linarith
    have hσ2 : |σ| = 1 := by rcases hσ with rfl | rfl <;> simp
    have hdt : ∀ t ∈ Icc b (g n i), t ∈ Ioo 0 π := fun t ht => ⟨by linarith [ht.1], by linarith [ht.2, hgI.2]⟩
    have hne : ∀ t ∈ Icc b (g n i), σ * w n t ≠ 0 := by
      intro t ht h0
      have hσ0 : σ ≠ 0 := by rcases hσ with rfl | rfl <;> norm_num
      have := (mul_eq_zero.1 h0).resolve_left hσ0
      exact no_zero i h t (by linarith [ht.1]) ht.2 ((w_zero (hdt t ht)).1 this)
    have hcont : ContinuousOn (fun t => σ * w n t) (Icc b (g n i)) := fun t ht =>
      (((osc n).deriv t (hdt t ht)).const_mul σ).continuousAt.continuousWithinAt
    have hbg : b ≤ g n i := by linarith
    have hposall : ∀ t ∈ Icc b (g n i), 0 < σ * w n t := by
      intro t ht
      by_contra hneg
      push Not at hneg
      have hsub : Icc t (g n i) ⊆ Icc b (g n i) := Icc_subset_Icc_left ht.1
      obtain ⟨r, hr, h0⟩ := intermediate_value_Icc ht.2 (hcont.mono hsub) (show (0 : ℝ) ∈ Icc _ _ from ⟨hneg, hpos.le⟩)
      exact hne r (hsub hr) h0
    have hanti : AntitoneOn (fun t => σ * dw n t) (Icc b (g n i)) := by
      refine antitoneOn_of_deriv_nonpos (convex_Icc _ _) (fun t ht => ?_) (fun t ht => ?_) fun t ht => ?_
      · exact (((osc n).second t (hdt t ht)).const_mul σ).continuousAt.continuousWithinAt
      · exact (((osc n).second t (hdt t (interior_subset ht))).const_mul σ).differentiableAt.differentiableWithinAt
      · have ht' := interior_subset ht
        rw [(((osc n).second t (hdt t ht')).const_mul σ).deriv]
        have h1 := hposall t ht'
        have h2 : 0 ≤ 1 / (4 * sin t ^ 2) := by positivity
        have : 0 ≤ (((n : ℝ) + 1 / 2) ^ 2 + 1 / (4 * sin t ^ 2)) * (σ * w n t) := by positivity
        linarith
    obtain ⟨ξ, hξ, hξ'⟩ := exists_hasDerivAt_eq_slope (fun t => σ * w n t) (fun t => σ * dw n t) (show b < g n i by linarith)
      hcont (fun t ht => ((osc n).deriv t (hdt t ⟨ht.1.le, ht.2.le⟩)).const_mul σ)
    have h1 := hanti ⟨hξ.1.le, hξ.2.le⟩ (right_mem_Icc.2 hbg) hξ.2.le
    simp only at h1 hξ'
    have hlen : g n i - b = π / (n + 1 / 2) / 2 := by rw [hb]; ring
    rw [hξ', hlen, le_div_iff₀ (by linarith)] at h1
    have hb1 := hposall b (left_mem_Icc.2 hbg)
    have h2 := w_small h
    have h3 := dw_large h
    have h4 : |dw n (g n i)| = σ * dw n (g n i) := by
      rw [← abs_of_nonneg hle, abs_mul, hσ2, one_mul]
    have h5 : |w n (g n i)| = σ * w n (g n i) := by
      rw [← abs_of_pos hpos, abs_mul, hσ2, one_mul]
    rw [h4] at h3
    rw [h5] at h2
    have h6 : ((n : ℝ) + 1 / 2) * (σ * w n (g n i)) ≤ amp n * (((n : ℝ) + 1 / 2) / 9) :=
      h2.trans (mul_le_mul_of_nonneg_left hκ hA.le)
    have h7 : σ * w n (g n i) ≤ amp n / 9 := by
      have : ((n : ℝ) + 1 / 2) * (σ * w n (g n i)) ≤ ((n : ℝ) + 1 / 2) * (amp n / 9) := by linarith
      exact le_of_mul_le_mul_left this hN
    have h8 : amp n * (((n : ℝ) + 1 / 2) * (8 / 9)) ≤ σ * dw n (g n i) := by
      refine le_trans (mul_le_mul_of_nonneg_left ?_ hA.le) h3
      linarith
    have h9 : amp n * (8 / 9) * (π / 2) ≤ σ * dw n (g n i) * (π / ((n : ℝ) + 1 / 2) / 2) := by
      calc _ = amp n * (((n : ℝ) + 1 / 2) * (8 / 9)) * (π / ((n : ℝ) + 1 / 2) / 2) := by
            field_simp
        _ ≤ _ := mul_le_mul_of_nonneg_right h8 (by positivity)
    have : amp n * (8 / 9) * (3 / 2) ≤ amp n * (8 / 9) * (π / 2) := by
      refine mul_le_mul_of_nonneg_left ?_ (by positivity)
      linarith [pi_gt_three]
    linarith
  rcases lt_or_gt_of_ne hw0 with hneg | hpos
  · exact ⟨-1, Or.inr rfl, by linarith, key (-1) (Or.inr rfl) (by linarith)⟩
  · exact ⟨1, Or.inl rfl, by linarith, key 1 (Or.inl rfl) (by linarith)⟩

/-- The polynomial at a start: sign and size of value and derivative. -/
theorem at_start {i : Nat} (h : i < n / 2) : ∃ σ : ℝ, (σ = 1 ∨ σ = -1) ∧ 0 < σ * p n (cos (g n i)) ∧ 0 < σ * dp n (cos (g n i)) ∧
    32 * ((n : ℝ) + 1 / 2) ^ 2 * (σ * p n (cos (g n i))) ≤ 9 * cos (g n i) * (σ * dp n (cos (g n i))) := by
  obtain ⟨σ, hσ, h1, h2⟩ := signs h
  have hg := g_pos n i
  have hh := g_half h
  have hs := step_pos n
  have hN : (0 : ℝ) < n + 1 / 2 := by positivity
  have hsin : 0 < sin (g n i) := sin_pos_of_mem_Ioo ⟨hg, by linarith [pi_pos]⟩
  have hcos : 0 < cos (g n i) := cos_pos_of_mem_Ioo ⟨by linarith [pi_pos], by linarith⟩
  have hR := sqrt_pos.2 hsin
  have hκ := cot_bound h
  have hA := amp_pos (n := n)
  have hσ2 : |σ| = 1 := by rcases hσ with rfl | rfl <;> simp
  have h3 := w_small h
  have h4 := dw_large h
  have e5 : |w n (g n i)| = σ * w n (g n i) := by rw [← abs_of_pos h1, abs_mul, hσ2, one_mul]
  have e4 : |dw n (g n i)| = -(σ * dw n (g n i)) := by rw [← abs_of_neg h2, abs_mul, hσ2, one_mul]
  rw [e5] at h3
  rw [e4] at h4
  have hp : 0 < σ * p n (cos (g n i)) := by
    rw [w] at h1
    have : σ * (√(sin (g n i)) * p n (cos (g n i))) = √(sin (g n i)) * (σ * p n (cos (g n i))) := by ring
    rw [this] at h1
    exact (mul_pos_iff_of_pos_left hR).1 h1
  -- `sin √sin σ p' = cot / 2 √sin σ p + |w'|`
  have e6 : sin (g n i) * √(sin (g n i)) * (σ * dp n (cos (g n i))) =
      cos (g n i) / (2 * sin (g n i)) * (√(sin (g n i)) * (σ * p n (cos (g n i)))) - σ * dw n (g n i) := by
    rw [dw]
    ring
  have h5 : 0 ≤ cos (g n i) / (2 * sin (g n i)) * (√(sin (g n i)) * (σ * p n (cos (g n i)))) := by positivity
  have h6 : -(σ * dw n (g n i)) ≤ sin (g n i) * √(sin (g n i)) * (σ * dp n (cos (g n i))) := by linarith
  have hdp : 0 < σ * dp n (cos (g n i)) := by
    have : 0 < sin (g n i) * √(sin (g n i)) * (σ * dp n (cos (g n i))) := by linarith
    exact (mul_pos_iff_of_pos_left (by positivity)).1 this
  refine ⟨σ, hσ, hp, hdp, ?_⟩
  have h7 : amp n * (((n : ℝ) + 1 / 2) * (8 / 9)) ≤ sin (g n i) * √(sin (g n i)) * (σ * dp n (cos (g n i))) := by
    refine le_trans (mul_le_mul_of_nonneg_left ?_ hA.le) (h4.trans h6)
    linarith
  have h8 : ((n : ℝ) + 1 / 2) * (√(sin (g n i)) * (σ * p n (cos (g n i)))) * (4 * sin (g n i)) ≤ amp n * cos (g n i) := by
    have e : σ * w n (g n i) = √(sin (g n i)) * (σ * p n (cos (g n i))) := by rw [w]; ring
    rw [e] at h3
    have h9 : amp n * (cos (g n i) / sin (g n i) / 4) = amp n * cos (g n i) / (4 * sin (g n i)) := by
      field_simp
    rwa [h9, le_div_iff₀ (by positivity)] at h3
  -- multiply
  have h9 : ((n : ℝ) + 1 / 2) * (√(sin (g n i)) * (σ * p n (cos (g n i)))) * (4 * sin (g n i)) * (((n : ℝ) + 1 / 2) * (8 / 9)) ≤
      cos (g n i) * (sin (g n i) * √(sin (g n i)) * (σ * dp n (cos (g n i)))) := by
    calc _ ≤ amp n * cos (g n i) * (((n : ℝ) + 1 / 2) * (8 / 9)) := mul_le_mul_of_nonneg_right h8 (by positivity)
      _ = cos (g n i) * (amp n * (((n : ℝ) + 1 / 2) * (8 / 9))) := by ring
      _ ≤ _ := mul_le_mul_of_nonneg_left h7 hcos.le
  have hpos : 0 < sin (g n i) * √(sin (g n i)) := by positivity
  refine le_of_mul_le_mul_left ?_ hpos
  calc _ = 9 * (((n : ℝ) + 1 / 2) * (√(sin (g n i)) * (σ * p n (cos (g n i)))) * (4 * sin (g n i)) * (((n : ℝ) + 1 / 2) * (8 / 9))) := by
        ring
    _ ≤ 9 * (cos (g n i) * (sin (g n i) * √(sin (g n i)) * (σ * dp n (cos (g n i))))) :=
        mul_le_mul_of_nonneg_left h9 (by norm_num)
    _ = _ := by ring

end LegendreZeros

end NuTo
