/-
C115: the Newton iterations of `LegendreRoots` end at the roots.
-/
import Verif.Lemmas.LegendreZeros

namespace NuTo

namespace LegendreZeros

open Real Set LegendrePoly

variable {n : Nat}

theorem ddp_second (n : Nat) (x : ℝ) : HasDerivAt (fun x => (1 - x ^ 2) ^ 2 * ddp n x)
    (-((n : ℝ) * (n + 1) - 2) * ((1 - x ^ 2) * dp n x)) x := by
  have h0 : ∀ x, (1 - x ^ 2) ^ 2 * ddp n x = (1 - x ^ 2) * (2 * x * dp n x - (n : ℝ) * (n + 1) * p n x) := fun x => by
    linear_combination (1 - x ^ 2) * ode_eval n x
  have h1 : HasDerivAt (fun x : ℝ => 1 - x ^ 2) (-(2 * x)) x := by
    refine ((hasDerivAt_pow 2 x).const_sub 1).congr_deriv ?_
    simp
  have h2 : HasDerivAt (fun x => 2 * x * dp n x - (n : ℝ) * (n + 1) * p n x)
      (2 * dp n x + 2 * x * ddp n x - (n : ℝ) * (n + 1) * dp n x) x := by
    have a1 : HasDerivAt (fun x : ℝ => 2 * x) 2 x := by simpa using (hasDerivAt_id x).const_mul 2
    exact (a1.mul (hasDerivAt_dp n x)).sub ((hasDerivAt_p n x).const_mul _)
  refine ((h1.mul h2).congr_deriv ?_).congr_of_eventuallyEq (Filter.Eventually.of_forall h0)
  linear_combination (2 * x) * ode_eval n x

/-- What Newton's method needs between a root and the start: no other root, increasing and convex (up to a sign). -/
structure Near (f df : ℝ → ℝ) (ρ x : ℝ) : Prop where
  le : ρ ≤ x
  deriv : ∀ y, HasDerivAt f (df y) y
  root : f ρ = 0
  pos : ∀ y ∈ Icc ρ x, 0 < df y
  mono : MonotoneOn df (Icc ρ x)
  ratio : df x ≤ 2 * df ρ

theorem ratio_bound {x ρ D fx dx dρ : ℝ} (hx1 : x ≤ 1) (hρ0 : 0 < ρ) (hρx : ρ < x) (hDd : D = 1 - x ^ 2) (hDpos : 0 < D)
    (h1 : D * dx ≤ (1 - ρ ^ 2) * dρ) (h2 : dρ * (x - ρ) ≤ fx) (h3 : 8 * fx ≤ D * dx) (hdρ : 0 < dρ) : dx ≤ 2 * dρ := by
  have h4 : 1 - ρ ^ 2 ≤ D + 2 * (x - ρ) := by rw [hDd]; nlinarith
  have h6 : 6 * (x - ρ) ≤ D := by
    have h5 : (1 - ρ ^ 2) * dρ ≤ (D + 2 * (x - ρ)) * dρ := mul_le_mul_of_nonneg_right h4 hdρ.le
    have : (8 * (x - ρ)) * dρ ≤ (D + 2 * (x - ρ)) * dρ := by linarith
    have := le_of_mul_le_mul_right this hdρ
    linarith
  have h7 : D * dx ≤ D * (2 * dρ) := by
    have : (1 - ρ ^ 2) * dρ ≤ (2 * D) * dρ := mul_le_mul_of_nonneg_right (by linarith) hdρ.le
    linarith
  exact le_of_mul_le_mul_left h7 hDpos

theorem size_bound {M x D fx dx : ℝ} (hM : 0 < M) (hx1 : x ≤ 1) (hd : 0 < dx) (hD : (3 / 2) ^ 2 ≤ M * D)
    (h : 32 * M * fx ≤ 9 * x * dx) : 8 * fx ≤ D * dx := by
  have e1 : x * dx ≤ 1 * dx := mul_le_mul_of_nonneg_right hx1 hd.le
  have e3 : (3 / 2) ^ 2 * dx ≤ M * D * dx := mul_le_mul_of_nonneg_right hD hd.le
  have e4 : M * (8 * fx) ≤ M * (D * dx) := by linarith
  exact le_of_mul_le_mul_left e4 hM

/-- Between a root and the start of its iteration the polynomial is increasing and convex, up to its sign. -/
theorem near (z : Nat → ℝ) (hz : ∀ i < n / 2, g n i < z i ∧ z i < g n (i + 1) ∧ z i < π / 2 ∧ p n (cos (z i)) = 0)
    (hall : ∀ t, 0 < t → t < π / 2 → p n (cos t) = 0 → ∃ i < n / 2, t = z i) {i : Nat} (h : i < n / 2) :
    ∃ σ : ℝ, (σ = 1 ∨ σ = -1) ∧ Near (fun x => σ * p n x) (fun x => σ * dp n x) (cos (z i)) (cos (g n i)) := by
  obtain ⟨σ, hσ, hp0, hd0, hbig⟩ := at_start h
  obtain ⟨z1, z2, z3, z4⟩ := hz i h
  have hg := g_pos n i
  have hh := g_half h
  have hs := step_pos n
  have hN : (0 : ℝ) < n + 1 / 2 := by positivity
  have hsin : 0 < sin (g n i) := sin_pos_of_mem_Ioo ⟨hg, by linarith [pi_pos]⟩
  have hn2 : (2 : ℝ) ≤ n := by exact_mod_cast (by omega : 2 ≤ n)
  obtain ⟨x, hx⟩ : ∃ x, x = cos (g n i) := ⟨_, rfl⟩
  obtain ⟨ρ, hρ⟩ : ∃ ρ, ρ = cos (z i) := ⟨_, rfl⟩
  have hx0 : 0 < x := by rw [hx]; exact cos_pos_of_mem_Ioo ⟨by linarith [pi_pos], by linarith⟩
  have hρ0 : 0 < ρ := by rw [hρ]; exact cos_pos_of_mem_Ioo ⟨by linarith [pi_pos], z3⟩
  have hρx : ρ < x := by
    rw [hρ, hx]
    exact cos_lt_cos_of_nonneg_of_le_pi hg.le (by linarith [pi_pos]) z1
  have hx1 : 1 - x ^ 2 = sin (g n i) ^ 2 := by rw [hx]; linarith [sin_sq_add_cos_sq (g n i)]
  have hlt1 : ∀ y ∈ Icc ρ x, 0 < 1 - y ^ 2 := by
    intro y hy
    have : y ^ 2 ≤ x ^ 2 := pow_le_pow_left₀ (by linarith [hy.1]) hy.2 2
    have h2 : 0 < sin (g n i) ^ 2 := by positivity
    linarith
  rw [← hx] at hp0 hd0 hbig
  rw [← hx, ← hρ]
  rw [← hρ] at z4
  -- no zero in between
  have hpos : ∀ y, ρ < y → y ≤ x → 0 < σ * p n y := by
    intro y h1 h2
    by_contra hle
    push Not at hle
    have hc : ContinuousOn (fun y => σ * p n y) (Icc y x) := fun t _ =>
      ((hasDerivAt_p n t).const_mul σ).continuousAt.continuousWithinAt
    obtain ⟨r, hr, h0⟩ := intermediate_value_Icc h2 hc (show (0 : ℝ) ∈ Icc _ _ from ⟨hle, hp0.le⟩)
    have hσ0 : σ ≠ 0 := by rcases hσ with rfl | rfl <;> norm_num
    have hr0 : p n r = 0 := (mul_eq_zero.1 h0).resolve_left hσ0
    have hr1 : r < 1 := by
      by_contra hge
      push Not at hge
      have := hlt1 r ⟨by linarith [hr.1], hr.2⟩
      nlinarith
    have hr2 : 0 < r := by linarith [hr.1]
    obtain ⟨j, hj, e⟩ := hall (arccos r) (arccos_pos.2 hr1) (arccos_lt_pi_div_two.2 hr2) (by
      rw [cos_arccos (by linarith) hr1.le]; exact hr0)
    have e2 : r = cos (z j) := by rw [← e, cos_arccos (by linarith) hr1.le]
    have h4 : z j < z i := by
      by_contra hge
      push Not at hge
      have := cos_le_cos_of_nonneg_of_le_pi (by linarith : 0 ≤ z i) (by linarith [(hz j hj).2.2.1, pi_pos]) hge
      rw [← e2, ← hρ] at this
      linarith [hr.1]
    have h5 : g n i ≤ z j := by
      by_contra hge
      push Not at hge
      have := cos_lt_cos_of_nonneg_of_le_pi (by linarith [(hz j hj).1, g_pos n j] : 0 ≤ z j) (by linarith [pi_pos]) hge
      rw [← e2, ← hx] at this
      linarith [hr.2]
    have h6 : j = i := by
      rcases lt_trichotomy j i with hl | hl | hl
      · linarith [(hz j hj).2.1, g_le (n := n) (show j + 1 ≤ i from hl)]
      · exact hl
      · linarith [(hz j hj).1, g_le (n := n) (show i + 1 ≤ j from hl)]
    rw [h6] at h4
    exact lt_irrefl _ h4
  have hnonneg : ∀ y ∈ Icc ρ x, 0 ≤ σ * p n y := by
    intro y hy
    rcases hy.1.lt_or_eq with hl | rfl
    · exact (hpos y hl hy.2).le
    · rw [z4, mul_zero]
  have hode : ∀ y, (1 - y ^ 2) * (σ * ddp n y) = 2 * y * (σ * dp n y) - (n : ℝ) * (n + 1) * (σ * p n y) := fun y => by
    linear_combination σ * ode_eval n y
  have hcN : (n : ℝ) * (n + 1) ≤ ((n : ℝ) + 1 / 2) ^ 2 := by nlinarith
  have hc0 : 2 ≤ (n : ℝ) * (n + 1) := by nlinarith
  -- convex at the start
  have hK0 : 0 < (1 - x ^ 2) * (σ * ddp n x) := by
    rw [hode]
    have h1 : (n : ℝ) * (n + 1) * (σ * p n x) ≤ ((n : ℝ) + 1 / 2) ^ 2 * (σ * p n x) :=
      mul_le_mul_of_nonneg_right hcN hp0.le
    have h2 : 0 < x * (σ * dp n x) := mul_pos hx0 hd0
    linarith
  have hKd : ∀ y, HasDerivAt (fun y => (1 - y ^ 2) * ((1 - y ^ 2) * (σ * ddp n y)))
      (-((n : ℝ) * (n + 1) - 2) * ((1 - y ^ 2) * (σ * dp n y))) y := by
    intro y
    have := (ddp_second n y).const_mul σ
    refine (this.congr_deriv (by ring)).congr_of_eventuallyEq (Filter.Eventually.of_forall fun t => ?_)
    ring
  have hK : ∀ a, ρ ≤ a → a ≤ x → (∀ y ∈ Ioo a x, 0 ≤ σ * dp n y) → 0 < (1 - a ^ 2) * (σ * ddp n a) := by
    intro a h1 h2 h3
    have hanti : AntitoneOn (fun y => (1 - y ^ 2) * ((1 - y ^ 2) * (σ * ddp n y))) (Icc a x) := by
      refine antitoneOn_of_deriv_nonpos (convex_Icc _ _) (fun t _ => (hKd t).continuousAt.continuousWithinAt)
        (fun t _ => (hKd t).differentiableAt.differentiableWithinAt) fun t ht => ?_
      rw [interior_Icc] at ht
      rw [(hKd t).deriv]
      have e1 := hlt1 t ⟨by linarith [ht.1], ht.2.le⟩
      have e2 := h3 t ht
      have : 0 ≤ ((n : ℝ) * (n + 1) - 2) * ((1 - t ^ 2) * (σ * dp n t)) :=
        mul_nonneg (by linarith) (mul_nonneg e1.le e2)
      linarith
    have h4 := hanti (left_mem_Icc.2 h2) (right_mem_Icc.2 h2) h2
    simp only at h4
    have e1 := hlt1 a ⟨h1, h2⟩
    have e2 := hlt1 x ⟨hρx.le, le_rfl⟩
    exact (mul_pos_iff_of_pos_left e1).1 (lt_of_lt_of_le (mul_pos e2 hK0) h4)
  have hdpos : ∀ y ∈ Icc ρ x, 0 < σ * dp n y := by
    by_contra hcon
    push Not at hcon
    obtain ⟨y0, hy0, hy1⟩ := hcon
    obtain ⟨T, hT⟩ : ∃ T : Set ℝ, T = {y ∈ Icc ρ x | σ * dp n y ≤ 0} := ⟨_, rfl⟩
    have hcd : Continuous fun y => σ * dp n y := continuous_iff_continuousAt.2 fun y =>
      ((hasDerivAt_dp n y).const_mul σ).continuousAt
    have hTc : IsCompact T := by
      rw [hT]
      refine (isCompact_Icc (a := ρ) (b := x)).inter_right ?_
      exact isClosed_le hcd continuous_const
    have hTne : T.Nonempty := ⟨y0, by rw [hT]; exact ⟨hy0, hy1⟩⟩
    obtain ⟨a, ha, hmax⟩ := hTc.exists_isGreatest hTne
    rw [hT] at ha
    obtain ⟨⟨a1, a2⟩, a3⟩ := ha
    have hafter : ∀ y ∈ Ioo a x, 0 ≤ σ * dp n y := by
      intro y hy
      by_contra hneg
      push Not at hneg
      have : y ∈ T := by rw [hT]; exact ⟨⟨by linarith [hy.1], hy.2.le⟩, hneg.le⟩
      linarith [hmax this, hy.1]
    have := hK a a1 a2 hafter
    rw [hode] at this
    have e1 := hnonneg a ⟨a1, a2⟩
    have e2 : 0 ≤ (n : ℝ) * (n + 1) * (σ * p n a) := mul_nonneg (by linarith) e1
    have e3 : 2 * a * (σ * dp n a) ≤ 0 := mul_nonpos_of_nonneg_of_nonpos (by linarith) a3
    linarith
  have hconv : ∀ y ∈ Icc ρ x, 0 ≤ σ * ddp n y := by
    intro y hy
    have := hK y hy.1 hy.2 fun t ht => (hdpos t ⟨by linarith [hy.1, ht.1], ht.2.le⟩).le
    exact ((mul_pos_iff_of_pos_left (hlt1 y hy)).1 this).le
  have hmono : MonotoneOn (fun y => σ * dp n y) (Icc ρ x) := by
    refine monotoneOn_of_deriv_nonneg (convex_Icc _ _)
      (fun t _ => ((hasDerivAt_dp n t).const_mul σ).continuousAt.continuousWithinAt)
      (fun t _ => ((hasDerivAt_dp n t).const_mul σ).differentiableAt.differentiableWithinAt) fun t ht => ?_
    rw [((hasDerivAt_dp n t).const_mul σ).deriv]
    exact hconv t (interior_subset ht)
  refine ⟨σ, hσ, hρx.le, fun y => (hasDerivAt_p n y).const_mul σ, by rw [z4, mul_zero], hdpos, hmono, ?_⟩
  -- `(1 - y²) f'` decreases
  have hD : ∀ y, HasDerivAt (fun y => (1 - y ^ 2) * (σ * dp n y)) (-((n : ℝ) * (n + 1) * (σ * p n y))) y := by
    intro y
    have h1 : HasDerivAt (fun x : ℝ => 1 - x ^ 2) (-(2 * y)) y := by
      refine ((hasDerivAt_pow 2 y).const_sub 1).congr_deriv ?_
      simp
    refine (h1.mul ((hasDerivAt_dp n y).const_mul σ)).congr_deriv ?_
    linear_combination hode y
  have hanti : AntitoneOn (fun y => (1 - y ^ 2) * (σ * dp n y)) (Icc ρ x) := by
    refine antitoneOn_of_deriv_nonpos (convex_Icc _ _) (fun t _ => (hD t).continuousAt.continuousWithinAt)
      (fun t _ => (hD t).differentiableAt.differentiableWithinAt) fun t ht => ?_
    rw [(hD t).deriv]
    have := mul_nonneg (by linarith : 0 ≤ (n : ℝ) * (n + 1)) (hnonneg t (interior_subset ht))
    linarith
  have h1 := hanti (left_mem_Icc.2 hρx.le) (right_mem_Icc.2 hρx.le) hρx.le
  simp only at h1
  -- the distance of root and start
  obtain ⟨ξ, hξ, hξ'⟩ := exists_hasDerivAt_eq_slope (fun y => σ * p n y) (fun y => σ * dp n y) hρx
    (fun t _ => ((hasDerivAt_p n t).const_mul σ).continuousAt.continuousWithinAt) (fun t _ => (hasDerivAt_p n t).const_mul σ)
  simp only [z4, mul_zero, sub_zero] at hξ'
  have h2 := hmono (left_mem_Icc.2 hρx.le) ⟨hξ.1.le, hξ.2.le⟩ hξ.1.le
  simp only at h2
  rw [hξ', le_div_iff₀ (by linarith)] at h2
  have hdρ := hdpos ρ (left_mem_Icc.2 hρx.le)
  -- sine of the start
  have hsl : (3 / 2) ^ 2 ≤ ((n : ℝ) + 1 / 2) ^ 2 * (1 - x ^ 2) := by
    rw [hx1, ← mul_pow]
    refine pow_le_pow_left₀ (by norm_num) ?_ 2
    have e1 := mul_le_sin hg.le (by linarith : g n i ≤ π / 2)
    have e2 : 3 / 2 ≤ ((n : ℝ) + 1 / 2) * (2 / π * g n i) := by
      have hpi := pi_pos
      rw [g]
      have : ((n : ℝ) + 1 / 2) * (2 / π * ((i + 3 / 4) * (π / ((n : ℝ) + 1 / 2)))) = 2 * (i + 3 / 4) := by
        field_simp
      rw [this]
      have : (0 : ℝ) ≤ i := Nat.cast_nonneg i
      linarith
    exact e2.trans (mul_le_mul_of_nonneg_left e1 hN.le)
  have hx1' : x ≤ 1 := by rw [hx]; exact cos_le_one _
  obtain ⟨D, hDd⟩ : ∃ D, D = 1 - x ^ 2 := ⟨_, rfl⟩
  have hDpos : 0 < D := by rw [hDd]; exact hlt1 x ⟨hρx.le, le_rfl⟩
  rw [← hDd] at h1 hsl
  -- `f ≤ D f' / 8` at the start
  have h3 : 8 * (σ * p n x) ≤ D * (σ * dp n x) := by
    exact size_bound (by positivity) hx1' hd0 hsl hbig
  exact ratio_bound hx1' hρ0 hρx hDd hDpos h1 h2 h3 hdρ

/-! ### Newton's method -/

/-- The loop of `FindLegendreRoot` from a point above a root ends with a value between the root and the point, not further
than the tolerance from the root. -/
theorem findRoot_near (m d : Int) {a b : ℝ → ℝ} (ha : ∀ y : ℝ, Legendre.eval m y d = .ok (a y))
    (hb : ∀ y : ℝ, Legendre.eval m y (d + 1) = .ok (b y)) {σ ρ : ℝ} (hσ : σ = 1 ∨ σ = -1) (k : Nat) :
    ∀ x, Near (fun y => σ * a y) (fun y => σ * b y) ρ x → x - ρ < (k + 1) * (1 / 10 ^ 15) →
      ∃ r, ρ ≤ r ∧ r ≤ x ∧ r - ρ < 1 / 10 ^ 15 ∧ ∀ fuel, k < fuel → Legendre.findRoot m d fuel x = .ok (some r) := by
  have hσ0 : σ ≠ 0 := by rcases hσ with rfl | rfl <;> norm_num
  have hstep : ∀ x, Near (fun y => σ * a y) (fun y => σ * b y) ρ x →
      b x ≠ 0 ∧ 0 ≤ a x / b x ∧ ρ ≤ x - a x / b x ∧ x - a x / b x - ρ ≤ a x / b x := by
    intro x h
    have hbx := h.pos x (right_mem_Icc.2 h.le)
    have hb0 : b x ≠ 0 := fun h0 => by simp [h0] at hbx
    have hdiv : a x / b x = (σ * a x) / (σ * b x) := by rw [mul_div_mul_left _ _ hσ0]
    rcases h.le.lt_or_eq with hlt | heq
    · obtain ⟨ξ, hξ, hξ'⟩ := exists_hasDerivAt_eq_slope (fun y => σ * a y) (fun y => σ * b y) hlt
        (fun t _ => (h.deriv t).continuousAt.continuousWithinAt) (fun t _ => h.deriv t)
      have hr := h.root
      rw [hr, sub_zero, eq_div_iff (by linarith)] at hξ'
      have e1 := h.mono (left_mem_Icc.2 h.le) ⟨hξ.1.le, hξ.2.le⟩ hξ.1.le
      have e2 := h.mono ⟨hξ.1.le, hξ.2.le⟩ (right_mem_Icc.2 h.le) hξ.2.le
      have e3 := h.pos ξ ⟨hξ.1.le, hξ.2.le⟩
      have e4 := h.ratio
      beta_reduce at e1 e2 e3 e4
      have hx : 0 < x - ρ := by linarith
      refine ⟨hb0, ?_, ?_, ?_⟩
      · rw [hdiv, ← hξ']
        positivity
      · have : σ * a x / (σ * b x) ≤ x - ρ := by
          rw [div_le_iff₀ hbx, ← hξ', mul_comm]
          exact mul_le_mul_of_nonneg_left e2 hx.le
        rw [hdiv]
        linarith
      · have : x - ρ ≤ 2 * (σ * a x / (σ * b x)) := by
          rw [mul_div_assoc', le_div_iff₀ hbx, ← hξ']
          have : (x - ρ) * (σ * b x) ≤ (x - ρ) * (2 * (σ * b ξ)) := mul_le_mul_of_nonneg_left (by linarith) hx.le
          linarith
        rw [hdiv]
        linarith
    · have hr := h.root
      have ha0 : a x = 0 := by
        rw [← heq]
        exact (mul_eq_zero.1 hr).resolve_left hσ0
      refine ⟨hb0, ?_⟩
      rw [ha0, zero_div, heq]
      simp
  induction k with
  | zero =>
    intro x h hlt
    obtain ⟨h1, h2, h3, h4⟩ := hstep x h
    have hε : a x / b x < 1 / 10 ^ 15 := by
      simp only [Nat.cast_zero, zero_add, one_mul] at hlt
      linarith
    refine ⟨x - a x / b x, h3, by linarith, by linarith, fun fuel hf => ?_⟩
    obtain ⟨f, rfl⟩ : ∃ f, fuel = f + 1 := ⟨fuel - 1, by omega⟩
    rw [Legendre.findRoot, ha, hb]
    simp only [Res.bind_ok]
    rw [if_neg h1, if_pos (by rw [sub_sub_cancel, abs_of_nonneg h2]; exact hε)]
  | succ k ih =>
    intro x h hlt
    obtain ⟨h1, h2, h3, h4⟩ := hstep x h
    by_cases hε : a x / b x < 1 / 10 ^ 15
    · refine ⟨x - a x / b x, h3, by linarith, by linarith, fun fuel hf => ?_⟩
      obtain ⟨f, rfl⟩ : ∃ f, fuel = f + 1 := ⟨fuel - 1, by omega⟩
      rw [Legendre.findRoot, ha, hb]
      simp only [Res.bind_ok]
      rw [if_neg h1, if_pos (by rw [sub_sub_cancel, abs_of_nonneg h2]; exact hε)]
    · push Not at hε
      have hsub : Icc ρ (x - a x / b x) ⊆ Icc ρ x := Icc_subset_Icc_right (by linarith)
      obtain ⟨r, r1, r2, r3, r4⟩ := ih (x - a x / b x) ⟨h3, h.deriv, h.root, fun y hy => h.pos y (hsub hy), h.mono.mono hsub,
        (h.mono (hsub (right_mem_Icc.2 h3)) (right_mem_Icc.2 h.le) (by linarith)).trans h.ratio⟩ (by
          push_cast at hlt
          linarith)
      refine ⟨r, r1, by linarith, r3, fun fuel hf => ?_⟩
      obtain ⟨f, rfl⟩ : ∃ f, fuel = f + 1 := ⟨fuel - 1, by omega⟩
      rw [Legendre.findRoot, ha, hb]
      simp only [Res.bind_ok]
      rw [if_neg h1, if_neg (by rw [sub_sub_cancel, abs_of_nonneg h2, not_lt]; exact hε)]
      exact r4 f (by omega)

/-- Even and odd functions: the iteration from the opposite point. -/
theorem findRoot_neg (m d : Int) {a b : ℝ → ℝ} (ha : ∀ y : ℝ, Legendre.eval m y d = .ok (a y))
    (hb : ∀ y : ℝ, Legendre.eval m y (d + 1) = .ok (b y)) {s : ℝ} (hs : s ≠ 0) (han : ∀ y, a (-y) = s * a y)
    (hbn : ∀ y, b (-y) = -(s * b y)) (fuel : Nat) :
    ∀ x r : ℝ, Legendre.findRoot m d fuel x = .ok (some r) → Legendre.findRoot m d fuel (-x) = .ok (some (-r)) := by
  induction fuel with
  | zero => intro x r h; simp [Legendre.findRoot] at h
  | succ fuel ih =>
    intro x r h
    rw [Legendre.findRoot, ha, hb] at h ⊢
    simp only [Res.bind_ok] at h ⊢
    rw [han, hbn]
    by_cases h0 : b x = 0
    · rw [if_pos h0] at h
      simp at h
    · rw [if_neg h0] at h
      rw [if_neg (neg_ne_zero.2 (mul_ne_zero hs h0))]
      have hd : s * a x / -(s * b x) = -(a x / b x) := by
        rw [div_neg, mul_div_mul_left _ _ hs]
      rw [hd]
      have he : |(-x) - (-x - -(a x / b x))| = |x - (x - a x / b x)| := by
        rw [← abs_neg]
        congr 1
        ring
      rw [he]
      by_cases hlt : |x - (x - a x / b x)| < 1 / 10 ^ 15
      · rw [if_pos hlt] at h ⊢
        have hr : r = x - a x / b x := by simpa using h.symm
        rw [hr]
        congr 2
        ring
      · rw [if_neg hlt] at h ⊢
        have := ih _ _ h
        rw [← this]
        congr 1
        ring

/-! ### All roots -/

/-- A decreasing sequence of positive numbers, its mirror image, and zero in the middle. -/
def mirror (n : Nat) (a : Nat → ℝ) (i : Nat) : ℝ := if i < n / 2 then a i else if n ≤ i + n / 2 then -a (n - 1 - i) else 0

theorem mirror_anti {a : Nat → ℝ} (h1 : ∀ i j, i < j → j < n / 2 → a j < a i) (h2 : ∀ i < n / 2, 0 < a i) {i j : Nat}
    (hij : i < j) (hj : j < n) : mirror n a j < mirror n a i := by
  rw [mirror, mirror]
  by_cases ci : i < n / 2
  · rw [if_pos ci]
    by_cases cj : j < n / 2
    · rw [if_pos cj]
      exact h1 i j hij cj
    · rw [if_neg cj]
      by_cases dj : n ≤ j + n / 2
      · rw [if_pos dj]
        linarith [h2 i ci, h2 (n - 1 - j) (by omega)]
      · rw [if_neg dj]
        exact h2 i ci
  · have dj : n ≤ j + n / 2 := by omega
    rw [if_neg ci, if_neg (by omega : ¬ j < n / 2), if_pos dj]
    by_cases di : n ≤ i + n / 2
    · rw [if_pos di]
      have := h1 (n - 1 - j) (n - 1 - i) (by omega) (by omega)
      linarith
    · rw [if_neg di]
      linarith [h2 (n - 1 - j) (by omega)]

theorem mirror_abs {a b : Nat → ℝ} {ε : ℝ} (hε : 0 < ε) (h : ∀ i < n / 2, |a i - b i| < ε) {i : Nat} (hi : i < n) :
    |mirror n a i - mirror n b i| < ε := by
  rw [mirror, mirror]
  by_cases ci : i < n / 2
  · rw [if_pos ci, if_pos ci]
    exact h i ci
  · rw [if_neg ci, if_neg ci]
    by_cases di : n ≤ i + n / 2
    · rw [if_pos di, if_pos di, ← abs_neg, show -(-a (n - 1 - i) - -b (n - 1 - i)) = a (n - 1 - i) - b (n - 1 - i) by ring]
      exact h _ (by omega)
    · rw [if_neg di, if_neg di]
      simpa using hε

theorem eval_p (n : Nat) (y : ℝ) : Legendre.eval (n : Int) y 0 = .ok (p n y) := by
  have := C32_derivative_partial n 0 y (Or.inl (by norm_num))
  simpa [p] using this

theorem eval_dp (n : Nat) (y : ℝ) : Legendre.eval (n : Int) y (0 + 1) = .ok (dp n y) := by
  have := C32_derivative_partial n 1 y (Or.inl (by norm_num))
  simpa [dp] using this

theorem g_mirror (h : i < n) : g n (n - 1 - i) = π - g n i := by
  have : ((n - 1 - i : Nat) : ℝ) = n - 1 - i := by
    rw [Nat.cast_sub (by omega), Nat.cast_sub (by omega)]
    simp
  rw [g, g, this]
  have : (n : ℝ) + 1 / 2 ≠ 0 := by positivity
  field_simp
  ring

theorem sort_eq (l m : List ℝ) (h : l.Perm m) (hm : m.Pairwise (· < ·)) : Legendre.sort l = m := by
  rw [Legendre.sort]
  refine List.Perm.eq_of_pairwise (le := fun a b : ℝ => a ≤ b) (fun a b _ _ h1 h2 => le_antisymm h1 h2) ?_
    (hm.imp fun h => h.le) ((List.mergeSort_perm _ _).trans h)
  have := List.pairwise_mergeSort (le := fun a b : ℝ => decide (a ≤ b))
    (fun a b c h1 h2 => by simp only [decide_eq_true_eq] at *; exact h1.trans h2)
    (fun a b => by simpa using le_total a b) l
  exact this.imp fun h => by simpa using h

theorem mapM_map_ok (f : ℝ → Res (Option ℝ)) (c a : Nat → ℝ) (l : List Nat) (h : ∀ i ∈ l, f (c i) = .ok (some (a i))) :
    (l.map c).mapM f = .ok (l.map fun i => some (a i)) := by
  induction l with
  | nil => rfl
  | cons i l ih =>
    rw [List.map_cons, List.mapM_cons, h i (by simp), Res.bind_ok, ih fun j hj => h j (by simp [hj]), Res.bind_ok]
    rfl

/-- The iterations from all starts of `FirstGuess`. -/
theorem all_found (n : Nat) : ∃ z r : Nat → ℝ,
    (∀ i < n / 2, p n (cos (z i)) = 0 ∧ 0 < cos (z i) ∧ cos (z i) ≤ r i ∧ r i - cos (z i) < 1 / 10 ^ 15) ∧
    (∀ i j, i < j → j < n / 2 → r j < cos (z i)) ∧
    ∃ k, ∀ fuel, k < fuel → ∀ i < n, Legendre.findRoot (n : Int) 0 fuel (cos (g n i)) = .ok (some (mirror n r i)) := by
  obtain ⟨z, hz, hall⟩ := zeros n
  have hr : ∀ i, ∃ (r : ℝ) (k : Nat), i < n / 2 → cos (z i) ≤ r ∧ r ≤ cos (g n i) ∧ r - cos (z i) < 1 / 10 ^ 15 ∧
      ∀ fuel, k < fuel → Legendre.findRoot (n : Int) 0 fuel (cos (g n i)) = .ok (some r) := by
    intro i
    by_cases hi : i < n / 2
    · obtain ⟨σ, hσ, hnear⟩ := near z hz hall hi
      obtain ⟨k, hk⟩ := exists_nat_gt ((cos (g n i) - cos (z i)) / (1 / 10 ^ 15))
      rw [div_lt_iff₀ (by positivity)] at hk
      obtain ⟨r, h1, h2, h3, h4⟩ := findRoot_near n 0 (eval_p n) (eval_dp n) hσ k _ hnear (by
        refine hk.trans_le ?_
        have : (0 : ℝ) ≤ 1 / 10 ^ 15 := by positivity
        linarith)
      exact ⟨r, k, fun _ => ⟨h1, h2, h3, h4⟩⟩
    · exact ⟨0, 0, fun h => absurd h hi⟩
  choose r k hrk using hr
  have hg : ∀ i < n / 2, 0 < g n i := fun i hi => g_pos n i
  refine ⟨z, r, fun i hi => ⟨(hz i hi).2.2.2, ?_, (hrk i hi).1, (hrk i hi).2.2.1⟩, ?_, ?_⟩
  · have := hz i hi
    exact cos_pos_of_mem_Ioo ⟨by linarith [hg i hi, pi_pos], this.2.2.1⟩
  · intro i j hij hj
    have hi : i < n / 2 := by omega
    refine (hrk j hj).2.1.trans_lt ?_
    have h1 := hz i hi
    have h2 : g n (i + 1) ≤ g n j := g_le (by omega)
    have h3 := hz j hj
    refine cos_lt_cos_of_nonneg_of_le_pi ?_ ?_ ?_
    · linarith [hg i hi]
    · linarith [pi_pos]
    · linarith
  · refine ⟨(Finset.range (n / 2)).sup k, fun fuel hf i hi => ?_⟩
    have hfuel : ∀ j < n / 2, k j < fuel := fun j hj =>
      (Finset.le_sup (f := k) (Finset.mem_range.2 hj)).trans_lt hf
    rw [mirror]
    by_cases ci : i < n / 2
    · rw [if_pos ci]
      exact (hrk i ci).2.2.2 fuel (hfuel i ci)
    · rw [if_neg ci]
      by_cases di : n ≤ i + n / 2
      · rw [if_pos di]
        have hj : n - 1 - i < n / 2 := by omega
        have := findRoot_neg n 0 (eval_p n) (eval_dp n) (s := (-1) ^ n) (pow_ne_zero _ (by norm_num))
          (fun y => (p_neg n y).1) (fun y => by rw [dp_neg]; ring) fuel _ _ ((hrk _ hj).2.2.2 fuel (hfuel _ hj))
        rw [← this, g_mirror hi, cos_pi_sub, neg_neg]
      · rw [if_neg di]
        have hn : Odd n := by
          rcases Nat.even_or_odd n with h | h
          · obtain ⟨m, rfl⟩ := h
            omega
          · exact h
        have hgi : g n i = π / 2 := by
          have := g_mirror hi
          have h2 : n - 1 - i = i := by
            obtain ⟨m, rfl⟩ := hn
            omega
          rw [h2] at this
          linarith
        obtain ⟨f, rfl⟩ : ∃ f, fuel = f + 1 := ⟨fuel - 1, by omega⟩
        rw [hgi, cos_pi_div_two, Legendre.findRoot, eval_p, eval_dp]
        simp only [Res.bind_ok]
        rw [if_neg (dp_zero_ne hn), (middle_odd hn).2.2]
        simp

end LegendreZeros

open LegendreZeros Real in
/-- `LegendreRoots(n)`, with the starts of `FirstGuess` and cosines in exact arithmetic: every Newton iteration ends, and the
result has `n` increasing entries, each within the tolerance `1e-15` of another root of the Legendre polynomial. -/
theorem C115_roots (n : Nat) : ∃ l e : List ℝ,
    e.length = n ∧ e.Pairwise (· < ·) ∧ (∀ x ∈ e, (LegendrePoly.P ℝ n).eval x = 0) ∧
    l.length = n ∧ l.Pairwise (· < ·) ∧ (∀ i (h1 : i < l.length) (h2 : i < e.length), |l[i] - e[i]| < 1 / 10 ^ 15) ∧
    ∃ k, ∀ fuel, k < fuel →
      Legendre.roots fuel (fun i => cos (π * (4 * i - 1) / (4 * n + 2))) n = .ok (some l) := by
  obtain ⟨z, r, h1, h2, k, hk⟩ := all_found n
  have hra : ∀ i j, i < j → j < n → mirror n r j < mirror n r i := fun i j => mirror_anti
    (fun i j hij hj => (h2 i j hij hj).trans_le (h1 i (by omega)).2.2.1) (fun i hi => (h1 i hi).2.1.trans_le (h1 i hi).2.2.1)
  have hea : ∀ i j, i < j → j < n → mirror n (fun i => cos (z i)) j < mirror n (fun i => cos (z i)) i := fun i j => mirror_anti
    (fun i j hij hj => (h1 j hj).2.2.1.trans_lt (h2 i j hij hj)) (fun i hi => (h1 i hi).2.1)
  have hdec : ∀ a : Nat → ℝ, (∀ i j, i < j → j < n → a j < a i) → (((List.range n).map a).reverse).Pairwise (· < ·) := by
    intro a ha
    rw [List.pairwise_reverse, List.pairwise_map]
    refine List.pairwise_lt_range.imp_of_mem ?_
    intro i j hi hj hij
    exact ha i j hij (List.mem_range.1 hj)
  refine ⟨((List.range n).map (mirror n r)).reverse, ((List.range n).map (mirror n fun i => cos (z i))).reverse, by simp,
    hdec _ hea, ?_, by simp, hdec _ hra, ?_, k, fun fuel hf => ?_⟩
  · intro x hx
    simp only [List.mem_reverse, List.mem_map, List.mem_range] at hx
    obtain ⟨i, hi, rfl⟩ := hx
    show p n _ = 0
    rw [mirror]
    by_cases ci : i < n / 2
    · rw [if_pos ci]
      exact (h1 i ci).1
    · rw [if_neg ci]
      by_cases di : n ≤ i + n / 2
      · rw [if_pos di, (p_neg n _).1, (h1 _ (by omega)).1, mul_zero]
      · rw [if_neg di]
        refine (middle_odd ?_).2.2
        rcases Nat.even_or_odd n with h | h
        · obtain ⟨m, rfl⟩ := h
          omega
        · exact h
  · intro i hl he
    simp only [List.length_reverse, List.length_map, List.length_range] at hl
    simp only [List.getElem_reverse, List.getElem_map, List.getElem_range, List.length_map, List.length_range]
    exact mirror_abs (by positivity) (fun j hj => by
      have := h1 j hj
      rw [abs_of_nonneg (by linarith)]
      exact this.2.2.2) (by omega)
  · rw [Legendre.roots, Legendre.firstGuess, if_neg (by omega), Res.bind_ok, Legendre.findRoots]
    rw [mapM_map_ok _ _ (mirror n r), Res.bind_ok]
    · rw [if_pos (by simp)]
      have hfm : ((List.range n).map fun i => some (mirror n r i)).filterMap id = (List.range n).map (mirror n r) := by
        rw [List.filterMap_map]
        exact congrFun (List.filterMap_eq_map (f := mirror n r)) _
      rw [Int.toNat_natCast, hfm, sort_eq _ _ (List.reverse_perm _).symm (hdec _ hra)]
      rfl
    · intro i hi
      rw [Int.toNat_natCast, List.mem_range] at hi
      rw [← hk fuel hf i hi, g]
      congr 2
      have : (n : ℝ) + 1 / 2 ≠ 0 := by positivity
      have : 4 * (n : ℝ) + 2 ≠ 0 := by positivity
      push_cast
      field_simp
      ring

/-- Three roots: the middle one is found exactly, because the iteration starts there. -/
example : ∃ k, ∀ fuel, k < fuel → Legendre.findRoot (3 : Int) 0 fuel (0 : ℝ) = .ok (some 0) := by
  refine ⟨0, fun fuel hf => ?_⟩
  obtain ⟨f, rfl⟩ : ∃ f, fuel = f + 1 := ⟨fuel - 1, by omega⟩
  have h1 := LegendreZeros.eval_p 3 0
  have h2 := LegendreZeros.eval_dp 3 0
  have h3 : Odd 3 := by decide
  rw [Legendre.findRoot]
  rw [show ((3 : Nat) : Int) = 3 from rfl] at h1 h2
  rw [h1, h2]
  simp only [Res.bind_ok]
  rw [if_neg (LegendreZeros.dp_zero_ne h3), (LegendreZeros.middle_odd h3).2.2]
  simp

/-- One point: the result is the root of `P₁ = x`. -/
example : ∃ l : List ℝ, l.length = 1 ∧ ∃ k, ∀ fuel, k < fuel →
    Legendre.roots fuel (fun i => Real.cos (Real.pi * (4 * i - 1) / (4 * (1 : Nat) + 2))) 1 = .ok (some l) := by
  obtain ⟨l, e, -, -, -, h, -, -, k, hk⟩ := C115_roots 1
  exact ⟨l, h, k, fun fuel hf => by simpa using hk fuel hf⟩

end NuTo
