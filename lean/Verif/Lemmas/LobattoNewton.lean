/-
Newton's method for the derivative of a Legendre polynomial, started left of an extremum: one step to the other side, then the
situation of `LegendreZeros.Near`.
-/
import Verif.Props.LegendreRoots

namespace NuTo

namespace LegendreZeros

open Real Set

theorem gain {A B X c m δ v D t : ℝ} (hX : 0 < X) (hδ : c * δ ≤ A * X) (hδ0 : 0 ≤ δ) (hv : v * D ≤ B * X * m) (hv0 : 0 ≤ v)
    (hA : 0 ≤ A) (hD0 : 0 ≤ D) (hD : t * X ^ 2 ≤ c * D) : t * (δ * v) ≤ A * B * m := by
  have h1 : t * X ^ 2 * (δ * v) ≤ c * D * (δ * v) := mul_le_mul_of_nonneg_right hD (mul_nonneg hδ0 hv0)
  have h2 : c * δ * (v * D) ≤ A * X * (v * D) := mul_le_mul_of_nonneg_right hδ (mul_nonneg hv0 hD0)
  have h3 : A * X * (v * D) ≤ A * X * (B * X * m) := mul_le_mul_of_nonneg_left hv (mul_nonneg hA hX.le)
  have h4 : X ^ 2 * (t * (δ * v)) ≤ X ^ 2 * (A * B * m) := by
    calc _ = t * X ^ 2 * (δ * v) := by ring
      _ ≤ c * D * (δ * v) := h1
      _ = c * δ * (v * D) := by ring
      _ ≤ _ := h2
      _ ≤ _ := h3
      _ = _ := by ring
  exact le_of_mul_le_mul_left h4 (by positivity)

/-- A polynomial `-q` without zeros between `X - h` and `e`, its derivative `f` and further derivatives, up to a sign. -/
structure Extremum (q f df ddf : ℝ → ℝ) (c X h e : ℝ) : Prop where
  hq : ∀ x, HasDerivAt q (-f x) x
  hf : ∀ x, HasDerivAt f (df x) x
  hdf : ∀ x, HasDerivAt df (ddf x) x
  ode1 : ∀ x, (1 - x ^ 2) * df x = 2 * x * f x + c * q x
  ode2 : ∀ x, (1 - x ^ 2) * ddf x = 4 * x * df x - (c - 2) * f x
  X0 : 0 < X
  c12 : 12 ≤ c
  h0 : 0 < h
  ha : 0 ≤ X - h
  ch : c * h ≤ 1.24 * X
  cD : 15 * X ^ 2 ≤ c * (1 - X ^ 2)
  u1 : -(0.77 * X * q X) ≤ (1 - X ^ 2) * f X
  u2 : (1 - X ^ 2) * f X < 0
  Xe : X < e
  e1 : e < 1
  qe : q e = 0
  qpos : ∀ x, X - h ≤ x → x < e → 0 < q x

variable {q f df ddf : ℝ → ℝ} {c X h e : ℝ}

theorem Extremum.hu (E : Extremum q f df ddf c X h e) (x : ℝ) : HasDerivAt (fun x => (1 - x ^ 2) * f x) (c * q x) x := by
  have h1 : HasDerivAt (fun x : ℝ => 1 - x ^ 2) (-(2 * x)) x := by
    refine ((hasDerivAt_pow 2 x).const_sub 1).congr_deriv ?_
    simp
  refine (h1.mul (E.hf x)).congr_deriv ?_
  linear_combination E.ode1 x

theorem Extremum.umono (E : Extremum q f df ddf c X h e) {s t : ℝ} (h1 : X - h ≤ s) (h2 : t ≤ e) (hst : s < t) :
    (1 - s ^ 2) * f s < (1 - t ^ 2) * f t := by
  obtain ⟨ξ, hξ, hξ'⟩ := exists_hasDerivAt_eq_slope (fun x => (1 - x ^ 2) * f x) (fun x => c * q x) hst
    (fun x _ => (E.hu x).continuousAt.continuousWithinAt) (fun x _ => E.hu x)
  rw [eq_div_iff (by linarith)] at hξ'
  have : 0 < c * q ξ * (t - s) := mul_pos (mul_pos (by linarith [E.c12]) (E.qpos ξ (by linarith [hξ.1]) (by linarith [hξ.2])))
    (by linarith)
  linarith

/-- the extremum -/
theorem Extremum.root (E : Extremum q f df ddf c X h e) : ∃ ρ, X < ρ ∧ ρ < e ∧ f ρ = 0 := by
  obtain ⟨ξ, hξ, hξ'⟩ := exists_hasDerivAt_eq_slope q (fun x => -f x) E.Xe
    (fun x _ => (E.hq x).continuousAt.continuousWithinAt) (fun x _ => E.hq x)
  have hX := E.X0
  rw [E.qe, eq_div_iff (by linarith [E.Xe])] at hξ'
  have hq := E.qpos X (by linarith [E.h0]) E.Xe
  have hf : 0 < f ξ := by
    have : 0 < f ξ * (e - X) := by linarith
    exact (mul_pos_iff_of_pos_right (by linarith [E.Xe])).1 this
  have hfX : f X < 0 := by
    have hD : 0 < 1 - X ^ 2 := by nlinarith [E.Xe, E.e1]
    by_contra hle
    push Not at hle
    linarith [mul_nonneg hD.le hle, E.u2]
  obtain ⟨ρ, hρ, h0⟩ := intermediate_value_Ioo hξ.1.le (fun x _ => (E.hf x).continuousAt.continuousWithinAt)
    (show (0 : ℝ) ∈ Ioo (f X) (f ξ) from ⟨hfX, hf⟩)
  exact ⟨ρ, hρ.1, by linarith [hρ.2, hξ.2], h0⟩

theorem Extremum.D_pos (E : Extremum q f df ddf c X h e) {x : ℝ} (h1 : X - h ≤ x) (h2 : x ≤ e) : 0 < 1 - x ^ 2 := by
  nlinarith [E.ha, E.e1]

/-- left of the extremum -/
theorem Extremum.left (E : Extremum q f df ddf c X h e) {ρ : ℝ} (r1 : X < ρ) (r2 : ρ < e) (r0 : f ρ = 0) :
    c * (ρ - X) ≤ 0.77 * X ∧ 13.4 * X ^ 2 ≤ c * (1 - ρ ^ 2) ∧ q X ≤ q ρ ∧ q ρ ≤ 1.045 * q X ∧
    -(2.01 * X * q X) ≤ (1 - (X - h) ^ 2) * f (X - h) ∧ f (X - h) < 0 ∧
    0.5658 * (c * q X) ≤ (1 - (X - h) ^ 2) * df (X - h) ∧
    (∀ x ∈ Icc (X - h) ρ, 0 < df x) ∧ (∀ x ∈ Icc (X - h) ρ, f x ≤ 0) ∧ (∀ x ∈ Icc (X - h) ρ, q x ≤ q ρ) := by
  have hX := E.X0
  have hc := E.c12
  have hh := E.h0
  have ha := E.ha
  have hm := E.qpos X (by linarith) E.Xe
  have hD : ∀ x ∈ Icc (X - h) ρ, 0 < 1 - x ^ 2 := fun x hx => E.D_pos hx.1 (by linarith [hx.2])
  have hfneg : ∀ x ∈ Icc (X - h) ρ, f x ≤ 0 := by
    intro x hx
    rcases hx.2.lt_or_eq with hlt | rfl
    · have := E.umono hx.1 r2.le hlt
      rw [r0, mul_zero] at this
      by_contra hle
      push Not at hle
      linarith [mul_pos (hD x hx) hle]
    · exact r0.le
  have hqmono : ∀ s t, X - h ≤ s → s ≤ t → t ≤ ρ → q s ≤ q t := by
    intro s t h1 h2 h3
    rcases h2.lt_or_eq with hlt | rfl
    · obtain ⟨ξ, hξ, hξ'⟩ := exists_hasDerivAt_eq_slope q (fun x => -f x) hlt
        (fun x _ => (E.hq x).continuousAt.continuousWithinAt) (fun x _ => E.hq x)
      rw [eq_div_iff (by linarith)] at hξ'
      have := mul_nonneg (neg_nonneg.2 (hfneg ξ ⟨by linarith [hξ.1], by linarith [hξ.2]⟩)) (by linarith : 0 ≤ t - s)
      linarith
    · exact le_rfl
  have humono : ∀ s t, X - h ≤ s → s ≤ t → t ≤ ρ → (1 - s ^ 2) * f s ≤ (1 - t ^ 2) * f t := by
    intro s t h1 h2 h3
    rcases h2.lt_or_eq with hlt | rfl
    · exact (E.umono h1 (by linarith) hlt).le
    · exact le_rfl
  -- distance of the extremum
  have d1 : c * (ρ - X) ≤ 0.77 * X := by
    obtain ⟨ξ, hξ, hξ'⟩ := exists_hasDerivAt_eq_slope (fun x => (1 - x ^ 2) * f x) (fun x => c * q x) r1
      (fun x _ => (E.hu x).continuousAt.continuousWithinAt) (fun x _ => E.hu x)
    rw [eq_div_iff (by linarith), r0, mul_zero, zero_sub] at hξ'
    have e1 := hqmono X ξ (by linarith) hξ.1.le hξ.2.le
    have e2 : c * q X * (ρ - X) ≤ c * q ξ * (ρ - X) :=
      mul_le_mul_of_nonneg_right (mul_le_mul_of_nonneg_left e1 (by linarith)) (by linarith)
    have e3 : q X * (c * (ρ - X)) ≤ q X * (0.77 * X) := by linarith [E.u1]
    exact le_of_mul_le_mul_left e3 hm
  have hρ : ρ ≤ 1.065 * X := by
    have : 12 * (ρ - X) ≤ c * (ρ - X) := mul_le_mul_of_nonneg_right hc (by linarith)
    linarith
  have d2 : 13.4 * X ^ 2 ≤ c * (1 - ρ ^ 2) := by
    have e1 : c * (ρ - X) * (ρ + X) ≤ 0.77 * X * (ρ + X) := mul_le_mul_of_nonneg_right d1 (by linarith)
    have e2 : 0.77 * X * (ρ + X) ≤ 0.77 * X * (2.065 * X) := mul_le_mul_of_nonneg_left (by linarith) (by positivity)
    have := E.cD
    nlinarith
  have d3 : q ρ ≤ 1.045 * q X := by
    obtain ⟨ξ, hξ, hξ'⟩ := exists_hasDerivAt_eq_slope q (fun x => -f x) r1
      (fun x _ => (E.hq x).continuousAt.continuousWithinAt) (fun x _ => E.hq x)
    rw [eq_div_iff (by linarith)] at hξ'
    have hf := hfneg ξ ⟨by linarith [hξ.1], hξ.2.le⟩
    have hu := humono X ξ (by linarith) hξ.1.le hξ.2.le
    have hDD : 1 - ρ ^ 2 ≤ 1 - ξ ^ 2 := by nlinarith [hξ.1, hξ.2]
    have hv : -f ξ * (1 - ρ ^ 2) ≤ 0.77 * X * q X := by
      have : -f ξ * (1 - ρ ^ 2) ≤ -f ξ * (1 - ξ ^ 2) := mul_le_mul_of_nonneg_left hDD (by linarith)
      linarith [E.u1]
    have := gain hX d1 (by linarith) hv (by linarith) (by norm_num) (hD ρ ⟨by linarith, le_rfl⟩).le d2
    have e2 : 13.4 * (q ρ - q X) = 13.4 * ((ρ - X) * -f ξ) := by rw [← hξ']; ring
    linarith
  have d4 : -(2.01 * X * q X) ≤ (1 - (X - h) ^ 2) * f (X - h) := by
    obtain ⟨ξ, hξ, hξ'⟩ := exists_hasDerivAt_eq_slope (fun x => (1 - x ^ 2) * f x) (fun x => c * q x) (show X - h < X by linarith)
      (fun x _ => (E.hu x).continuousAt.continuousWithinAt) (fun x _ => E.hu x)
    rw [eq_div_iff (by linarith), sub_sub_cancel] at hξ'
    have e1 := hqmono ξ X hξ.1.le hξ.2.le r1.le
    have e2 : c * h * q ξ ≤ c * h * q X := mul_le_mul_of_nonneg_left e1 (mul_nonneg (by linarith) hh.le)
    have e3 : c * h * q X ≤ 1.24 * X * q X := mul_le_mul_of_nonneg_right E.ch hm.le
    linarith [E.u1]
  have d5 : 0.8338 * q X ≤ q (X - h) := by
    obtain ⟨ξ, hξ, hξ'⟩ := exists_hasDerivAt_eq_slope q (fun x => -f x) (show X - h < X by linarith)
      (fun x _ => (E.hq x).continuousAt.continuousWithinAt) (fun x _ => E.hq x)
    rw [eq_div_iff (by linarith), sub_sub_cancel] at hξ'
    have hf := hfneg ξ ⟨hξ.1.le, by linarith [hξ.2]⟩
    have hu := humono (X - h) ξ le_rfl hξ.1.le (by linarith [hξ.2])
    have hDD : 1 - X ^ 2 ≤ 1 - ξ ^ 2 := by nlinarith [hξ.1, hξ.2]
    have hv : -f ξ * (1 - X ^ 2) ≤ 2.01 * X * q X := by
      have : -f ξ * (1 - X ^ 2) ≤ -f ξ * (1 - ξ ^ 2) := mul_le_mul_of_nonneg_left hDD (by linarith)
      linarith
    have := gain hX E.ch hh.le hv (by linarith) (by norm_num) (hD X ⟨by linarith, r1.le⟩).le E.cD
    linarith
  have hfa : f (X - h) < 0 := by
    have := E.umono le_rfl r2.le (show X - h < ρ by linarith)
    rw [r0, mul_zero] at this
    by_contra hle
    push Not at hle
    linarith [mul_nonneg (hD (X - h) ⟨le_rfl, by linarith⟩).le hle]
  have hcm : 0 < c * q X := mul_pos (by linarith) hm
  have d6 : 0.5658 * (c * q X) ≤ (1 - (X - h) ^ 2) * df (X - h) := by
    rw [E.ode1]
    have hDD : 1 - X ^ 2 ≤ 1 - (X - h) ^ 2 := by nlinarith
    have hv : -f (X - h) * (1 - X ^ 2) ≤ 2.01 * X * q X := by
      have : -f (X - h) * (1 - X ^ 2) ≤ -f (X - h) * (1 - (X - h) ^ 2) := mul_le_mul_of_nonneg_left hDD (by linarith)
      linarith
    have := gain (A := c) hX (δ := X - h) (mul_le_mul_of_nonneg_left (by linarith) (by linarith)) ha hv (by linarith) (by linarith)
      (hD X ⟨by linarith, r1.le⟩).le E.cD
    have e2 : c * (0.8338 * q X) ≤ c * q (X - h) := mul_le_mul_of_nonneg_left d5 (by linarith)
    linarith
  refine ⟨d1, d2, hqmono X ρ (by linarith) r1.le le_rfl, d3, d4, hfa, d6, fun x hx => ?_, hfneg,
    fun x hx => hqmono x ρ hx.1 hx.2 le_rfl⟩
  have hDx := hD x hx
  have hf := hfneg x hx
  have hu := humono (X - h) x le_rfl hx.1 hx.2
  have hqx := hqmono (X - h) x le_rfl hx.1 hx.2
  have hDD : 1 - ρ ^ 2 ≤ 1 - x ^ 2 := by nlinarith [hx.1, hx.2]
  have hv : -f x * (1 - ρ ^ 2) ≤ 2.01 * X * q X := by
    have : -f x * (1 - ρ ^ 2) ≤ -f x * (1 - x ^ 2) := mul_le_mul_of_nonneg_left hDD (by linarith)
    linarith
  have := gain (A := c * 1.065) hX (δ := x) (by
    rw [mul_assoc]
    exact mul_le_mul_of_nonneg_left (by linarith [hx.2]) (by linarith)) (by linarith [hx.1]) hv (by linarith) (by linarith)
      (hD ρ ⟨by linarith, le_rfl⟩).le d2
  have e2 : c * (0.8338 * q X) ≤ c * q x := mul_le_mul_of_nonneg_left (by linarith) (by linarith)
  have e3 : 0 < (1 - x ^ 2) * df x := by
    rw [E.ode1]
    linarith
  exact (mul_pos_iff_of_pos_left hDx).1 e3

theorem overshoot {c X m M U G s δ : ℝ} (hm : 0 < m) (hG : 0.5658 * (c * m) ≤ G) (hU : U ≤ 2.01 * X * m) (hU0 : 0 ≤ U)
    (hs : s * G = U) (hs0 : 0 ≤ s) (hδ : U ≤ c * M * δ) (hM : M ≤ 1.045 * m) (hc : 0 ≤ c) (hδ0 : 0 ≤ δ) :
    c * (s - δ) ≤ 1.63 * X := by
  have e1 : s * (0.5658 * (c * m)) ≤ U := by
    rw [← hs]
    exact mul_le_mul_of_nonneg_left hG hs0
  have e2 : c * δ * M ≤ c * δ * (1.045 * m) := mul_le_mul_of_nonneg_left hM (mul_nonneg hc hδ0)
  have e3 : m * (c * (s - δ)) ≤ m * (1.63 * X) := by linarith
  exact le_of_mul_le_mul_left e3 hm

/-- the first step -/
theorem Extremum.first (E : Extremum q f df ddf c X h e) {ρ : ℝ} (r1 : X < ρ) (r2 : ρ < e) (r0 : f ρ = 0) :
    0 < df (X - h) ∧ ρ ≤ X - h - f (X - h) / df (X - h) ∧ c * (X - h - f (X - h) / df (X - h) - ρ) ≤ 1.63 * X := by
  obtain ⟨d1, d2, d3, d4, d5, d6, d7, d8, d9, d10⟩ := E.left r1 r2 r0
  have hX := E.X0
  have hc := E.c12
  have hh := E.h0
  have ha := E.ha
  have hm := E.qpos X (by linarith) E.Xe
  have hM := E.qpos ρ (by linarith) r2
  obtain ⟨a, hae⟩ : ∃ a, a = X - h := ⟨_, rfl⟩
  rw [← hae] at d5 d6 d7 d8 d9 d10 ha ⊢
  have hDa := E.D_pos (x := a) (by linarith) (by linarith)
  have hdfa := d8 a ⟨le_rfl, by linarith⟩
  obtain ⟨x1, hx1⟩ : ∃ x1, x1 = a - f a / df a := ⟨_, rfl⟩
  have hs : (x1 - a) * df a = -f a := by
    rw [hx1]
    field_simp
    ring
  have hs0 : 0 ≤ x1 - a := by
    have : 0 < (x1 - a) * df a := by rw [hs]; linarith
    exact ((mul_pos_iff_of_pos_right hdfa).1 this).le
  -- convex between the start and the extremum
  have hcv : MonotoneOn df (Icc a ρ) := by
    refine monotoneOn_of_deriv_nonneg (convex_Icc _ _) (fun t _ => (E.hdf t).continuousAt.continuousWithinAt)
      (fun t _ => (E.hdf t).differentiableAt.differentiableWithinAt) fun t ht => ?_
    have ht := interior_subset ht
    rw [(E.hdf t).deriv]
    have e1 := d8 t ht
    have e2 := d9 t ht
    have hD := E.D_pos (x := t) (by linarith [ht.1]) (by linarith [ht.2])
    have : 0 ≤ (1 - t ^ 2) * ddf t := by
      rw [E.ode2]
      have h1 : 0 ≤ t * df t := mul_nonneg (by linarith [ht.1]) e1.le
      have h2 : 0 ≤ (c - 2) * -f t := mul_nonneg (by linarith) (by linarith)
      linarith
    exact (mul_nonneg_iff_of_pos_left hD).1 this
  have hge : ρ ≤ x1 := by
    obtain ⟨ξ, hξ, hξ'⟩ := exists_hasDerivAt_eq_slope f df (show a < ρ by linarith)
      (fun x _ => (E.hf x).continuousAt.continuousWithinAt) (fun x _ => E.hf x)
    rw [eq_div_iff (by linarith), r0, zero_sub] at hξ'
    have e1 := hcv (left_mem_Icc.2 (by linarith)) ⟨hξ.1.le, hξ.2.le⟩ hξ.1.le
    have e2 : df a * (ρ - a) ≤ df ξ * (ρ - a) := mul_le_mul_of_nonneg_right e1 (by linarith)
    have e3 : df a * (ρ - a) ≤ df a * (x1 - a) := by linarith
    have := le_of_mul_le_mul_left e3 hdfa
    linarith
  -- how far the step goes
  have hov : c * (x1 - ρ) ≤ 1.63 * X := by
    obtain ⟨ξ, hξ, hξ'⟩ := exists_hasDerivAt_eq_slope (fun x => (1 - x ^ 2) * f x) (fun x => c * q x) (show a < ρ by linarith)
      (fun x _ => (E.hu x).continuousAt.continuousWithinAt) (fun x _ => E.hu x)
    rw [eq_div_iff (by linarith), r0, mul_zero, zero_sub] at hξ'
    have e1 := d10 ξ ⟨hξ.1.le, hξ.2.le⟩
    have e2 : c * q ξ * (ρ - a) ≤ c * q ρ * (ρ - a) :=
      mul_le_mul_of_nonneg_right (mul_le_mul_of_nonneg_left e1 (by linarith)) (by linarith)
    have := overshoot (c := c) (X := X) (m := q X) (M := q ρ) (U := -((1 - a ^ 2) * f a)) (G := (1 - a ^ 2) * df a) (s := x1 - a)
      (δ := ρ - a) hm d7 (by linarith) (by linarith [mul_pos hDa (by linarith : 0 < -f a)]) (by linear_combination (1 - a ^ 2) * hs)
      hs0 (by linarith) d4 (by linarith) (by linarith)
    rw [show x1 - a - (ρ - a) = x1 - ρ by ring] at this
    exact this
  rw [← hx1]
  exact ⟨hdfa, hge, hov⟩

/-- bounds right of the extremum -/
theorem Extremum.right (E : Extremum q f df ddf c X h e) {ρ x1 : ℝ} (r1 : X < ρ) (r2 : ρ < e) (r0 : f ρ = 0) (hge : ρ ≤ x1)
    (hov : c * (x1 - ρ) ≤ 1.63 * X) (d1 : c * (ρ - X) ≤ 0.77 * X) :
    (∀ x, ρ ≤ x → x ≤ x1 → x ≤ e → x ≤ 1.2 * X ∧ 9.72 * X ^ 2 ≤ c * (1 - x ^ 2)) ∧
    (∀ x, ρ ≤ x → x ≤ e → 0 ≤ f x) ∧ (∀ s t, ρ ≤ s → s ≤ t → t ≤ e → q t ≤ q s) ∧
    (∀ x, ρ ≤ x → x ≤ x1 → x ≤ e → (1 - x ^ 2) * f x ≤ 1.63 * X * q ρ) ∧
    (∀ x, ρ ≤ x → x ≤ x1 → x ≤ e → 0.7266 * q ρ ≤ q x) ∧ x1 < e := by
  have hX := E.X0
  have hc := E.c12
  have hh := E.h0
  have ha := E.ha
  have hM := E.qpos ρ (by linarith) r2
  have hR : ∀ x, ρ ≤ x → x ≤ x1 → x ≤ e → x ≤ 1.2 * X ∧ 9.72 * X ^ 2 ≤ c * (1 - x ^ 2) := by
    intro x h1 h2 h3
    have e1 : c * (x - X) ≤ 2.4 * X := by
      have : c * (x - ρ) ≤ c * (x1 - ρ) := mul_le_mul_of_nonneg_left (by linarith) (by linarith)
      linarith
    have e2 : 12 * (x - X) ≤ c * (x - X) := mul_le_mul_of_nonneg_right hc (by linarith)
    have e3 : x ≤ 1.2 * X := by linarith
    refine ⟨e3, ?_⟩
    have e4 : c * (x - X) * (x + X) ≤ 2.4 * X * (x + X) := mul_le_mul_of_nonneg_right e1 (by linarith)
    have e5 : 2.4 * X * (x + X) ≤ 2.4 * X * (2.2 * X) := mul_le_mul_of_nonneg_left (by linarith) (by positivity)
    have := E.cD
    nlinarith
  have hfpos : ∀ x, ρ ≤ x → x ≤ e → 0 ≤ f x := by
    intro x h1 h2
    rcases h1.lt_or_eq with hlt | rfl
    · have := E.umono (by linarith) h2 hlt
      rw [r0, mul_zero] at this
      exact ((mul_pos_iff_of_pos_left (E.D_pos (by linarith) h2)).1 this).le
    · exact r0.ge
  have hqa : ∀ s t, ρ ≤ s → s ≤ t → t ≤ e → q t ≤ q s := by
    intro s t h1 h2 h3
    rcases h2.lt_or_eq with hlt | rfl
    · obtain ⟨ξ, hξ, hξ'⟩ := exists_hasDerivAt_eq_slope q (fun x => -f x) hlt
        (fun x _ => (E.hq x).continuousAt.continuousWithinAt) (fun x _ => E.hq x)
      rw [eq_div_iff (by linarith)] at hξ'
      have := mul_nonneg (hfpos ξ (by linarith [hξ.1]) (by linarith [hξ.2])) (by linarith : 0 ≤ t - s)
      linarith
    · exact le_rfl
  have hub : ∀ x, ρ ≤ x → x ≤ x1 → x ≤ e → (1 - x ^ 2) * f x ≤ 1.63 * X * q ρ := by
    intro x h1 h2 h3
    rcases h1.lt_or_eq with hlt | rfl
    · obtain ⟨ξ, hξ, hξ'⟩ := exists_hasDerivAt_eq_slope (fun x => (1 - x ^ 2) * f x) (fun x => c * q x) hlt
        (fun x _ => (E.hu x).continuousAt.continuousWithinAt) (fun x _ => E.hu x)
      rw [eq_div_iff (by linarith), r0, mul_zero, sub_zero] at hξ'
      have e1 := hqa ρ ξ le_rfl hξ.1.le (by linarith [hξ.2])
      have e2 : c * (x - ρ) * q ξ ≤ c * (x - ρ) * q ρ := mul_le_mul_of_nonneg_left e1 (mul_nonneg (by linarith) (by linarith))
      have e3 : c * (x - ρ) ≤ 1.63 * X := by
        have : c * (x - ρ) ≤ c * (x1 - ρ) := mul_le_mul_of_nonneg_left (by linarith) (by linarith)
        linarith
      have e4 : c * (x - ρ) * q ρ ≤ 1.63 * X * q ρ := mul_le_mul_of_nonneg_right e3 hM.le
      linarith
    · rw [r0, mul_zero]
      positivity
  have hql : ∀ x, ρ ≤ x → x ≤ x1 → x ≤ e → 0.7266 * q ρ ≤ q x := by
    intro x h1 h2 h3
    rcases h1.lt_or_eq with hlt | rfl
    · obtain ⟨ξ, hξ, hξ'⟩ := exists_hasDerivAt_eq_slope q (fun x => -f x) hlt
        (fun x _ => (E.hq x).continuousAt.continuousWithinAt) (fun x _ => E.hq x)
      rw [eq_div_iff (by linarith)] at hξ'
      have hf := hfpos ξ hξ.1.le (by linarith [hξ.2])
      have hu := hub ξ hξ.1.le (by linarith [hξ.2]) (by linarith [hξ.2])
      have hDD : 1 - x ^ 2 ≤ 1 - ξ ^ 2 := by nlinarith [hξ.1, hξ.2]
      have hv : f ξ * (1 - x ^ 2) ≤ 1.63 * X * q ρ := by
        have : f ξ * (1 - x ^ 2) ≤ f ξ * (1 - ξ ^ 2) := mul_le_mul_of_nonneg_left hDD hf
        linarith
      have e3 : c * (x - ρ) ≤ 1.63 * X := by
        have : c * (x - ρ) ≤ c * (x1 - ρ) := mul_le_mul_of_nonneg_left (by linarith) (by linarith)
        linarith
      have := gain hX e3 (by linarith) hv hf (by norm_num) (E.D_pos (by linarith) h3).le (hR x h1 h2 h3).2
      linarith
    · linarith
  have hxe : x1 < e := by
    by_contra hle
    push Not at hle
    have := hql e r2.le hle le_rfl
    rw [E.qe] at this
    linarith
  exact ⟨hR, hfpos, hqa, hub, hql, hxe⟩

/-- after the first step -/
theorem Extremum.near (E : Extremum q f df ddf c X h e) : ∃ ρ, X < ρ ∧ ρ < e ∧ 0 < df (X - h) ∧
    X - h - f (X - h) / df (X - h) < e ∧ Near f df ρ (X - h - f (X - h) / df (X - h)) := by
  obtain ⟨ρ, r1, r2, r0⟩ := E.root
  obtain ⟨d1, -⟩ := E.left r1 r2 r0
  obtain ⟨hdfa, hge, hov⟩ := E.first r1 r2 r0
  obtain ⟨x1, hx1⟩ : ∃ x1, x1 = X - h - f (X - h) / df (X - h) := ⟨_, rfl⟩
  rw [← hx1] at hge hov
  obtain ⟨hR, hfpos, hqa, hub, hql, hxe⟩ := E.right r1 r2 r0 hge hov d1
  have hX := E.X0
  have hc := E.c12
  have hh := E.h0
  have ha := E.ha
  have hM := E.qpos ρ (by linarith) r2
  have hcpos : ∀ x ∈ Icc ρ x1, 0 < df x := by
    intro x hx
    have hD := E.D_pos (x := x) (by linarith [hx.1]) (by linarith [hx.2])
    have e1 := hql x hx.1 hx.2 (by linarith [hx.2])
    have e2 := hfpos x hx.1 (by linarith [hx.2])
    have : 0 < (1 - x ^ 2) * df x := by
      rw [E.ode1]
      have h1 : 0 ≤ x * f x := mul_nonneg (by linarith [hx.1]) e2
      have h2 : 0 < c * q x := mul_pos (by linarith) (by linarith)
      linarith
    exact (mul_pos_iff_of_pos_left hD).1 this
  have hmono : MonotoneOn df (Icc ρ x1) := by
    refine monotoneOn_of_deriv_nonneg (convex_Icc _ _) (fun t _ => (E.hdf t).continuousAt.continuousWithinAt)
      (fun t _ => (E.hdf t).differentiableAt.differentiableWithinAt) fun t ht => ?_
    have ht := interior_subset ht
    rw [(E.hdf t).deriv]
    have hD := E.D_pos (x := t) (by linarith [ht.1]) (by linarith [ht.2])
    have e1 := hql t ht.1 ht.2 (by linarith [ht.2])
    have e2 := hfpos t ht.1 (by linarith [ht.2])
    have e3 := hub t ht.1 ht.2 (by linarith [ht.2])
    have h1 : 0 ≤ (1 - t ^ 2) * ((1 - t ^ 2) * ddf t) := by
      rw [E.ode2]
      have h2 : X * (0.7266 * q ρ) ≤ t * q t := mul_le_mul (by linarith [ht.1]) e1 (by positivity) (by linarith [ht.1])
      have h3 : c * (X * (0.7266 * q ρ)) ≤ c * (t * q t) := mul_le_mul_of_nonneg_left h2 (by linarith)
      have h4 : (c - 2) * ((1 - t ^ 2) * f t) ≤ (c - 2) * (1.63 * X * q ρ) := mul_le_mul_of_nonneg_left e3 (by linarith)
      have h5 : 0 ≤ X * q ρ := by positivity
      have h6 : 0 ≤ c * (X * q ρ) := mul_nonneg (by linarith) h5
      have h7 : 0 ≤ t * (t * f t) := mul_nonneg (by linarith [ht.1]) (mul_nonneg (by linarith [ht.1]) e2)
      have h8 : (1 - t ^ 2) * (4 * t * df t - (c - 2) * f t) =
          8 * (t * (t * f t)) + 4 * (c * (t * q t)) - (c - 2) * ((1 - t ^ 2) * f t) := by
        linear_combination 4 * t * E.ode1 t
      rw [h8]
      linarith
    exact (mul_nonneg_iff_of_pos_left hD).1 ((mul_nonneg_iff_of_pos_left hD).1 h1)
  refine ⟨ρ, r1, r2, hdfa, by rw [← hx1]; exact hxe, ?_⟩
  rw [← hx1]
  refine ⟨hge, E.hf, r0, hcpos, hmono, ?_⟩
  obtain ⟨k1, k2⟩ := hR x1 hge le_rfl hxe.le
  have hD1 := E.D_pos (x := x1) (by linarith) hxe.le
  have f1 := hfpos x1 hge hxe.le
  have f2 := hub x1 hge le_rfl hxe.le
  have f3 := gain (A := c * 1.2) hX (δ := x1) (m := q ρ) (v := f x1) (B := 1.63) (by
    rw [mul_assoc]
    exact mul_le_mul_of_nonneg_left k1 (by linarith)) (by linarith) (by linarith) f1 (by linarith) hD1.le k2
  have f4 : c * q x1 ≤ c * q ρ := mul_le_mul_of_nonneg_left (hqa ρ x1 le_rfl hge hxe.le) (by linarith)
  have f5 : (1 - x1 ^ 2) * df x1 ≤ 1.4025 * (c * q ρ) := by
    rw [E.ode1]
    have : 0 < c * q ρ := mul_pos (by linarith) hM
    linarith
  have f6 : (1 - ρ ^ 2) * df ρ = c * q ρ := by rw [E.ode1, r0]; ring
  have hρX : ρ ≤ 1.07 * X := by
    have : 12 * (ρ - X) ≤ c * (ρ - X) := mul_le_mul_of_nonneg_right hc (by linarith)
    linarith
  have f7 : 1 - ρ ^ 2 ≤ 1.382 * (1 - x1 ^ 2) := by
    have g1 : c * (x1 - ρ) * (x1 + ρ) ≤ 1.63 * X * (x1 + ρ) := mul_le_mul_of_nonneg_right hov (by linarith)
    have g2 : 1.63 * X * (x1 + ρ) ≤ 1.63 * X * (2.27 * X) := mul_le_mul_of_nonneg_left (by linarith) (by positivity)
    have g3 : c * (1 - ρ ^ 2) ≤ c * (1.382 * (1 - x1 ^ 2)) := by nlinarith
    exact le_of_mul_le_mul_left g3 (by linarith)
  have hdρ := hcpos ρ ⟨le_rfl, hge⟩
  have f8 : (1 - ρ ^ 2) * df ρ ≤ 1.382 * (1 - x1 ^ 2) * df ρ := mul_le_mul_of_nonneg_right f7 hdρ.le
  have f9 : (1 - x1 ^ 2) * df x1 ≤ (1 - x1 ^ 2) * (2 * df ρ) := by
    have : 0 ≤ (1 - x1 ^ 2) * df ρ := mul_nonneg hD1.le hdρ.le
    linarith
  exact le_of_mul_le_mul_left f9 hD1

end LegendreZeros

end NuTo
