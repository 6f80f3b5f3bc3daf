/-
C61: the softening laws dissipate the fracture energy parameter.
-/
import Verif.Props.DamageLaws
import Mathlib.MeasureTheory.Integral.IntegralEqImproper
import Mathlib.Analysis.SpecialFunctions.Integrals.Basic

namespace NuTo

open Set Filter Topology MeasureTheory

/-- The uniaxial stress `(1 - ω(κ)) E κ` under monotonic loading. -/
noncomputable def uniaxialStress (l : DamageLaw) (E k : ℝ) : ℝ := (1 - l.damage k) * E * k

/-- C61: the area under the softening branch of the exponential law above the residual strength
is `gf (1 - fMin / ft)`, so it is `gf` without residual strength; the stress tends to the residual
strength. -/
theorem C61_exponential (m : Softening ℝ) (hE : 0 < m.E) (hft : 0 < m.ft) (hgf : 0 < m.gf) :
    ∫ k in Ioi (m.ft / m.E), (uniaxialStress (DamageLaw.exponentialOf m) m.E k - m.fMin) =
      m.gf * (1 - m.fMin / m.ft) ∧
    uniaxialStress (DamageLaw.exponentialOf m) m.E (m.ft / m.E) = m.ft ∧
    Tendsto (uniaxialStress (DamageLaw.exponentialOf m) m.E) atTop (𝓝 m.fMin) := by
  have hk0 : 0 < m.ft / m.E := by positivity
  have hb : 0 < m.ft / m.gf := by positivity
  have hcurve : ∀ k, m.ft / m.E ≤ k → uniaxialStress (DamageLaw.exponentialOf m) m.E k =
      m.fMin + (m.ft - m.fMin) * Real.exp (m.ft / m.gf * (m.ft / m.E - k)) := by
    intro k hk
    rw [uniaxialStress, DamageLaw.exponentialOf, (C37_softening_curve m.E (m.ft / m.E)
      (m.ft / m.gf) (1 - m.fMin / m.ft) (m.ft / m.E + 1) 0 k hk0 (by linarith) hk).1,
      mul_div_cancel₀ _ hE.ne']
    field_simp
    ring
  have htend : Tendsto (fun k : ℝ => Real.exp (m.ft / m.gf * (m.ft / m.E - k))) atTop (𝓝 0) := by
    apply Real.tendsto_exp_atBot.comp
    apply Tendsto.const_mul_atBot hb
    exact tendsto_const_nhds.add_atBot tendsto_neg_atTop_atBot
  refine ⟨?_, ?_, ?_⟩
  · have h1 : ∫ k in Ioi (m.ft / m.E), (uniaxialStress (DamageLaw.exponentialOf m) m.E k - m.fMin) =
        ∫ k in Ioi (m.ft / m.E),
          (m.ft - m.fMin) * Real.exp (m.ft / m.gf * (m.ft / m.E - k)) := by
      refine setIntegral_congr_fun measurableSet_Ioi fun k hk => ?_
      rw [hcurve k (le_of_lt hk)]
      ring
    rw [h1]
    set G : ℝ → ℝ := fun k => -(m.ft - m.fMin) * (m.gf / m.ft) *
      Real.exp (m.ft / m.gf * (m.ft / m.E - k))
    have hG : ∀ k, HasDerivAt G
        ((m.ft - m.fMin) * Real.exp (m.ft / m.gf * (m.ft / m.E - k))) k := by
      intro k
      have h3 : HasDerivAt (fun x : ℝ => m.ft / m.gf * (m.ft / m.E - x)) (m.ft / m.gf * -1) k :=
        ((hasDerivAt_id k).const_sub (m.ft / m.E)).const_mul (m.ft / m.gf)
      refine (h3.exp.const_mul (-(m.ft - m.fMin) * (m.gf / m.ft))).congr_deriv ?_
      field_simp
    have hGlim : Tendsto G atTop (𝓝 0) := by
      have := htend.const_mul (-(m.ft - m.fMin) * (m.gf / m.ft))
      rwa [mul_zero] at this
    have hint : IntegrableOn
        (fun k => (m.ft - m.fMin) * Real.exp (m.ft / m.gf * (m.ft / m.E - k)))
        (Ioi (m.ft / m.E)) := by
      apply Integrable.const_mul
      have h0 := integrableOn_Ioi_deriv_of_nonneg' (a := m.ft / m.E)
        (g := fun k => -(m.gf / m.ft) * Real.exp (m.ft / m.gf * (m.ft / m.E - k)))
        (g' := fun k => Real.exp (m.ft / m.gf * (m.ft / m.E - k))) (l := 0)
        (fun k _ => by
          have h3 : HasDerivAt (fun x : ℝ => m.ft / m.gf * (m.ft / m.E - x)) (m.ft / m.gf * -1) k :=
            ((hasDerivAt_id k).const_sub (m.ft / m.E)).const_mul (m.ft / m.gf)
          refine (h3.exp.const_mul (-(m.gf / m.ft))).congr_deriv ?_
          field_simp)
        (fun k _ => (Real.exp_pos _).le)
        (by
          have := htend.const_mul (-(m.gf / m.ft))
          rwa [mul_zero] at this)
      exact h0
    rw [integral_Ioi_of_hasDerivAt_of_tendsto' (fun k _ => hG k) hint hGlim]
    simp only [G, sub_self, mul_zero, Real.exp_zero]
    field_simp
    ring
  · rw [hcurve _ le_rfl]
    simp
  · have h : (fun k => m.fMin + (m.ft - m.fMin) *
        Real.exp (m.ft / m.gf * (m.ft / m.E - k))) =ᶠ[atTop]
        uniaxialStress (DamageLaw.exponentialOf m) m.E := by
      filter_upwards [eventually_ge_atTop (m.ft / m.E)] with k hk
      rw [hcurve k hk]
    refine Tendsto.congr' h ?_
    have := (htend.const_mul (m.ft - m.fMin)).const_add m.fMin
    rwa [mul_zero, add_zero] at this

/-- C61: without residual strength the area under the softening branch of the linear law is
`gf`, and the stress vanishes from the end of this branch on. -/
theorem C61_linear (m : Softening ℝ) (hE : 0 < m.E) (hft : 0 < m.ft) (hgf : 0 < m.gf)
    (hmin : m.fMin = 0) :
    ∫ k in (m.ft / m.E)..(m.ft / m.E + 2 * m.gf / m.ft),
      uniaxialStress (DamageLaw.linearOf m) m.E k = m.gf ∧
    uniaxialStress (DamageLaw.linearOf m) m.E (m.ft / m.E) = m.ft ∧
    ∀ k, m.ft / m.E + 2 * m.gf / m.ft ≤ k → uniaxialStress (DamageLaw.linearOf m) m.E k = 0 := by
  have hk0 : 0 < m.ft / m.E := by positivity
  have hlen : 0 < 2 * m.gf / m.ft := by positivity
  set k0 := m.ft / m.E with hk0def
  set L := 2 * m.gf / m.ft with hL
  have hdam : ∀ k, k0 ≤ k → (DamageLaw.linearOf m).damage k =
      min ((k0 + L) / k * (k - k0) / (k0 + L - k0)) 1 := by
    intro k hk
    simp only [DamageLaw.linearOf, DamageLaw.linear, hmin, zero_div, sub_zero]
    rw [if_neg (not_lt.2 hk)]
  have hle : ∀ k, k0 ≤ k → ((k0 + L) / k * (k - k0) / (k0 + L - k0) ≤ 1 ↔ k ≤ k0 + L) := by
    intro k hk
    have hkpos : 0 < k := hk0.trans_le hk
    rw [add_sub_cancel_left, div_le_one hlen, div_mul_eq_mul_div, div_le_iff₀ hkpos]
    constructor
    · intro h
      have h' : k0 * k ≤ k0 * (k0 + L) := by nlinarith
      exact le_of_mul_le_mul_left h' hk0
    · intro h
      have h' : k0 * k ≤ k0 * (k0 + L) := mul_le_mul_of_nonneg_left h hk0.le
      nlinarith
  have hcurve : ∀ k, k0 ≤ k → k ≤ k0 + L →
      uniaxialStress (DamageLaw.linearOf m) m.E k = m.ft * ((k0 + L - k) / L) := by
    intro k hk hk'
    have hkpos : k ≠ 0 := (hk0.trans_le hk).ne'
    have hEk : m.E * k0 = m.ft := by rw [hk0def]; field_simp
    rw [uniaxialStress, hdam k hk, min_eq_left ((hle k hk).2 hk'), add_sub_cancel_left, ← hEk]
    have := hlen.ne'
    field_simp
    ring
  refine ⟨?_, ?_, ?_⟩
  · have h1 : ∫ k in k0..(k0 + L), uniaxialStress (DamageLaw.linearOf m) m.E k =
        ∫ k in k0..(k0 + L), m.ft * ((k0 + L - k) / L) := by
      refine intervalIntegral.integral_congr fun k hk => ?_
      rw [uIcc_of_le (by linarith)] at hk
      exact hcurve k hk.1 hk.2
    rw [h1]
    have hG : ∀ k ∈ uIcc k0 (k0 + L), HasDerivAt (fun x => -(m.ft / L / 2) * (k0 + L - x) ^ 2)
        (m.ft * ((k0 + L - k) / L)) k := by
      intro k _
      have h2 := (((hasDerivAt_id k).const_sub (k0 + L)).pow 2).const_mul (-(m.ft / L / 2))
      refine h2.congr_deriv ?_
      simp only [id]
      push_cast
      ring
    rw [intervalIntegral.integral_eq_sub_of_hasDerivAt hG (by
      apply Continuous.intervalIntegrable
      fun_prop)]
    have : L ≠ 0 := hlen.ne'
    have e : m.ft * L = 2 * m.gf := by rw [hL]; field_simp
    rw [sub_self, add_sub_cancel_left]
    field_simp
    linear_combination L * e
  · rw [hcurve k0 le_rfl (by linarith), add_sub_cancel_left, div_self hlen.ne', mul_one]
  · intro k hk
    have hk' : k0 ≤ k := by linarith
    have hge : 1 ≤ (k0 + L) / k * (k - k0) / (k0 + L - k0) := by
      rcases hk.lt_or_eq with h | h
      · exact (not_le.1 (fun h' => not_le.2 h ((hle k hk').1 h'))).le
      · rw [← h, div_self (by positivity), add_sub_cancel_left, one_mul, div_self hlen.ne']
    rw [uniaxialStress, hdam k hk', min_eq_right hge]
    ring

/-- The concrete of the tests meets the hypotheses of `C61_exponential` and, without residual
strength, of `C61_linear`. -/
example : ∃ m : Softening ℝ, 0 < m.E ∧ 0 < m.ft ∧ 0 < m.gf ∧ m.fMin = 0 ∧ m.fc = 40 :=
  ⟨{ E := 30000, nu := 1 / 5, ft := 4, fc := 40, gf := 1 / 50, c := 1, fMin := 0,
     planeState := .planeStrain }, by norm_num, by norm_num, by norm_num, rfl, rfl⟩

end NuTo
