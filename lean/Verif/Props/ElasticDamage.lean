/-
C35: the elastic damage law.
-/
import Verif.Props.Elastic

namespace NuTo

set_option linter.unusedSectionVars false

open LinearElastic

variable {K : Type} [Field K] [LinearOrder K] [IsStrictOrderedRing K]

/-- C35: without damage the law is `LinearElastic`, in all dimensions and plane states. -/
theorem C35_no_damage (E nu : K) (h1 : -1 < nu) (h2 : nu < 1 / 2) (app : DamageApplication)
    (ps : PlaneState) :
    (∀ e, (LinearElasticDamage.make 1 1 E nu app ps).stress e 0 = stress (calculateC1 E) e) ∧
    (∀ e, (LinearElasticDamage.make 2 3 E nu app ps).stress e 0 = stress (calculateC2 E nu ps) e) ∧
    (∀ e, (LinearElasticDamage.make 3 6 E nu app ps).stress e 0 = stress (calculateC3 E nu) e) := by
  have ha : (1 + nu) ≠ 0 := by linarith
  have hb : (1 - 2 * nu) ≠ 0 := by linarith
  have hc : (1 - nu) ≠ 0 := by linarith
  have hc' : (nu - 1) ≠ 0 := by linarith
  have hd : 1 - nu * nu ≠ 0 := by
    have : 1 - nu * nu = (1 + nu) * (1 - nu) := by ring
    rw [this]; exact mul_ne_zero ha hc
  obtain ⟨f, hf⟩ : ∃ f, E / ((1 + nu) * (1 - 2 * nu)) = f := ⟨_, rfl⟩
  obtain ⟨g, hg⟩ : ∃ g, E / (2 * (1 + nu)) = g := ⟨_, rfl⟩
  obtain ⟨q, hq⟩ : ∃ q, E / (1 - nu * nu) = q := ⟨_, rfl⟩
  have hf' : f * ((1 + nu) * (1 - 2 * nu)) = E := by
    rw [← hf, div_mul_cancel₀ _ (mul_ne_zero ha hb)]
  have hg' : g * (2 * (1 + nu)) = E := by
    rw [← hg, div_mul_cancel₀ _ (mul_ne_zero two_ne_zero ha)]
  have hq' : q * (1 - nu * nu) = E := by rw [← hq, div_mul_cancel₀ _ hd]
  have h3K : 3 * E / (3 - 6 * nu) = f * (1 + nu) := by
    rw [div_eq_iff (by linarith)]
    linear_combination -3 * hf'
  have h2G : 2 * E / (2 + 2 * nu) = 2 * g := by
    rw [div_eq_iff (by intro h; exact ha (by linarith))]
    linear_combination -2 * hg'
  have h2G' : 2 * g = f * (1 - 2 * nu) := by
    apply mul_left_cancel₀ ha
    linear_combination hg' - hf'
  have hqf : q * (1 - nu) = f * (1 - 2 * nu) := by
    apply mul_left_cancel₀ ha
    linear_combination hq' - hf'
  refine ⟨fun e => ?_, fun e => ?_, fun e => ?_⟩
  · ext i
    fin_cases i
    simp [LinearElasticDamage.stress, LinearElasticDamage.make, LinearElasticDamage.volumetric,
      stress, calculateC1, Matrix.mulVec, dotProduct]
    ring
  · cases ps
    · obtain ⟨z, hz⟩ : ∃ z, nu / (nu - 1) = z := ⟨_, rfl⟩
      have hz' : z * (nu - 1) = nu := by rw [← hz, div_mul_cancel₀ _ hc']
      rw [stress2_stress E nu e q hq]
      ext i
      fin_cases i <;>
        simp [LinearElasticDamage.stress, LinearElasticDamage.make, LinearElasticDamage.volumetric,
          Fin.sum_univ_three, h3K, h2G, hz]
      · apply mul_left_cancel₀ hc
        linear_combination (e 0 + nu * e 1) * (-hqf) + (e 0 * (1 - nu) - (e 0 + e 1) * (1 - nu) *
          (1 + z) / 3) * h2G' - f * nu * (e 0 + e 1) * hz'
      · apply mul_left_cancel₀ hc
        linear_combination (nu * e 0 + e 1) * (-hqf) + (e 1 * (1 - nu) - (e 0 + e 1) * (1 - nu) *
          (1 + z) / 3) * h2G' - f * nu * (e 0 + e 1) * hz'
      · left
        linear_combination (1 / 2) * h2G' - (1 / 2) * hqf
    · rw [stress2_strain E nu e f g hf hg]
      ext i
      fin_cases i <;>
        simp [LinearElasticDamage.stress, LinearElasticDamage.make, LinearElasticDamage.volumetric,
          Fin.sum_univ_three, h3K, h2G]
      · linear_combination (e 0 - (e 0 + e 1) / 3) * h2G'
      · linear_combination (e 1 - (e 0 + e 1) / 3) * h2G'
      · left; ring
  · rw [stress3 E nu e f g hf hg]
    ext i
    fin_cases i <;>
      simp [LinearElasticDamage.stress, LinearElasticDamage.make, LinearElasticDamage.volumetric,
        Fin.sum_univ_six, h3K, h2G]
    · linear_combination (e 0 - (e 0 + e 1 + e 2) / 3) * h2G'
    · linear_combination (e 1 - (e 0 + e 1 + e 2) / 3) * h2G'
    · linear_combination (e 2 - (e 0 + e 1 + e 2) / 3) * h2G'
    · left; ring
    · left; ring
    · left; ring

/-- The tangent of the damage law applied to a strain increment. -/
theorem tangent_apply {n : Nat} (dim : Nat) (E nu omega : K) (app : DamageApplication)
    (ps : PlaneState) (e d : Fin n → K) (i : Fin n) :
    let l := LinearElasticDamage.make dim n E nu app ps
    ∑ j, l.dStressDStrain e omega i j * d j =
      l.mD i * ((1 - omega * l.H (l.volumetric e)) * l.m3K * l.volumetric d) +
      (1 - omega) * l.m2G * l.mPinvDiag i * (d i - l.mD i * l.volumetric d) := by
  intro l
  have hIv : ∀ j, l.mIv i j = 1 / 3 * l.mD i * l.mD2 j := fun j => rfl
  have hId : ∀ j, l.mPinvId i j = l.mPinvDiag i * ((if i = j then 1 else 0) - l.mIv i j) :=
    fun j => rfl
  have hsum : ∑ j, l.mD2 j * d j = 3 * l.volumetric d := by
    rw [LinearElasticDamage.volumetric]; ring
  have hdi : ∑ j, (if i = j then (1 : K) else 0) * d j = d i := by simp
  have : ∀ j, l.dStressDStrain e omega i j * d j =
      (l.m3K * (1 - omega * l.H (l.volumetric e)) * (1 / 3 * l.mD i) -
        (1 - omega) * l.m2G * l.mPinvDiag i * (1 / 3 * l.mD i)) * (l.mD2 j * d j) +
      (1 - omega) * l.m2G * l.mPinvDiag i * ((if i = j then (1 : K) else 0) * d j) := by
    intro j
    rw [LinearElasticDamage.dStressDStrain]
    dsimp only
    rw [hId, hIv]
    ring
  simp only [this]
  rw [Finset.sum_add_distrib, ← Finset.mul_sum, ← Finset.mul_sum, hsum, hdi]
  ring

/-- C35: the tangent with respect to the strain applied to the strain gives the stress. -/
theorem C35_tangent {n : Nat} (dim : Nat) (E nu omega : K) (app : DamageApplication)
    (ps : PlaneState) (e : Fin n → K) :
    ((LinearElasticDamage.make dim n E nu app ps).dStressDStrain e omega).mulVec e =
      (LinearElasticDamage.make dim n E nu app ps).stress e omega := by
  ext i
  exact tangent_apply dim E nu omega app ps e e i

theorem volumetric_sub {n : Nat} (l : LinearElasticDamage K n) (e d : Fin n → K) :
    l.volumetric (fun i => d i - e i) = l.volumetric d - l.volumetric e := by
  simp only [LinearElasticDamage.volumetric, mul_sub, Finset.sum_sub_distrib]

/-- C35: the tangent is the exact slope of the stress between all strains with the same sign of
the volumetric strain, and everywhere for full damage. -/
theorem C35_tangent_exact {n : Nat} (dim : Nat) (E nu omega : K) (app : DamageApplication)
    (ps : PlaneState) (e d : Fin n → K)
    (hsign : app = .unilateral →
      ((LinearElasticDamage.make dim n E nu app ps).volumetric e < 0 ↔
       (LinearElasticDamage.make dim n E nu app ps).volumetric d < 0)) :
    ((LinearElasticDamage.make dim n E nu app ps).dStressDStrain e omega).mulVec
        (fun i => d i - e i) =
      fun i => (LinearElasticDamage.make dim n E nu app ps).stress d omega i -
        (LinearElasticDamage.make dim n E nu app ps).stress e omega i := by
  ext i
  refine (tangent_apply dim E nu omega app ps e (fun i => d i - e i) i).trans ?_
  set l := LinearElasticDamage.make dim n E nu app ps with hl
  have happ : l.application = app := rfl
  have hH : l.H (l.volumetric d) = l.H (l.volumetric e) := by
    rw [LinearElasticDamage.H, LinearElasticDamage.H, happ]
    by_cases h : app = .unilateral
    · simp only [if_pos h, hsign h]
    · simp only [if_neg h]
  rw [volumetric_sub, LinearElasticDamage.stress, LinearElasticDamage.stress]
  dsimp only
  rw [hH]
  ring

/-- C35: the stress is affine in the damage with slope `DstressDomega`. -/
theorem C35_affine {n : Nat} (l : LinearElasticDamage K n) (e : Fin n → K) (omega omega' : K) :
    (fun i => l.stress e omega' i - l.stress e omega i) =
      fun i => (omega' - omega) * l.dStressDOmega e i := by
  ext i
  rw [LinearElasticDamage.stress, LinearElasticDamage.stress, LinearElasticDamage.dStressDOmega]
  ring

/-- C35: full damage scales the stress by `1 - ω`. -/
theorem C35_full {n : Nat} (dim : Nat) (E nu omega : K) (ps : PlaneState) (e : Fin n → K) :
    (LinearElasticDamage.make dim n E nu .full ps).stress e omega =
      fun i => (1 - omega) * (LinearElasticDamage.make dim n E nu .full ps).stress e 0 i := by
  ext i
  simp only [LinearElasticDamage.stress]
  have : ∀ x, (LinearElasticDamage.make dim n E nu .full ps).H x = 1 := fun x => rfl
  rw [this]
  ring

/-- C35: in 3D, volumetric compression is not degraded by unilateral damage; everything else is
scaled by `1 - ω`. -/
theorem C35_unilateral (E nu omega : K) (ps : PlaneState) (app : DamageApplication)
    (e : Fin 6 → K) :
    let s := (LinearElasticDamage.make 3 6 E nu app ps).stress e omega
    let s0 := (LinearElasticDamage.make 3 6 E nu app ps).stress e 0
    s 0 + s 1 + s 2 = (if app = .unilateral ∧ e 0 + e 1 + e 2 < 0 then 1 else 1 - omega) *
      (s0 0 + s0 1 + s0 2) ∧
    (∀ i j : Fin 6, i < 3 → j < 3 → s i - s j = (1 - omega) * (s0 i - s0 j)) ∧
    ∀ i : Fin 6, 3 ≤ i → s i = (1 - omega) * s0 i := by
  intro s s0
  set l := LinearElasticDamage.make 3 6 E nu app ps with hl
  have hv : l.volumetric e = 1 / 3 * (e 0 + e 1 + e 2) := by
    simp [l, LinearElasticDamage.volumetric, LinearElasticDamage.make, Fin.sum_univ_six]
  have hH : l.H (l.volumetric e) = if app = .unilateral ∧ e 0 + e 1 + e 2 < 0 then 0 else 1 := by
    rw [LinearElasticDamage.H, show l.application = app from rfl, hv]
    have : (1 / 3 * (e 0 + e 1 + e 2) < 0) ↔ e 0 + e 1 + e 2 < 0 := by
      constructor <;> intro h <;> linarith
    rw [if_congr this rfl rfl]
    by_cases h1 : app = .unilateral <;> by_cases h2 : e 0 + e 1 + e 2 < 0 <;> simp [h1, h2]
  have hd : ∀ i : Fin 6, i < 3 → l.mD i = 1 ∧ l.mPinvDiag i = 1 := by
    intro i hi
    fin_cases i <;> simp_all [l, LinearElasticDamage.make]
  have hd' : ∀ i : Fin 6, 3 ≤ i → l.mD i = 0 ∧ l.mPinvDiag i = 1 / 2 := by
    intro i hi
    fin_cases i <;> simp_all [l, LinearElasticDamage.make]
  have hs : ∀ i : Fin 6, s i =
      l.mD i * ((1 - omega * l.H (l.volumetric e)) * l.m3K * l.volumetric e) +
        (1 - omega) * l.m2G * l.mPinvDiag i * (e i - l.mD i * l.volumetric e) := fun i => rfl
  have hs0 : ∀ i : Fin 6, s0 i =
      l.mD i * ((1 - 0 * l.H (l.volumetric e)) * l.m3K * l.volumetric e) +
        (1 - 0) * l.m2G * l.mPinvDiag i * (e i - l.mD i * l.volumetric e) := fun i => rfl
  refine ⟨?_, ?_, ?_⟩
  · simp only [hs, hs0, (hd 0 (by decide)).1, (hd 0 (by decide)).2, (hd 1 (by decide)).1,
      (hd 1 (by decide)).2, (hd 2 (by decide)).1, (hd 2 (by decide)).2]
    rw [hH, hv]
    split <;> ring
  · intro i j hi hj
    simp only [hs, hs0, (hd i hi).1, (hd i hi).2, (hd j hj).1, (hd j hj).2]
    ring
  · intro i hi
    simp only [hs, hs0, (hd' i hi).1, (hd' i hi).2]
    ring

example : ∃ e d : Fin 6 → ℚ, e ≠ d ∧
    (((LinearElasticDamage.make 3 6 (30000 : ℚ) (1 / 5) .unilateral .planeStrain).volumetric e < 0) ↔
      ((LinearElasticDamage.make 3 6 (30000 : ℚ) (1 / 5) .unilateral .planeStrain).volumetric d < 0)) :=
  ⟨![-1, 0, 0, 0, 0, 0], ![-2, 1 / 2, 0, 0, 3, 0], by decide +kernel, by decide +kernel⟩

end NuTo
