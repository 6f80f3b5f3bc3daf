/-
C38: the modified von Mises strain norm.
-/
import Verif.Props.Elastic
import Mathlib.Analysis.Calculus.LineDeriv.Basic
import Mathlib.Analysis.SpecialFunctions.Sqrt
import Mathlib.Analysis.Calculus.FDeriv.Pi
import Mathlib.Analysis.Calculus.FDeriv.Mul

namespace NuTo

set_option linter.unusedSectionVars false
set_option linter.unnecessarySeqFocus false

open StrainInvariants

/-- The parameters the norm is meant for. -/
structure MisesNorm.Admissible (nu k : ℝ) : Prop where
  lower : -1 < nu
  upper : nu < 1 / 2
  ratio : 1 ≤ k

section values

variable {nu k : ℝ} (h : MisesNorm.Admissible nu k) (ps : PlaneState)

include h

theorem MisesNorm.k2_pos : 0 < (MisesNorm.make nu k ps).k2 := by
  have h1 := h.lower
  have h3 := h.ratio
  have : 0 < 1 + nu := by linarith
  simp only [MisesNorm.make]
  positivity

theorem MisesNorm.radicand_nonneg (v : Fin 6 → ℝ) :
    ((MisesNorm.make nu k ps).k1 * I1 v) ^ 2 ≤ (MisesNorm.make nu k ps).k1 *
      (MisesNorm.make nu k ps).k1 * I1 v * I1 v + (MisesNorm.make nu k ps).k2 * J2 v := by
  have := mul_nonneg (MisesNorm.k2_pos h ps).le (C33_J2_nonneg v).1
  nlinarith

/-- C38: the norm is not negative. -/
theorem C38_nonneg (v : Fin 6 → ℝ) (e1 : Fin 1 → ℝ) (e2 : Fin 3 → ℝ) :
    0 ≤ (MisesNorm.make nu k ps).value3 v ∧ 0 ≤ (MisesNorm.make nu k ps).value1 e1 ∧
      0 ≤ (MisesNorm.make nu k ps).value2 e2 := by
  have key : ∀ v, 0 ≤ (MisesNorm.make nu k ps).value3 v := by
    intro v
    rw [MisesNorm.value3, MisesNorm.A]
    have h1 := Real.abs_le_sqrt (MisesNorm.radicand_nonneg h ps v)
    have h2 := neg_abs_le ((MisesNorm.make nu k ps).k1 * I1 v)
    linarith
  exact ⟨key v, key _, key _⟩

/-- C38: positive homogeneity. -/
theorem C38_homogeneous (c : ℝ) (hc : 0 ≤ c) (v : Fin 6 → ℝ) (e1 : Fin 1 → ℝ) (e2 : Fin 3 → ℝ) :
    (MisesNorm.make nu k ps).value3 (fun i => c * v i) = c * (MisesNorm.make nu k ps).value3 v ∧
    (MisesNorm.make nu k ps).value1 (fun i => c * e1 i) = c * (MisesNorm.make nu k ps).value1 e1 ∧
    (MisesNorm.make nu k ps).value2 (fun i => c * e2 i) =
      c * (MisesNorm.make nu k ps).value2 e2 := by
  have key : ∀ v, (MisesNorm.make nu k ps).value3 (fun i => c * v i) =
      c * (MisesNorm.make nu k ps).value3 v := by
    intro v
    have hI : I1 (fun i => c * v i) = c * I1 v := by simp only [I1]; ring
    have hJ : J2 (fun i => c * v i) = c * c * J2 v := by simp only [J2]; ring
    rw [MisesNorm.value3, MisesNorm.value3, MisesNorm.A, MisesNorm.A, hI, hJ]
    set m := MisesNorm.make nu k ps
    have : m.k1 * m.k1 * (c * I1 v) * (c * I1 v) + m.k2 * (c * c * J2 v) =
        c ^ 2 * (m.k1 * m.k1 * I1 v * I1 v + m.k2 * J2 v) := by ring
    rw [this, Real.sqrt_mul (sq_nonneg c), Real.sqrt_sq hc]
    ring
  refine ⟨key v, ?_, ?_⟩
  · rw [MisesNorm.value1, MisesNorm.value1, ← key]
    congr 1
    funext i
    fin_cases i <;> simp [MisesNorm.strain3D1] <;> ring
  · rw [MisesNorm.value2, MisesNorm.value2, ← key]
    congr 1
    funext i
    cases ps <;> fin_cases i <;> simp [MisesNorm.strain3D2, MisesNorm.make] <;> ring

/-- Uniaxial stress in `x` direction with axial strain `e`. -/
def uniaxial (nu e : ℝ) : Fin 6 → ℝ := ![e, -nu * e, -nu * e, 0, 0, 0]

theorem value_uniaxial (e : ℝ) : (MisesNorm.make nu k ps).value3 (uniaxial nu e) =
    (k - 1) / (2 * k) * e + (k + 1) / (2 * k) * |e| := by
  have h1 := h.lower
  have h2 := h.upper
  have h3 := h.ratio
  have hk : 0 < k := by linarith
  have hb : (1 - 2 * nu) ≠ 0 := by linarith
  have ha : (1 + nu) ≠ 0 := by linarith
  have hI : I1 (uniaxial nu e) = (1 - 2 * nu) * e := by simp [I1, uniaxial]; ring
  have hJ : J2 (uniaxial nu e) = 1 / 3 * ((1 + nu) * (1 + nu)) * e ^ 2 := by
    simp [J2, uniaxial]; ring
  have hk1 : (MisesNorm.make nu k ps).k1 * I1 (uniaxial nu e) = (k - 1) / (2 * k) * e := by
    rw [hI]
    simp only [MisesNorm.make]
    rw [div_mul_eq_mul_div, div_mul_eq_mul_div,
      div_eq_div_iff (mul_ne_zero (by positivity) hb) (by positivity)]
    ring
  have hk2 : (MisesNorm.make nu k ps).k2 * J2 (uniaxial nu e) = e ^ 2 / k := by
    rw [hJ]
    simp only [MisesNorm.make]
    have hka : k * (1 + nu) * (1 + nu) ≠ 0 := mul_ne_zero (mul_ne_zero hk.ne' ha) ha
    rw [div_mul_eq_mul_div, div_eq_div_iff hka hk.ne']
    ring
  rw [MisesNorm.value3, MisesNorm.A]
  have : (MisesNorm.make nu k ps).k1 * (MisesNorm.make nu k ps).k1 * I1 (uniaxial nu e) *
      I1 (uniaxial nu e) + (MisesNorm.make nu k ps).k2 * J2 (uniaxial nu e) =
      ((k + 1) / (2 * k) * e) ^ 2 := by
    rw [hk2]
    have e1 : (MisesNorm.make nu k ps).k1 * (MisesNorm.make nu k ps).k1 * I1 (uniaxial nu e) *
      I1 (uniaxial nu e) = ((MisesNorm.make nu k ps).k1 * I1 (uniaxial nu e)) ^ 2 := by ring
    rw [e1, hk1]
    have := hk.ne'
    field_simp
    ring
  rw [this, hk1, Real.sqrt_sq_eq_abs, abs_mul, abs_of_pos (show 0 < (k + 1) / (2 * k) by positivity)]

/-- C38: the norm is calibrated: uniaxial tension with strain `e` and uniaxial compression with
strain `k e` both have the norm `e` — in 3D, in 1D, and in plane stress. -/
theorem C38_calibrated (e : ℝ) (he : 0 ≤ e) :
    (MisesNorm.make nu k ps).value3 (uniaxial nu e) = e ∧
    (MisesNorm.make nu k ps).value3 (uniaxial nu (-(k * e))) = e ∧
    (MisesNorm.make nu k ps).value1 ![e] = e ∧ (MisesNorm.make nu k ps).value1 ![-(k * e)] = e ∧
    (MisesNorm.make nu k .planeStress).value2 ![e, -nu * e, 0] = e ∧
    (MisesNorm.make nu k .planeStress).value2 ![-(k * e), nu * (k * e), 0] = e := by
  have h3 := h.ratio
  have hk : 0 < k := by linarith
  have hnu : nu - 1 ≠ 0 := by have := h.upper; linarith
  have t : ∀ ps, (MisesNorm.make nu k ps).value3 (uniaxial nu e) = e := by
    intro ps
    rw [value_uniaxial h, abs_of_nonneg he]
    field_simp
    ring
  have c : ∀ ps, (MisesNorm.make nu k ps).value3 (uniaxial nu (-(k * e))) = e := by
    intro ps
    rw [value_uniaxial h, abs_neg, abs_of_nonneg (mul_nonneg hk.le he)]
    field_simp
    ring
  have e1 : ∀ x, MisesNorm.strain3D1 nu ![x] = uniaxial nu x := fun x => by
    simp [MisesNorm.strain3D1, uniaxial]
  have e2 : ∀ x, MisesNorm.strain3D2 nu .planeStress ![x, -nu * x, 0] = uniaxial nu x := by
    intro x
    have : nu / (nu - 1) * (x + -nu * x) = -nu * x := by
      rw [div_mul_eq_mul_div, div_eq_iff hnu]; ring
    simp only [MisesNorm.strain3D2, uniaxial, Matrix.cons_val_zero, Matrix.cons_val_one,
      Matrix.cons_val, this]
  refine ⟨t ps, c ps, ?_, ?_, ?_, ?_⟩
  · rw [MisesNorm.value1]; exact (congrArg _ (e1 e)).trans (t ps)
  · rw [MisesNorm.value1]; exact (congrArg _ (e1 _)).trans (c ps)
  · rw [MisesNorm.value2]; exact (congrArg _ (e2 e)).trans (t _)
  · have : ![-(k * e), nu * (k * e), 0] = ![-(k * e), -nu * (-(k * e)), 0] := by
      congr 2
      ring
    rw [this, MisesNorm.value2]
    exact (congrArg _ (e2 _)).trans (c _)

end values

/-! ### The derivative -/

/-- A function with the given partial derivatives along all lines that is differentiable has this
gradient. -/
theorem hasFDerivAt_of_lines {n : Nat} {f : (Fin n → ℝ) → ℝ} {x : Fin n → ℝ} {d : Fin n → ℝ}
    (hf : DifferentiableAt ℝ f x)
    (hl : ∀ h : Fin n → ℝ, HasDerivAt (fun t : ℝ => f (fun i => x i + t * h i)) (∑ i, d i * h i) 0) :
    HasFDerivAt f (∑ i, d i • (ContinuousLinearMap.proj i : (Fin n → ℝ) →L[ℝ] ℝ)) x := by
  have h : fderiv ℝ f x = ∑ i, d i • (ContinuousLinearMap.proj i : (Fin n → ℝ) →L[ℝ] ℝ) := by
    ext h
    have h1 : HasLineDerivAt ℝ f (fderiv ℝ f x h) x h := hf.hasFDerivAt.hasLineDerivAt h
    have h2 : HasLineDerivAt ℝ f (∑ i, d i * h i) x h := hl h
    rw [h1.unique h2]
    simp
  rw [← h]
  exact hf.hasFDerivAt

/-- The radicand along a line. -/
theorem value_line (m : MisesNorm) (v h : Fin 6 → ℝ) (hA : m.A v ≠ 0) :
    HasDerivAt (fun t : ℝ => m.value3 (fun i => v i + t * h i)) (∑ i, m.derivative3 v i * h i) 0 := by
  have hI : ∀ t : ℝ, I1 (fun i => v i + t * h i) = I1 v + t * I1 h := by
    intro t; simp only [I1]; ring
  set B : ℝ := 1 / 3 * (2 * v 0 - v 1 - v 2) * h 0 + 1 / 3 * (2 * v 1 - v 0 - v 2) * h 1 +
    1 / 3 * (2 * v 2 - v 0 - v 1) * h 2 + 1 / 2 * v 3 * h 3 + 1 / 2 * v 4 * h 4 + 1 / 2 * v 5 * h 5
    with hB
  have hJ : ∀ t : ℝ, J2 (fun i => v i + t * h i) = J2 v + t * B + t ^ 2 * J2 h := by
    intro t; simp only [J2, hB]; ring
  have hid := hasDerivAt_id (0 : ℝ)
  have h1 : HasDerivAt (fun t : ℝ => I1 v + t * I1 h) (I1 h) 0 := by
    have := (hid.mul_const (I1 h)).const_add (I1 v)
    simpa using this
  have h2 : HasDerivAt (fun t : ℝ => J2 v + t * B + t ^ 2 * J2 h) B 0 := by
    have a := (hid.mul_const B).const_add (J2 v)
    have b := (hid.pow 2).mul_const (J2 h)
    have := a.add b
    refine this.congr_deriv ?_
    simp
  have h3 : HasDerivAt (fun t : ℝ => m.k1 * m.k1 * (I1 v + t * I1 h) * (I1 v + t * I1 h) +
      m.k2 * (J2 v + t * B + t ^ 2 * J2 h)) (2 * (m.k1 * m.k1) * I1 v * I1 h + m.k2 * B) 0 := by
    have a := ((h1.const_mul (m.k1 * m.k1)).mul h1).add (h2.const_mul m.k2)
    refine a.congr_deriv ?_
    simp
    ring
  have hpos : m.k1 * m.k1 * I1 v * I1 v + m.k2 * J2 v ≠ 0 := by
    intro h0
    rw [MisesNorm.A, h0, Real.sqrt_zero] at hA
    exact hA rfl
  have h4 := h3.sqrt (by simpa using hpos)
  have h5 := (h1.const_mul m.k1).add h4
  have hfun : (fun t : ℝ => m.value3 (fun i => v i + t * h i)) = fun t : ℝ =>
      m.k1 * (I1 v + t * I1 h) + Real.sqrt (m.k1 * m.k1 * (I1 v + t * I1 h) * (I1 v + t * I1 h) +
        m.k2 * (J2 v + t * B + t ^ 2 * J2 h)) := by
    funext t
    rw [MisesNorm.value3, MisesNorm.A, hI, hJ]
  rw [hfun]
  refine h5.congr_deriv ?_
  simp only [zero_mul, add_zero, ne_eq, OfNat.ofNat_ne_zero, not_false_eq_true, zero_pow]
  have hAdef : Real.sqrt (m.k1 * m.k1 * I1 v * I1 v + m.k2 * J2 v) = m.A v := rfl
  rw [hAdef, MisesNorm.derivative3]
  simp only [if_neg hA]
  rw [Fin.sum_univ_six]
  simp only [Matrix.cons_val_zero, Matrix.cons_val_one, Matrix.cons_val]
  simp only [I1, hB]
  field_simp
  ring

theorem value3_differentiable (m : MisesNorm) (v : Fin 6 → ℝ) (hA : m.A v ≠ 0) :
    DifferentiableAt ℝ m.value3 v := by
  have hpos : m.k1 * m.k1 * I1 v * I1 v + m.k2 * J2 v ≠ 0 := by
    intro h0
    rw [MisesNorm.A, h0, Real.sqrt_zero] at hA
    exact hA rfl
  have hI : Differentiable ℝ (fun w : Fin 6 → ℝ => I1 w) := by
    unfold I1
    fun_prop
  have hJ : Differentiable ℝ (fun w : Fin 6 → ℝ => J2 w) := by
    simp only [J2]
    fun_prop
  unfold MisesNorm.value3 MisesNorm.A
  refine DifferentiableAt.add (by fun_prop) (DifferentiableAt.sqrt (by fun_prop) hpos)

/-- C38: `Derivative` is the gradient of `Value` in 3D wherever the root is not zero. -/
theorem C38_derivative3 (m : MisesNorm) (v : Fin 6 → ℝ) (hA : m.A v ≠ 0) :
    HasFDerivAt m.value3
      (∑ i, m.derivative3 v i • (ContinuousLinearMap.proj i : (Fin 6 → ℝ) →L[ℝ] ℝ)) v :=
  hasFDerivAt_of_lines (value3_differentiable m v hA) (fun h => value_line m v h hA)

/-- C38: `Derivative` is the gradient of `Value` in 1D. -/
theorem C38_derivative1 (m : MisesNorm) (e : Fin 1 → ℝ)
    (hA : m.A (MisesNorm.strain3D1 m.nu e) ≠ 0) :
    HasFDerivAt m.value1
      (∑ i, m.derivative1 e i • (ContinuousLinearMap.proj i : (Fin 1 → ℝ) →L[ℝ] ℝ)) e := by
  refine hasFDerivAt_of_lines ?_ fun h => ?_
  · have h1 : DifferentiableAt ℝ (MisesNorm.strain3D1 m.nu) e := by
      rw [differentiableAt_pi]
      intro i
      fin_cases i <;> simp [MisesNorm.strain3D1] <;> fun_prop
    exact (value3_differentiable m _ hA).comp e h1
  · have h1 := value_line m (MisesNorm.strain3D1 m.nu e) (MisesNorm.strain3D1 m.nu h) hA
    have hfun : (fun t : ℝ => m.value1 (fun i => e i + t * h i)) = fun t : ℝ =>
        m.value3 (fun i => MisesNorm.strain3D1 m.nu e i + t * MisesNorm.strain3D1 m.nu h i) := by
      funext t
      rw [MisesNorm.value1]
      congr 1
      funext i
      fin_cases i <;> simp [MisesNorm.strain3D1] <;> ring
    rw [hfun]
    refine h1.congr_deriv ?_
    rw [MisesNorm.derivative3, MisesNorm.derivative1]
    simp only [if_neg hA]
    rw [Fin.sum_univ_six, Fin.sum_univ_one]
    simp only [Matrix.cons_val_zero, Matrix.cons_val_one, Matrix.cons_val, MisesNorm.strain3D1, I1]
    field_simp
    ring

/-- C38: `Derivative` is the gradient of `Value` in 2D, for both plane states. -/
theorem C38_derivative2 (m : MisesNorm) (hnu : m.nu ≠ 1) (e : Fin 3 → ℝ)
    (hA : m.A (MisesNorm.strain3D2 m.nu m.planeState e) ≠ 0) :
    HasFDerivAt m.value2
      (∑ i, m.derivative2 e i • (ContinuousLinearMap.proj i : (Fin 3 → ℝ) →L[ℝ] ℝ)) e := by
  have hnu' : m.nu - 1 ≠ 0 := sub_ne_zero.2 hnu
  refine hasFDerivAt_of_lines ?_ fun h => ?_
  · have h1 : DifferentiableAt ℝ (MisesNorm.strain3D2 m.nu m.planeState) e := by
      rw [differentiableAt_pi]
      intro i
      cases m.planeState <;> fin_cases i <;> simp [MisesNorm.strain3D2] <;> fun_prop
    exact (value3_differentiable m _ hA).comp e h1
  · have h1 := value_line m (MisesNorm.strain3D2 m.nu m.planeState e)
      (MisesNorm.strain3D2 m.nu m.planeState h) hA
    have hfun : (fun t : ℝ => m.value2 (fun i => e i + t * h i)) = fun t : ℝ =>
        m.value3 (fun i => MisesNorm.strain3D2 m.nu m.planeState e i +
          t * MisesNorm.strain3D2 m.nu m.planeState h i) := by
      funext t
      rw [MisesNorm.value2]
      congr 1
      funext i
      cases m.planeState <;> fin_cases i <;> simp [MisesNorm.strain3D2] <;> ring
    rw [hfun]
    refine h1.congr_deriv ?_
    rw [MisesNorm.derivative3, MisesNorm.derivative2]
    simp only [if_neg hA]
    rw [Fin.sum_univ_six, Fin.sum_univ_three]
    obtain ⟨nu, k, ps, k1, k2⟩ := m
    cases ps
    · dsimp only at *
      obtain ⟨z, hz⟩ : ∃ z, nu / (nu - 1) = z := ⟨_, rfl⟩
      have hz2 : 2 * nu / (nu - 1) = 2 * z := by rw [← hz]; ring
      simp only [Matrix.cons_val_zero, Matrix.cons_val_one, Matrix.cons_val, MisesNorm.strain3D2, I1,
        hz, hz2] at *
      field_simp
      ring
    · dsimp only at *
      simp only [Matrix.cons_val_zero, Matrix.cons_val_one, Matrix.cons_val, MisesNorm.strain3D2, I1]
        at *
      field_simp
      ring

/-- C38: the strains without a gradient: only the zero strain for `k > 1`, the volumetric strains
for `k = 1`. -/
theorem C38_singular {nu k : ℝ} (h : MisesNorm.Admissible nu k) (ps : PlaneState) (v : Fin 6 → ℝ) :
    (MisesNorm.make nu k ps).A v = 0 ↔ J2 v = 0 ∧ (1 < k → I1 v = 0) := by
  have hk2 := MisesNorm.k2_pos h ps
  have hJ := (C33_J2_nonneg v).1
  have h2 := h.upper
  have h3 := h.ratio
  have hk1 : (MisesNorm.make nu k ps).k1 = (k - 1) / (2 * k * (1 - 2 * nu)) := rfl
  have hsq : 0 ≤ (MisesNorm.make nu k ps).k1 * (MisesNorm.make nu k ps).k1 * I1 v * I1 v := by
    have : (MisesNorm.make nu k ps).k1 * (MisesNorm.make nu k ps).k1 * I1 v * I1 v =
      ((MisesNorm.make nu k ps).k1 * I1 v) ^ 2 := by ring
    rw [this]; positivity
  have hmul := mul_nonneg hk2.le hJ
  rw [MisesNorm.A, Real.sqrt_eq_zero (by linarith)]
  constructor
  · intro h0
    have z1 : (MisesNorm.make nu k ps).k2 * J2 v = 0 := by linarith
    have z2 : ((MisesNorm.make nu k ps).k1 * I1 v) ^ 2 = 0 := by
      have : (MisesNorm.make nu k ps).k1 * (MisesNorm.make nu k ps).k1 * I1 v * I1 v =
        ((MisesNorm.make nu k ps).k1 * I1 v) ^ 2 := by ring
      linarith
    refine ⟨(mul_eq_zero.1 z1).resolve_left hk2.ne', fun hk => ?_⟩
    have z3 := pow_eq_zero_iff two_ne_zero |>.1 z2
    refine (mul_eq_zero.1 z3).resolve_left ?_
    rw [hk1]
    have hb : 0 < 1 - 2 * nu := by linarith
    have : 0 < k - 1 := by linarith
    positivity
  · rintro ⟨hJ0, hI⟩
    rw [hJ0]
    rcases h3.lt_or_eq with hk | hk
    · rw [hI hk]; ring
    · rw [hk1, ← hk]; ring

/-- C38: with an explicit plane state the constructor from material parameters evaluates the
completed strain of this plane state. -/
theorem C38_plane_state_partial (m : Softening ℝ) (ps : PlaneState) (e : Fin 3 → ℝ) :
    (MisesNorm.ofSoftening m ps).value2 e =
      (MisesNorm.make m.nu (m.fc / m.ft) ps).value3 (match ps with
        | .planeStrain => ![e 0, e 1, 0, 0, 0, e 2]
        | .planeStress => ![e 0, e 1, m.nu / (m.nu - 1) * (e 0 + e 1), 0, 0, e 2]) := by
  cases ps <;> rfl

/-- C38 fails for the plane state of the material: a plane stress material (default argument, as
used by `LocalIsotropicDamage` and `GradientDamage`) is evaluated with the plane strain completion
and uniaxial tension is not calibrated. -/
theorem C38_plane_state_counterexample :
    ∃ m : Softening ℝ, m.planeState = .planeStress ∧ MisesNorm.Admissible m.nu (m.fc / m.ft) ∧
      (MisesNorm.ofSoftening m).value2 ![1, -m.nu, 0] ≠ 1 ∧
      (MisesNorm.ofSoftening m m.planeState).value2 ![1, -m.nu, 0] = 1 := by
  have hadm : MisesNorm.Admissible (1 / 5) (40 / 4) := ⟨by norm_num, by norm_num, by norm_num⟩
  refine ⟨{ E := 30000, nu := 1 / 5, ft := 4, fc := 40, gf := 1 / 10, c := 1, fMin := 4 / 100,
            planeState := .planeStress }, rfl, hadm, ?_, ?_⟩
  · intro h
    have h' : (MisesNorm.make (1 / 5) (40 / 4)).k1 * I1 ![1, -(1 / 5 : ℝ), 0, 0, 0, 0] +
        Real.sqrt ((MisesNorm.make (1 / 5) (40 / 4)).k1 * (MisesNorm.make (1 / 5) (40 / 4)).k1 *
          I1 ![1, -(1 / 5 : ℝ), 0, 0, 0, 0] * I1 ![1, -(1 / 5 : ℝ), 0, 0, 0, 0] +
          (MisesNorm.make (1 / 5) (40 / 4)).k2 * J2 ![1, -(1 / 5 : ℝ), 0, 0, 0, 0]) = 1 := h
    have hI : I1 ![1, -(1 / 5 : ℝ), 0, 0, 0, 0] = 4 / 5 := by simp [I1]; norm_num
    have hJ : J2 ![1, -(1 / 5 : ℝ), 0, 0, 0, 0] = 31 / 75 := by simp [J2]; norm_num
    have hk1 : (MisesNorm.make (1 / 5) (40 / 4)).k1 = 3 / 4 := by
      simp only [MisesNorm.make]; norm_num
    have hk2 : (MisesNorm.make (1 / 5) (40 / 4)).k2 = 5 / 24 := by
      simp only [MisesNorm.make]; norm_num
    rw [hI, hJ, hk1, hk2] at h'
    have hs : Real.sqrt (3 / 4 * (3 / 4) * (4 / 5) * (4 / 5) + 5 / 24 * (31 / 75)) = 2 / 5 := by
      linarith
    have := Real.sq_sqrt (show (0 : ℝ) ≤ 3 / 4 * (3 / 4) * (4 / 5) * (4 / 5) + 5 / 24 * (31 / 75) by
      norm_num)
    rw [hs] at this
    norm_num at this
  · have h := (C38_calibrated hadm .planeStress 1 zero_le_one).2.2.2.2.1
    have e : ![1, -(1 / 5 : ℝ), 0] = ![1, -(1 / 5 : ℝ) * 1, 0] := by rw [mul_one]
    exact (congrArg _ e).trans h

example : MisesNorm.Admissible (1 / 5) 10 ∧
    (MisesNorm.make (1 / 5) 10).A ![1, 0, 0, 0, 0, 0] ≠ 0 := by
  have hadm : MisesNorm.Admissible (1 / 5) 10 := ⟨by norm_num, by norm_num, by norm_num⟩
  refine ⟨hadm, fun h => ?_⟩
  have := ((C38_singular hadm _ _).1 h).2 (by norm_num)
  simp [I1] at this

end NuTo
