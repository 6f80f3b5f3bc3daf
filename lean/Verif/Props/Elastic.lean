/-
C33, C34, C35: strain invariants, linear elasticity and the elastic damage law.
-/
import Verif.Model.Constitutive
import Mathlib.LinearAlgebra.Matrix.Charpoly.Basic
import Mathlib.Algebra.BigOperators.Fin
import Mathlib.Tactic.FieldSimp
import Mathlib.Tactic.Ring
import Mathlib.Tactic.Linarith
import Mathlib.Tactic.FinCases
import Mathlib.Tactic.Positivity
import Mathlib.Tactic.LinearCombination

namespace NuTo

open Polynomial

/-! ### C33 -/

section C33

open StrainInvariants

variable {K : Type} [Field K] [CharZero K]

/-- C33: `I1, I2, I3` are the coefficients of the characteristic polynomial of the strain
tensor. -/
theorem C33_characteristic (v : Fin 6 → K) :
    (toTensor v).charpoly = X ^ 3 - C (I1 v) * X ^ 2 + C (I2 v) * X - C (I3 v) := by
  rw [Matrix.charpoly, Matrix.det_fin_three]
  simp only [Matrix.charmatrix_apply, toTensor, Matrix.of_apply, Matrix.cons_val', Matrix.cons_val,
    Matrix.cons_val_zero, Matrix.cons_val_one, Matrix.diagonal_apply]
  simp only [Fin.isValue, if_true, reduceIte, Fin.reduceEq, zero_sub]
  have hh : (C (1 / 2 : K) : K[X]) * C (1 / 2) = C (1 / 4) := by rw [← C_mul]; norm_num
  have hh3 : (C (1 / 2 : K) : K[X]) * C (1 / 2) * C (1 / 2) * 2 = C (1 / 4) := by
    rw [← C_mul, ← C_mul, show (2 : K[X]) = C 2 from rfl, ← C_mul]
    norm_num
  simp only [I1, I2, I3, C_add, C_sub, C_mul]
  linear_combination (X * (- C (v 3) ^ 2 - C (v 4) ^ 2 - C (v 5) ^ 2) + C (v 5) ^ 2 * C (v 2) +
    C (v 3) ^ 2 * C (v 0) + C (v 4) ^ 2 * C (v 1)) * hh - C (v 3) * C (v 4) * C (v 5) * hh3

/-- C33: `Deviatoric` removes exactly the volumetric part of the tensor. -/
theorem C33_deviatoric (v : Fin 6 → K) :
    I1 (deviatoric v) = 0 ∧
    toTensor (deviatoric v) = toTensor v - ((toTensor v).trace / 3) • (1 : Matrix (Fin 3) (Fin 3) K) := by
  refine ⟨?_, ?_⟩
  · simp [I1, deviatoric]
    ring
  · ext i j
    fin_cases i <;> fin_cases j <;> simp [toTensor, deviatoric, Matrix.trace_fin_three, I1]

/-- C33: `J2` is (minus) the second invariant of the deviator, half of its squared norm, and the
characteristic polynomial of the deviator is `λ³ - J2 λ - det`. -/
theorem C33_J2 (v : Fin 6 → K) :
    J2 v = -I2 (deviatoric v) ∧
    J2 v = 1 / 2 * ∑ i, ∑ j, toTensor (deviatoric v) i j * toTensor (deviatoric v) i j ∧
    (toTensor (deviatoric v)).charpoly = X ^ 3 - C (J2 v) * X - C (I3 (deviatoric v)) := by
  have h : J2 v = -I2 (deviatoric v) := by
    simp [J2, I2, deviatoric, I1]
    ring
  refine ⟨h, ?_, ?_⟩
  · rw [Fin.sum_univ_three]
    simp only [Fin.sum_univ_three]
    simp [toTensor, J2, deviatoric, I1]
    ring
  · rw [C33_characteristic, (C33_deviatoric v).1, h]
    simp

end C33

/-- C33: `J2` is not negative and vanishes exactly for volumetric strains. -/
theorem C33_J2_nonneg {K : Type} [Field K] [LinearOrder K] [IsStrictOrderedRing K]
    (v : Fin 6 → K) :
    0 ≤ StrainInvariants.J2 v ∧
    (StrainInvariants.J2 v = 0 ↔ v 0 = v 1 ∧ v 1 = v 2 ∧ v 3 = 0 ∧ v 4 = 0 ∧ v 5 = 0) := by
  have e : StrainInvariants.J2 v = 1 / 6 * ((v 0 - v 1) ^ 2 + (v 1 - v 2) ^ 2 + (v 2 - v 0) ^ 2) +
      1 / 4 * (v 5 ^ 2 + v 3 ^ 2 + v 4 ^ 2) := by
    simp only [StrainInvariants.J2]
    ring
  have h1 := sq_nonneg (v 0 - v 1)
  have h2 := sq_nonneg (v 1 - v 2)
  have h3 := sq_nonneg (v 2 - v 0)
  have h4 := sq_nonneg (v 3)
  have h5 := sq_nonneg (v 4)
  have h6 := sq_nonneg (v 5)
  refine ⟨by rw [e]; positivity, fun h => ?_, fun ⟨a, b, c, d, f⟩ => ?_⟩
  · rw [e] at h
    have z1 : (v 0 - v 1) ^ 2 = 0 := by linarith
    have z2 : (v 1 - v 2) ^ 2 = 0 := by linarith
    have z3 : v 3 ^ 2 = 0 := by linarith
    have z4 : v 4 ^ 2 = 0 := by linarith
    have z5 : v 5 ^ 2 = 0 := by linarith
    exact ⟨sub_eq_zero.1 (pow_eq_zero_iff two_ne_zero |>.1 z1),
      sub_eq_zero.1 (pow_eq_zero_iff two_ne_zero |>.1 z2),
      pow_eq_zero_iff two_ne_zero |>.1 z3, pow_eq_zero_iff two_ne_zero |>.1 z4,
      pow_eq_zero_iff two_ne_zero |>.1 z5⟩
  · rw [e, a, b, c, d, f]
    ring

/-! ### C34 -/

section C34

set_option linter.unusedSectionVars false

open LinearElastic

variable {K : Type} [Field K] [LinearOrder K] [IsStrictOrderedRing K]

/-- C34: symmetry. -/
theorem C34_symmetric (E nu : K) (ps : PlaneState) :
    (calculateC1 E).IsSymm ∧ (calculateC2 E nu ps).IsSymm ∧ (calculateC3 E nu).IsSymm := by
  refine ⟨?_, ?_, ?_⟩ <;> ext i j
  · fin_cases i; fin_cases j; rfl
  · fin_cases i <;> fin_cases j <;> rfl
  · fin_cases i <;> fin_cases j <;> rfl

/-- The elastic energy `εᵀ C ε`. -/
def energy {n : Nat} (C : Matrix (Fin n) (Fin n) K) (e : Fin n → K) : K :=
  ∑ i, e i * stress C e i

/-- C34: the stiffness is positive definite. -/
theorem C34_positive (E nu : K) (ps : PlaneState) (hE : 0 < E) (h1 : -1 < nu) (h2 : nu < 1 / 2) :
    (∀ e, e ≠ 0 → 0 < energy (calculateC1 E) e) ∧
    (∀ e, e ≠ 0 → 0 < energy (calculateC2 E nu ps) e) ∧
    (∀ e, e ≠ 0 → 0 < energy (calculateC3 E nu) e) := by
  have ha : 0 < 1 + nu := by linarith
  have hb : 0 < 1 - 2 * nu := by linarith
  have hc : 0 < 1 - nu := by linarith
  have hd : 0 < 1 - nu * nu := by
    have : 1 - nu * nu = (1 + nu) * (1 - nu) := by ring
    rw [this]; positivity
  have pos2 : ∀ a b g x y z : K, 0 < a + b → 0 < a - b → 0 < g → ¬(x = 0 ∧ y = 0 ∧ z = 0) →
      0 < x * (a * x + b * y) + y * (b * x + a * y) + z * (g * z) := by
    intro a b g x y z h1 h2 h3 h0
    have e : x * (a * x + b * y) + y * (b * x + a * y) + z * (g * z) =
        (a + b) * ((x + y) ^ 2 / 2) + (a - b) * ((x - y) ^ 2 / 2) + g * z ^ 2 := by ring
    rw [e]
    have p1 : 0 ≤ (a + b) * ((x + y) ^ 2 / 2) := by positivity
    have p2 : 0 ≤ (a - b) * ((x - y) ^ 2 / 2) := by positivity
    have p3 : 0 ≤ g * z ^ 2 := by positivity
    by_contra hcon
    have z1 : (a + b) * ((x + y) ^ 2 / 2) = 0 := by linarith
    have z2 : (a - b) * ((x - y) ^ 2 / 2) = 0 := by linarith
    have z3 : g * z ^ 2 = 0 := by linarith
    have q1 : x + y = 0 := by
      rcases mul_eq_zero.1 z1 with h | h
      · exact absurd h h1.ne'
      · exact pow_eq_zero_iff two_ne_zero |>.1 (by linarith)
    have q2 : x - y = 0 := by
      rcases mul_eq_zero.1 z2 with h | h
      · exact absurd h h2.ne'
      · exact pow_eq_zero_iff two_ne_zero |>.1 (by linarith)
    have q3 : z = 0 := by
      rcases mul_eq_zero.1 z3 with h | h
      · exact absurd h h3.ne'
      · exact pow_eq_zero_iff two_ne_zero |>.1 h
    exact h0 ⟨by linarith, by linarith, q3⟩
  refine ⟨fun e he => ?_, fun e he => ?_, fun e he => ?_⟩
  · have h0 : e 0 ≠ 0 := by
      intro h
      apply he
      ext i
      fin_cases i
      exact h
    have : energy (calculateC1 E) e = E * (e 0 * e 0) := by
      simp [energy, stress, calculateC1, Matrix.mulVec, dotProduct]
      ring
    rw [this]
    have := mul_self_pos.2 h0
    positivity
  · have h0 : ¬(e 0 = 0 ∧ e 1 = 0 ∧ e 2 = 0) := by
      rintro ⟨a, b, c⟩
      apply he
      ext i
      fin_cases i
      · exact a
      · exact b
      · exact c
    have key : ∀ c11 c12 c33 : K, ∑ i, e i * stress !![c11, c12, 0; c12, c11, 0; 0, 0, c33] e i =
        e 0 * (c11 * e 0 + c12 * e 1) + e 1 * (c12 * e 0 + c11 * e 1) + e 2 * (c33 * e 2) := by
      intro c11 c12 c33
      simp [Fin.sum_univ_three, stress, Matrix.mulVec, dotProduct]
    rw [energy, calculateC2, key]
    cases ps
    · rw [if_pos rfl, coefficients2DPlaneStress]
      dsimp only
      refine pos2 _ _ _ _ _ _ ?_ ?_ ?_ h0
      · have : E / (1 - nu * nu) + E / (1 - nu * nu) * nu = E / (1 - nu * nu) * (1 + nu) := by ring
        rw [this]; positivity
      · have : E / (1 - nu * nu) - E / (1 - nu * nu) * nu = E / (1 - nu * nu) * (1 - nu) := by ring
        rw [this]; positivity
      · positivity
    · rw [if_neg (by decide), coefficients3D]
      dsimp only
      refine pos2 _ _ _ _ _ _ ?_ ?_ ?_ h0
      · have : E / ((1 + nu) * (1 - 2 * nu)) * (1 - nu) + E / ((1 + nu) * (1 - 2 * nu)) * nu =
          E / ((1 + nu) * (1 - 2 * nu)) := by ring
        rw [this]; positivity
      · have : E / ((1 + nu) * (1 - 2 * nu)) * (1 - nu) - E / ((1 + nu) * (1 - 2 * nu)) * nu =
          E / ((1 + nu) * (1 - 2 * nu)) * (1 - 2 * nu) := by ring
        rw [this]; positivity
      · positivity
  · set f := E / ((1 + nu) * (1 - 2 * nu)) with hf
    have hfpos : 0 < f := by rw [hf]; positivity
    set g := E / (2 * (1 + nu)) with hg
    have hgpos : 0 < g := by rw [hg]; positivity
    have key : energy (calculateC3 E nu) e =
        f * (1 + nu) * ((e 0 + e 1 + e 2) ^ 2 / 3) +
        f * (1 - 2 * nu) * (((e 0 - e 1) ^ 2 + (e 1 - e 2) ^ 2 + (e 2 - e 0) ^ 2) / 3) +
        g * (e 3 ^ 2 + e 4 ^ 2 + e 5 ^ 2) := by
      simp [energy, calculateC3, coefficients3D, Fin.sum_univ_six, stress, Matrix.mulVec,
        dotProduct, ← hf, ← hg]
      ring
    rw [key]
    have p1 : 0 ≤ f * (1 + nu) * ((e 0 + e 1 + e 2) ^ 2 / 3) := by positivity
    have p2 : 0 ≤ f * (1 - 2 * nu) *
      (((e 0 - e 1) ^ 2 + (e 1 - e 2) ^ 2 + (e 2 - e 0) ^ 2) / 3) := by positivity
    have p3 : 0 ≤ g * (e 3 ^ 2 + e 4 ^ 2 + e 5 ^ 2) := by positivity
    by_contra hcon
    have z1 : f * (1 + nu) * ((e 0 + e 1 + e 2) ^ 2 / 3) = 0 := by linarith
    have z2 : f * (1 - 2 * nu) *
      (((e 0 - e 1) ^ 2 + (e 1 - e 2) ^ 2 + (e 2 - e 0) ^ 2) / 3) = 0 := by linarith
    have z3 : g * (e 3 ^ 2 + e 4 ^ 2 + e 5 ^ 2) = 0 := by linarith
    have q1 : (e 0 + e 1 + e 2) ^ 2 = 0 := by
      rcases mul_eq_zero.1 z1 with h | h
      · exact absurd h (by positivity)
      · linarith
    have q2 : (e 0 - e 1) ^ 2 + (e 1 - e 2) ^ 2 + (e 2 - e 0) ^ 2 = 0 := by
      rcases mul_eq_zero.1 z2 with h | h
      · exact absurd h (by positivity)
      · linarith
    have q3 : e 3 ^ 2 + e 4 ^ 2 + e 5 ^ 2 = 0 := by
      rcases mul_eq_zero.1 z3 with h | h
      · exact absurd h hgpos.ne'
      · exact h
    have r1 : e 0 + e 1 + e 2 = 0 := pow_eq_zero_iff two_ne_zero |>.1 q1
    have n1 := sq_nonneg (e 0 - e 1)
    have n2 := sq_nonneg (e 1 - e 2)
    have n3 := sq_nonneg (e 2 - e 0)
    have m1 := sq_nonneg (e 3)
    have m2 := sq_nonneg (e 4)
    have m3 := sq_nonneg (e 5)
    have r2 : e 0 - e 1 = 0 := pow_eq_zero_iff two_ne_zero |>.1 (by linarith)
    have r3 : e 1 - e 2 = 0 := pow_eq_zero_iff two_ne_zero |>.1 (by linarith)
    have s1 : e 3 = 0 := pow_eq_zero_iff two_ne_zero |>.1 (by linarith)
    have s2 : e 4 = 0 := pow_eq_zero_iff two_ne_zero |>.1 (by linarith)
    have s3 : e 5 = 0 := pow_eq_zero_iff two_ne_zero |>.1 (by linarith)
    apply he
    ext i
    fin_cases i <;> simp only [Pi.zero_apply]
    · show e 0 = 0; linarith
    · show e 1 = 0; linarith
    · show e 2 = 0; linarith
    · exact s1
    · exact s2
    · exact s3

theorem stress3 (E nu : K) (e : Fin 6 → K) (f g : K) (hf : E / ((1 + nu) * (1 - 2 * nu)) = f)
    (hg : E / (2 * (1 + nu)) = g) : stress (calculateC3 E nu) e =
      ![f * (1 - nu) * e 0 + f * nu * e 1 + f * nu * e 2,
        f * nu * e 0 + f * (1 - nu) * e 1 + f * nu * e 2,
        f * nu * e 0 + f * nu * e 1 + f * (1 - nu) * e 2, g * e 3, g * e 4, g * e 5] := by
  subst hf hg
  ext i
  fin_cases i <;>
    simp [stress, calculateC3, coefficients3D, Matrix.mulVec, dotProduct, Fin.sum_univ_six]

theorem stress2_stress (E nu : K) (e : Fin 3 → K) (q : K) (hq : E / (1 - nu * nu) = q) :
    stress (calculateC2 E nu .planeStress) e =
      ![q * e 0 + q * nu * e 1, q * nu * e 0 + q * e 1, q * (1 / 2) * (1 - nu) * e 2] := by
  subst hq
  ext i
  fin_cases i <;>
    simp [stress, calculateC2, coefficients2DPlaneStress, Matrix.mulVec, dotProduct,
      Fin.sum_univ_three]

theorem stress2_strain (E nu : K) (e : Fin 3 → K) (f g : K)
    (hf : E / ((1 + nu) * (1 - 2 * nu)) = f) (hg : E / (2 * (1 + nu)) = g) :
    stress (calculateC2 E nu .planeStrain) e =
      ![f * (1 - nu) * e 0 + f * nu * e 1, f * nu * e 0 + f * (1 - nu) * e 1, g * e 2] := by
  subst hf hg
  ext i
  fin_cases i <;>
    simp [stress, calculateC2, coefficients3D, Matrix.mulVec, dotProduct, Fin.sum_univ_three]

/-- C34: plane strain is the 3D law with vanishing out-of-plane strains. -/
theorem C34_plane_strain (E nu : K) (e : Fin 3 → K) :
    let s := stress (calculateC3 E nu) ![e 0, e 1, 0, 0, 0, e 2]
    stress (calculateC2 E nu .planeStrain) e = ![s 0, s 1, s 5] ∧ s 3 = 0 ∧ s 4 = 0 := by
  intro s
  have hs : s = _ := stress3 E nu _ _ _ rfl rfl
  rw [hs, stress2_strain E nu e _ _ rfl rfl]
  refine ⟨?_, ?_, ?_⟩
  · ext i
    fin_cases i <;> simp
  · simp
  · simp

/-- C34: plane stress is the 3D law with the out-of-plane strain that makes the out-of-plane
stress vanish; this strain is unique. -/
theorem C34_plane_stress (E nu : K) (hE : 0 < E) (h1 : -1 < nu) (h2 : nu < 1 / 2) (e : Fin 3 → K)
    (ezz : K) (s : Fin 6 → K) (hs : s = stress (calculateC3 E nu) ![e 0, e 1, ezz, 0, 0, e 2]) :
    (s 2 = 0 ↔ ezz = nu / (nu - 1) * (e 0 + e 1)) ∧
    (s 2 = 0 → stress (calculateC2 E nu .planeStress) e = ![s 0, s 1, s 5]) := by
  have ha : (1 + nu) ≠ 0 := by linarith
  have hb : (1 - 2 * nu) ≠ 0 := by linarith
  have hc : (1 - nu) ≠ 0 := by linarith
  have hc' : (nu - 1) ≠ 0 := by linarith
  have hE' := hE.ne'
  have hd : 1 - nu * nu ≠ 0 := by
    have : 1 - nu * nu = (1 + nu) * (1 - nu) := by ring
    rw [this]; exact mul_ne_zero ha hc
  obtain ⟨f, hf⟩ : ∃ f, E / ((1 + nu) * (1 - 2 * nu)) = f := ⟨_, rfl⟩
  obtain ⟨g, hg⟩ : ∃ g, E / (2 * (1 + nu)) = g := ⟨_, rfl⟩
  obtain ⟨q, hq⟩ : ∃ q, E / (1 - nu * nu) = q := ⟨_, rfl⟩
  have hf' : f * ((1 + nu) * (1 - 2 * nu)) = E := by
    rw [← hf, div_mul_cancel₀ _ (mul_ne_zero ha hb)]
  have hg' : g * (2 * (1 + nu)) = E := by
    rw [← hg, div_mul_cancel₀ _ (mul_ne_zero two_ne_zero ha)]
  have hq' : q * (1 - nu * nu) = E := by rw [← hq, div_mul_cancel₀ _ hd]
  have hf0 : f ≠ 0 := by rintro rfl; rw [zero_mul] at hf'; exact hE' hf'.symm
  have hqf : q * (1 - nu) = f * (1 - 2 * nu) := by
    apply mul_left_cancel₀ ha
    linear_combination hq' - hf'
  rw [stress3 E nu _ f g hf hg] at hs
  have hs2 : s 2 = f * (nu * (e 0 + e 1) + (1 - nu) * ezz) := by
    rw [hs]
    simp
    ring
  have hz : s 2 = 0 ↔ (1 - nu) * ezz = -(nu * (e 0 + e 1)) := by
    rw [hs2, mul_eq_zero, or_iff_right hf0]
    constructor <;> intro h <;> linarith
  refine ⟨?_, fun h => ?_⟩
  · rw [hz, div_mul_eq_mul_div, eq_div_iff hc']
    constructor <;> intro h <;> linarith
  · have h := hz.1 h
    rw [stress2_stress E nu e q hq, hs]
    ext i
    fin_cases i <;> simp
    · apply mul_left_cancel₀ hc
      linear_combination (e 0 + nu * e 1) * hqf - f * nu * h
    · apply mul_left_cancel₀ hc
      linear_combination (nu * e 0 + e 1) * hqf - f * nu * h
    · left
      apply mul_left_cancel₀ (mul_ne_zero (two_ne_zero (α := K)) ha)
      linear_combination hq' - hg'

/-- C34: Hooke's law: uniaxial stress `σ` in the 3D law has the axial strain `σ / E` and the
lateral strains `-ν σ / E` (also in plane stress and 1D); shear is `τ / G`. -/
theorem C34_hooke (E nu sig tau : K) (hE : 0 < E) (h1 : -1 < nu) (h2 : nu < 1 / 2) :
    stress (calculateC3 E nu)
      ![sig / E, -nu * (sig / E), -nu * (sig / E), 0, 0, tau / (E / (2 * (1 + nu)))] =
      ![sig, 0, 0, 0, 0, tau] ∧
    stress (calculateC2 E nu .planeStress) ![sig / E, -nu * (sig / E), tau / (E / (2 * (1 + nu)))] =
      ![sig, 0, tau] ∧
    stress (calculateC1 E) ![sig / E] = ![sig] := by
  have ha : (1 + nu) ≠ 0 := by linarith
  have hb : (1 - 2 * nu) ≠ 0 := by linarith
  have hc : (1 - nu) ≠ 0 := by linarith
  have hE' := hE.ne'
  have hd : 1 - nu * nu ≠ 0 := by
    have : 1 - nu * nu = (1 + nu) * (1 - nu) := by ring
    rw [this]; exact mul_ne_zero ha hc
  obtain ⟨f, hf⟩ : ∃ f, E / ((1 + nu) * (1 - 2 * nu)) = f := ⟨_, rfl⟩
  obtain ⟨g, hg⟩ : ∃ g, E / (2 * (1 + nu)) = g := ⟨_, rfl⟩
  obtain ⟨q, hq⟩ : ∃ q, E / (1 - nu * nu) = q := ⟨_, rfl⟩
  obtain ⟨x, hx⟩ : ∃ x, sig / E = x := ⟨_, rfl⟩
  have hf' : f * ((1 + nu) * (1 - 2 * nu)) = E := by
    rw [← hf, div_mul_cancel₀ _ (mul_ne_zero ha hb)]
  have hg' : g * (2 * (1 + nu)) = E := by
    rw [← hg, div_mul_cancel₀ _ (mul_ne_zero two_ne_zero ha)]
  have hq' : q * (1 - nu * nu) = E := by rw [← hq, div_mul_cancel₀ _ hd]
  have hx' : x * E = sig := by rw [← hx, div_mul_cancel₀ _ hE']
  have hg0 : g ≠ 0 := by rintro rfl; rw [zero_mul] at hg'; exact hE' hg'.symm
  have hgt : g * (tau / g) = tau := mul_div_cancel₀ _ hg0
  have hqg : q * (1 - nu) = 2 * g := by
    apply mul_left_cancel₀ ha
    linear_combination hq' - hg'
  rw [stress3 E nu _ f g hf hg, stress2_stress E nu _ q hq, hg, hx]
  refine ⟨?_, ?_, ?_⟩
  · ext i
    fin_cases i <;> simp
    · linear_combination x * hf' + hx'
    · ring
    · ring
    · exact hgt
  · ext i
    fin_cases i <;> simp
    · linear_combination x * hq' + hx'
    · ring
    · linear_combination (1 / 2 * (tau / g)) * hqg + hgt
  · ext i
    fin_cases i
    simp [stress, calculateC1, Matrix.mulVec, dotProduct]
    linear_combination hx'

end C34

example : ∃ E nu : ℚ, 0 < E ∧ -1 < nu ∧ nu < 1 / 2 := ⟨30000, 1 / 5, by norm_num⟩

end NuTo
