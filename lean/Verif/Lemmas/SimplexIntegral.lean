import Mathlib.MeasureTheory.Integral.IntervalIntegral.FundThmCalculus
import Mathlib.Analysis.SpecialFunctions.Integrals.Basic
import Mathlib.Algebra.MvPolynomial.Eval
import Mathlib.Algebra.MvPolynomial.Degrees
import Mathlib.Data.Nat.Factorial.Basic
import Mathlib.Analysis.Calculus.Deriv.Pow
import Mathlib.Analysis.Calculus.Deriv.Mul
import Mathlib.Tactic.FieldSimp
import Mathlib.Tactic.Ring
import Mathlib.Tactic.Linarith
import Mathlib.Algebra.BigOperators.Fin

/-!
Integrals of monomials over the reference simplices, and of polynomials from their monomials.
-/
namespace NuTo.SimplexRule

open intervalIntegral MvPolynomial

theorem beta_step (i m : Nat) (a : ℝ) :
    ((i : ℝ) + 1) * (∫ t in (0 : ℝ)..a, t ^ i * (a - t) ^ (m + 1)) =
      ((m : ℝ) + 1) * ∫ t in (0 : ℝ)..a, t ^ (i + 1) * (a - t) ^ m := by
  have hd : ∀ t ∈ Set.uIcc (0 : ℝ) a, HasDerivAt (fun t : ℝ => t ^ (i + 1) * (a - t) ^ (m + 1))
      (((i : ℝ) + 1) * (t ^ i * (a - t) ^ (m + 1)) - ((m : ℝ) + 1) * (t ^ (i + 1) * (a - t) ^ m)) t := by
    intro t _
    have h1 : HasDerivAt (fun t : ℝ => t ^ (i + 1)) (((i + 1 : ℕ) : ℝ) * t ^ i) t := by
      simpa using hasDerivAt_pow (i + 1) t
    have h2 : HasDerivAt (fun t : ℝ => a - t) (-1) t := by
      simpa using (hasDerivAt_id t).const_sub a
    have h3 := h2.fun_pow (m + 1)
    refine (h1.fun_mul h3).congr_deriv ?_
    push_cast
    ring
  have hi1 : IntervalIntegrable (fun t : ℝ => ((i : ℝ) + 1) * (t ^ i * (a - t) ^ (m + 1)))
      MeasureTheory.volume 0 a := Continuous.intervalIntegrable (by fun_prop) _ _
  have hi2 : IntervalIntegrable (fun t : ℝ => ((m : ℝ) + 1) * (t ^ (i + 1) * (a - t) ^ m))
      MeasureTheory.volume 0 a := Continuous.intervalIntegrable (by fun_prop) _ _
  have key := integral_eq_sub_of_hasDerivAt hd (hi1.sub hi2)
  rw [integral_sub hi1 hi2, integral_const_mul, integral_const_mul] at key
  simp only [sub_self, ne_eq, Nat.add_eq_zero_iff, one_ne_zero, and_false, not_false_eq_true, zero_pow, mul_zero,
    zero_mul] at key
  linarith

/-- `∫₀ᵃ tⁱ (a - t)ᵐ dt = i! m! / (i + m + 1)! · a^(i+m+1)` -/
theorem beta_integral (i m : Nat) (a : ℝ) :
    ∫ t in (0 : ℝ)..a, t ^ i * (a - t) ^ m =
      (i.factorial * m.factorial : ℝ) / (i + m + 1).factorial * a ^ (i + m + 1) := by
  induction m generalizing i with
  | zero =>
    simp only [pow_zero, mul_one, integral_pow, Nat.factorial_zero, Nat.cast_one, add_zero, Nat.factorial_succ,
      Nat.cast_mul]
    have : (i.factorial : ℝ) ≠ 0 := by exact_mod_cast i.factorial_ne_zero
    have h2 : ((i : ℝ) + 1) ≠ 0 := by positivity
    push_cast
    field_simp
    simp
  | succ m ih =>
    have h := beta_step i m a
    rw [ih (i + 1)] at h
    have h2 : ((i : ℝ) + 1) ≠ 0 := by positivity
    have e : i + 1 + m + 1 = i + (m + 1) + 1 := by omega
    rw [e] at h
    apply mul_left_cancel₀ h2
    rw [h, Nat.factorial_succ i, Nat.factorial_succ m]
    push_cast
    ring

/-- The integral of a function over the reference triangle `0 ≤ x, 0 ≤ y, x + y ≤ 1`. -/
noncomputable def triangleIntegral (f : ℝ → ℝ → ℝ) : ℝ :=
  ∫ x in (0 : ℝ)..1, ∫ y in (0 : ℝ)..(1 - x), f x y

/-- The integral of a function over the reference tetrahedron `0 ≤ x, y, z, x + y + z ≤ 1`. -/
noncomputable def tetrahedronIntegral (f : ℝ → ℝ → ℝ → ℝ) : ℝ :=
  ∫ x in (0 : ℝ)..1, ∫ y in (0 : ℝ)..(1 - x), ∫ z in (0 : ℝ)..(1 - x - y), f x y z

/-- The integral of a function over the reference prism, the triangle times `-1 ≤ z ≤ 1`. -/
noncomputable def prismIntegral (f : ℝ → ℝ → ℝ → ℝ) : ℝ :=
  ∫ x in (0 : ℝ)..1, ∫ y in (0 : ℝ)..(1 - x), ∫ z in (-1 : ℝ)..1, f x y z

theorem integral_sum_const_mul {ι : Type} (s : Finset ι) (c : ι → ℝ) (f : ι → ℝ → ℝ) (hf : ∀ i, Continuous (f i))
    (a b : ℝ) : ∫ x in a..b, ∑ i ∈ s, c i * f i x = ∑ i ∈ s, c i * ∫ x in a..b, f i x := by
  rw [integral_finsetSum fun i _ => ((hf i).const_mul (c i)).intervalIntegrable a b]
  exact Finset.sum_congr rfl fun i _ => integral_const_mul _ _

theorem beta_zero (k : Nat) (a : ℝ) : ∫ z in (0 : ℝ)..a, z ^ k = a ^ (k + 1) / (k + 1) := by
  rw [integral_pow]
  simp

theorem triangleIntegral_sum {ι : Type} (s : Finset ι) (c : ι → ℝ) (i j : ι → ℕ) :
    triangleIntegral (fun x y => ∑ t ∈ s, c t * (x ^ i t * y ^ j t)) =
      ∑ t ∈ s, c t * (((i t).factorial * (j t).factorial : ℝ) / (i t + j t + 2).factorial) := by
  unfold triangleIntegral
  have h1 : ∀ x : ℝ, (∫ y in (0 : ℝ)..(1 - x), ∑ t ∈ s, c t * (x ^ i t * y ^ j t)) =
      ∑ t ∈ s, (c t / (j t + 1)) * (x ^ i t * (1 - x) ^ (j t + 1)) := by
    intro x
    rw [integral_sum_const_mul s c (fun t y => x ^ i t * y ^ j t) (fun t => by fun_prop)]
    refine Finset.sum_congr rfl fun t _ => ?_
    rw [integral_const_mul, beta_zero]
    ring
  simp only [h1]
  rw [integral_sum_const_mul s _ (fun t x => x ^ i t * (1 - x) ^ (j t + 1)) (fun t => by fun_prop)]
  refine Finset.sum_congr rfl fun t _ => ?_
  rw [beta_integral, one_pow, mul_one, Nat.factorial_succ (j t)]
  have : ((j t : ℝ) + 1) ≠ 0 := by positivity
  rw [show i t + (j t + 1) + 1 = i t + j t + 2 by omega]
  push_cast
  field_simp

theorem tetrahedronIntegral_sum {ι : Type} (s : Finset ι) (c : ι → ℝ) (i j k : ι → ℕ) :
    tetrahedronIntegral (fun x y z => ∑ t ∈ s, c t * (x ^ i t * y ^ j t * z ^ k t)) =
      ∑ t ∈ s, c t * (((i t).factorial * (j t).factorial * (k t).factorial : ℝ) /
        (i t + j t + k t + 3).factorial) := by
  unfold tetrahedronIntegral
  have h1 : ∀ x y : ℝ, (∫ z in (0 : ℝ)..(1 - x - y), ∑ t ∈ s, c t * (x ^ i t * y ^ j t * z ^ k t)) =
      ∑ t ∈ s, (c t / (k t + 1) * x ^ i t) * (y ^ j t * (1 - x - y) ^ (k t + 1)) := by
    intro x y
    rw [integral_sum_const_mul s c (fun t z => x ^ i t * y ^ j t * z ^ k t) (fun t => by fun_prop)]
    refine Finset.sum_congr rfl fun t _ => ?_
    rw [integral_const_mul, beta_zero]
    ring
  have h2 : ∀ x : ℝ, (∫ y in (0 : ℝ)..(1 - x), ∑ t ∈ s, (c t / (k t + 1) * x ^ i t) *
      (y ^ j t * (1 - x - y) ^ (k t + 1))) =
      ∑ t ∈ s, (c t * (((j t).factorial * (k t).factorial : ℝ) / (j t + k t + 2).factorial)) *
        (x ^ i t * (1 - x) ^ (j t + k t + 2)) := by
    intro x
    rw [integral_sum_const_mul s _ (fun t y => y ^ j t * (1 - x - y) ^ (k t + 1)) (fun t => by fun_prop)]
    refine Finset.sum_congr rfl fun t _ => ?_
    rw [beta_integral, Nat.factorial_succ (k t), show j t + (k t + 1) + 1 = j t + k t + 2 by omega]
    have : ((k t : ℝ) + 1) ≠ 0 := by positivity
    push_cast
    field_simp
  simp only [h1, h2]
  rw [integral_sum_const_mul s _ (fun t x => x ^ i t * (1 - x) ^ (j t + k t + 2)) (fun t => by fun_prop)]
  refine Finset.sum_congr rfl fun t _ => ?_
  rw [beta_integral, one_pow, mul_one, show i t + (j t + k t + 2) + 1 = i t + j t + k t + 3 by omega]
  have : ((j t + k t + 2).factorial : ℝ) ≠ 0 := by exact_mod_cast Nat.factorial_ne_zero _
  field_simp

theorem prismIntegral_sum {ι : Type} (s : Finset ι) (c : ι → ℝ) (i j k : ι → ℕ) :
    prismIntegral (fun x y z => ∑ t ∈ s, c t * (x ^ i t * y ^ j t * z ^ k t)) =
      ∑ t ∈ s, c t * (((i t).factorial * (j t).factorial : ℝ) / (i t + j t + 2).factorial *
        ((1 - (-1) ^ (k t + 1)) / (k t + 1))) := by
  unfold prismIntegral
  have h1 : ∀ x y : ℝ, (∫ z in (-1 : ℝ)..1, ∑ t ∈ s, c t * (x ^ i t * y ^ j t * z ^ k t)) =
      ∑ t ∈ s, (c t * ((1 - (-1) ^ (k t + 1)) / (k t + 1))) * (x ^ i t * y ^ j t) := by
    intro x y
    rw [integral_sum_const_mul s c (fun t z => x ^ i t * y ^ j t * z ^ k t) (fun t => by fun_prop)]
    refine Finset.sum_congr rfl fun t _ => ?_
    rw [integral_const_mul, integral_pow, one_pow]
    ring
  simp only [h1]
  have := triangleIntegral_sum s (fun t => c t * ((1 - (-1) ^ (k t + 1)) / (k t + 1))) i j
  unfold triangleIntegral at this
  rw [this]
  exact Finset.sum_congr rfl fun t _ => by ring

/-- Sum of the absolute values of the coefficients. -/
noncomputable def norm1 {σ : Type} (p : MvPolynomial σ ℝ) : ℝ := ∑ m ∈ p.support, |p.coeff m|

/-- A rule that is nearly exact for the monomials is nearly exact for the polynomials. -/
theorem rule_error {σ ι : Type} [Fintype σ] (p : MvPolynomial σ ℝ) (order : ℕ) (hp : p.totalDegree ≤ order)
    (s : Finset ι) (w : ι → ℝ) (pt : ι → σ → ℝ) (M : (σ →₀ ℕ) → ℝ) (ε : ℝ)
    (h : ∀ m : σ →₀ ℕ, ∑ a, m a ≤ order → |∑ i ∈ s, w i * ∏ a, pt i a ^ m a - M m| ≤ ε) :
    |∑ i ∈ s, w i * eval (pt i) p - ∑ m ∈ p.support, p.coeff m * M m| ≤ ε * norm1 p := by
  have e : ∑ i ∈ s, w i * eval (pt i) p - ∑ m ∈ p.support, p.coeff m * M m =
      ∑ m ∈ p.support, p.coeff m * (∑ i ∈ s, w i * ∏ a, pt i a ^ m a - M m) := by
    simp only [eval_eq', mul_sub, Finset.sum_sub_distrib, Finset.mul_sum]
    congr 1
    rw [Finset.sum_comm]
    exact Finset.sum_congr rfl fun m _ => Finset.sum_congr rfl fun i _ => by ring
  rw [e, norm1, Finset.mul_sum]
  refine (Finset.abs_sum_le_sum_abs _ _).trans (Finset.sum_le_sum fun m hm => ?_)
  rw [abs_mul, mul_comm]
  refine mul_le_mul_of_nonneg_right (h m ?_) (abs_nonneg _)
  have := le_totalDegree hm
  rw [Finsupp.sum_fintype _ _ (fun _ => rfl)] at this
  omega

end NuTo.SimplexRule
