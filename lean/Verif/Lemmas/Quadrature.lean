/-
Legendre polynomials on `[-1, 1]`: values at the ends, differential equation, orthogonality;
interpolatory quadrature.
-/
import Verif.Lemmas.Legendre
import Mathlib.LinearAlgebra.Lagrange
import Mathlib.Analysis.Calculus.Deriv.Polynomial
import Mathlib.MeasureTheory.Integral.IntervalIntegral.FundThmCalculus
import Mathlib.Algebra.Polynomial.FieldDivision
import Mathlib.Topology.Algebra.Polynomial

set_option linter.unusedSectionVars false

namespace NuTo

namespace LegendrePoly

open Polynomial

section

variable {K : Type} [Field K] [CharZero K]

theorem P_zero' : P K 0 = 1 := by simp [P]

theorem P_one' : P K 1 = X := by
  rw [P]
  simp only [pow_one, Nat.factorial_one, Nat.cast_one, mul_one, Function.iterate_one,
    derivative_sub, derivative_X_pow, derivative_one, sub_zero, Nat.cast_ofNat]
  rw [show (2 : Nat) - 1 = 1 from rfl, pow_one, ← mul_assoc, ← C_mul]
  simp

/-- `Pₙ(1) = 1`, `Pₙ(-1) = (-1)ⁿ`. -/
theorem P_ends (n : Nat) : (P K n).eval 1 = 1 ∧ (P K n).eval (-1) = (-1) ^ n ∧
    (P K (n + 1)).eval 1 = 1 ∧ (P K (n + 1)).eval (-1) = (-1) ^ (n + 1) := by
  induction n with
  | zero => simp [P_zero', P_one']
  | succ n ih =>
    obtain ⟨h1, h2, h3, h4⟩ := ih
    have hr := recursion (K := K) n 0
    simp only [Function.iterate_zero, id] at hr
    have e1 := congrArg (Polynomial.eval 1) hr
    have e2 := congrArg (Polynomial.eval (-1)) hr
    simp only [eval_mul, eval_C, eval_X, eval_sub, h1, h2, h3, h4, Nat.cast_zero, sub_zero,
      add_zero] at e1 e2
    have hn2 : ((n : K) + 2) ≠ 0 := by exact_mod_cast (n + 1).succ_ne_zero
    refine ⟨h3, h4, mul_left_cancel₀ hn2 ?_, mul_left_cancel₀ hn2 ?_⟩
    · rw [e1]; ring
    · rw [e2]; ring

theorem eval_one (n : Nat) : (P K n).eval 1 = 1 := (P_ends n).1

theorem eval_neg_one (n : Nat) : (P K n).eval (-1) = (-1) ^ n := (P_ends n).2.1

/-- The differential equation of the Legendre polynomials. -/
theorem ode (n : Nat) :
    (1 - X ^ 2) * derivative (derivative (P K n)) - 2 * X * derivative (P K n) +
      C ((n : K) * (n + 1)) * P K n = 0 := by
  cases n with
  | zero => simp [P_zero']
  | succ n =>
    -- `(x² - 1) u' = 2 n x u`
    have hu : derivative (u (n + 1) : K[X]) * X * X - derivative (u (n + 1)) =
        C (2 * (n + 1 : K)) * (u (n + 1) * X) := by
      rw [u_deriv]
      simp only [u, map_mul, map_add, map_natCast, map_ofNat, map_one]
      ring
    have h := congrArg (derivative^[n + 2]) hu
    rw [iterate_derivative_sub, iterate_derivative_mul_X, iterate_derivative_C_mul,
      iterate_derivative_mul_X, iterate_derivative_derivative_mul_X] at h
    rw [show n + 2 - 1 = n + 1 by omega, iterate_derivative_mul_X,
      show n + 2 - 1 = n + 1 by omega] at h
    simp only [← Function.iterate_succ_apply, nsmul_eq_mul] at h
    have hP2 : derivative (derivative (P K (n + 1))) = derivative^[2] (P K (n + 1)) := rfl
    have hP1 : derivative (P K (n + 1)) = derivative^[1] (P K (n + 1)) := rfl
    have hP0 : P K (n + 1) = derivative^[0] (P K (n + 1)) := rfl
    rw [hP2, hP1]
    nth_rewrite 3 [hP0]
    rw [iterate_P, iterate_P, iterate_P]
    simp only [F]
    rw [show 2 + (n + 1) = n + 3 by omega, show 1 + (n + 1) = n + 2 by omega,
      show 0 + (n + 1) = n + 1 by omega]
    simp only [show (n + 2).succ = n + 3 from rfl,
      show n + 1 + 1 = n + 2 from rfl] at h
    simp only [map_mul, map_add, map_natCast, map_ofNat, map_one] at h ⊢
    push_cast at h ⊢
    linear_combination (-C (1 / (2 ^ (n + 1) * ((n + 1).factorial : K)))) * h

theorem deriv_one (n : Nat) : (derivative (P K n)).eval 1 = (n : K) * (n + 1) / 2 := by
  have h := congrArg (Polynomial.eval 1) (ode (K := K) n)
  simp only [eval_add, eval_sub, eval_mul, eval_one, eval_pow, eval_X, eval_C, eval_zero,
    Polynomial.eval_one, eval_ofNat] at h
  rw [eq_div_iff (by norm_num)]
  linear_combination -h

theorem deriv_neg_one (n : Nat) :
    (derivative (P K n)).eval (-1) = -((n : K) * (n + 1) / 2 * (-1) ^ n) := by
  have h := congrArg (Polynomial.eval (-1)) (ode (K := K) n)
  simp only [eval_add, eval_sub, eval_mul, eval_pow, eval_X, eval_C, eval_zero,
    Polynomial.eval_one, eval_ofNat, eval_neg_one] at h
  field_simp
  linear_combination h

theorem natDegree_P (n : Nat) : (P K n).natDegree = n := by
  have hle : (P K n).natDegree ≤ n := by
    rw [P]
    refine (natDegree_C_mul_le _ _).trans ((natDegree_iterate_derivative _ _).trans ?_)
    have := u_natDegree (K := K) n
    rw [u] at this
    rw [this]
    omega
  rcases Nat.lt_or_ge (P K n).natDegree n with h | h
  · exfalso
    have h1 := iterate_derivative_eq_zero h
    rw [iterate_P_self, C_eq_zero, div_eq_zero_iff] at h1
    rcases h1 with h1 | h1
    · exact (2 * n).factorial_ne_zero (by exact_mod_cast h1)
    · rw [mul_eq_zero] at h1
      rcases h1 with h1 | h1
      · exact pow_ne_zero n two_ne_zero h1
      · exact n.factorial_ne_zero (by exact_mod_cast h1)
  · omega

/-- `(x² - 1)ⁿ` and its first `n - 1` derivatives vanish at the ends. -/
theorem F_ends (n m : Nat) (h : m < n) (s : K) (hs : s ^ 2 = 1) : (F n m : K[X]).eval s = 0 := by
  induction n generalizing m with
  | zero => omega
  | succ n ih =>
    cases m with
    | zero => simp [F, u, hs]
    | succ m =>
      rw [F_first, eval_mul, eval_add, eval_mul, ih m (by omega), zero_mul, zero_add, eval_mul]
      cases m with
      | zero => simp
      | succ m => rw [show m + 1 - 1 = m from rfl, ih m (by omega)]; simp

end

/-- The integral of a polynomial over `[-1, 1]`. -/
noncomputable def int (p : ℝ[X]) : ℝ := ∫ x in (-1 : ℝ)..1, p.eval x

theorem int_add (p q : ℝ[X]) : int (p + q) = int p + int q := by
  rw [int, int, int, ← intervalIntegral.integral_add (p.continuous.intervalIntegrable _ _)
    (q.continuous.intervalIntegrable _ _)]
  simp

theorem int_C_mul (c : ℝ) (p : ℝ[X]) : int (C c * p) = c * int p := by
  rw [int, int, ← intervalIntegral.integral_const_mul]
  simp

theorem int_sub (p q : ℝ[X]) : int (p - q) = int p - int q := by
  have : p - q = p + C (-1) * q := by simp [sub_eq_add_neg]
  rw [this, int_add, int_C_mul]
  ring

theorem int_derivative (p : ℝ[X]) : int (derivative p) = p.eval 1 - p.eval (-1) := by
  rw [int]
  exact intervalIntegral.integral_eq_sub_of_hasDerivAt (fun x _ => p.hasDerivAt x)
    ((derivative p).continuous.intervalIntegrable _ _)

theorem int_sum {ι : Type} (s : Finset ι) (f : ι → ℝ[X]) :
    int (∑ i ∈ s, f i) = ∑ i ∈ s, int (f i) := by
  classical
  induction s using Finset.induction_on with
  | empty => simp [int]
  | insert a s ha ih => rw [Finset.sum_insert ha, Finset.sum_insert ha, int_add, ih]

theorem int_F (n m : Nat) (hm : m ≤ n) (q : ℝ[X]) (hq : derivative^[m] q = 0) :
    int (F n m * q) = 0 := by
  induction m generalizing q with
  | zero =>
    rw [Function.iterate_zero, id] at hq
    simp [hq, int]
  | succ m ih =>
    have h := int_derivative (F n m * q)
    rw [derivative_mul, int_add, eval_mul, eval_mul, F_ends n m (by omega) 1 (by norm_num),
      F_ends n m (by omega) (-1) (by norm_num), ih (by omega) (derivative q)
        (by rw [← Function.iterate_succ_apply]; exact hq)] at h
    have hF : derivative (F n m : ℝ[X]) = F n (m + 1) := by
      rw [F, F, Function.iterate_succ_apply']
    rw [hF] at h
    linarith

/-- Orthogonality to all polynomials of smaller degree. -/
theorem orthogonal (n : Nat) (q : ℝ[X]) (hq : q.natDegree < n) : int (P ℝ n * q) = 0 := by
  have h := int_F n n (Nat.le_refl n) q (iterate_derivative_eq_zero hq)
  rw [P]
  have : C (1 / (2 ^ n * (n.factorial : ℝ))) * derivative^[n] ((X ^ 2 - 1) ^ n) * q =
      C (1 / (2 ^ n * (n.factorial : ℝ))) * (F n n * q) := by
    rw [F, u]; ring
  rw [this, int_C_mul, h, mul_zero]

/-- A quadrature rule whose nodes are the zeros of a polynomial that is orthogonal to all
polynomials of degree below `d`. -/
theorem interpolatory (S : Finset ℝ) (w : ℝ[X]) (d : Nat) (hw : w.natDegree = S.card)
    (hroot : ∀ x ∈ S, w.eval x = 0) (hw0 : w ≠ 0)
    (horth : ∀ q : ℝ[X], q.natDegree < d → int (w * q) = 0) (f : ℝ[X])
    (hf : f.natDegree < S.card + d) :
    int f = ∑ x ∈ S, int (Lagrange.basis S id x) * f.eval x := by
  have hsmall : ∀ r : ℝ[X], r.degree < S.card →
      int r = ∑ x ∈ S, int (Lagrange.basis S id x) * r.eval x := by
    intro r hr
    have hi := Lagrange.eq_interpolate (s := S) (v := id) (f := r)
      (Function.injective_id.injOn) hr
    conv_lhs => rw [hi, Lagrange.interpolate_apply]
    rw [int_sum]
    refine Finset.sum_congr rfl fun x _ => ?_
    rw [int_C_mul, mul_comm]
    rfl
  have hdiv := EuclideanDomain.div_add_mod f w
  have hmod : (f % w).degree < S.card := by
    have := EuclideanDomain.mod_lt f hw0
    rw [← hw, ← degree_eq_natDegree hw0]
    exact this
  have hq : int (w * (f / w)) = 0 := by
    by_cases h0 : f.degree < w.degree
    · rw [(Polynomial.div_eq_zero_iff hw0).2 h0]
      simp [int]
    · have hle : w.degree ≤ f.degree := not_lt.1 h0
      have hadd := degree_add_div hw0 hle
      have hf0 : f ≠ 0 := by
        rintro rfl
        rw [degree_zero] at hle
        exact hw0 (degree_eq_bot.1 (le_bot_iff.1 hle))
      have hd0 : f / w ≠ 0 := fun h => h0 ((Polynomial.div_eq_zero_iff hw0).1 h)
      rw [degree_eq_natDegree hw0, degree_eq_natDegree hd0, degree_eq_natDegree hf0] at hadd
      have hadd' : w.natDegree + (f / w).natDegree = f.natDegree := by exact_mod_cast hadd
      rcases Nat.lt_or_ge (f / w).natDegree d with h | h
      · exact horth _ h
      · omega
  rw [← hdiv, int_add, hq, zero_add, hsmall _ hmod]
  refine Finset.sum_congr rfl fun x hx => ?_
  rw [eval_add, eval_mul, hroot x hx, zero_mul, zero_add]

end LegendrePoly

end NuTo
