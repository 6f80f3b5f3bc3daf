/-
Legendre polynomials by Rodrigues' formula: recursion for their derivatives, values at the
ends of the interval, differential equation.
-/
import Mathlib.Algebra.Polynomial.Derivative
import Mathlib.Algebra.Polynomial.Monic
import Mathlib.Algebra.CharZero.Defs
import Mathlib.Tactic.Ring
import Mathlib.Tactic.FieldSimp
import Mathlib.Tactic.LinearCombination
import Mathlib.Tactic.ComputeDegree

set_option linter.unusedSectionVars false

namespace NuTo

namespace LegendrePoly

open Polynomial

variable {K : Type} [Field K] [CharZero K]

/-- `(X² - 1)ⁿ` -/
noncomputable def u (n : Nat) : K[X] := (X ^ 2 - 1) ^ n

/-- Rodrigues' formula: `Pₙ = (1 / (2ⁿ n!)) dⁿ/dxⁿ (x² - 1)ⁿ`. -/
noncomputable def P (K : Type) [Field K] (n : Nat) : K[X] :=
  C (1 / (2 ^ n * (n.factorial : K))) * derivative^[n] ((X ^ 2 - 1) ^ n)

/-- The derivatives of `u`. -/
noncomputable def F (n m : Nat) : K[X] := derivative^[m] (u n)

theorem u_deriv (n : Nat) : derivative (u (n + 1) : K[X]) = C (2 * (n + 1 : K)) * (u n * X) := by
  simp only [u, derivative_pow_succ, derivative_sub, derivative_X, derivative_one, sub_zero]
  simp only [map_mul, map_add, map_natCast, map_ofNat, map_one]
  push_cast
  ring

theorem F_first (n m : Nat) :
    (F (n + 1) (m + 1) : K[X]) = C (2 * (n + 1 : K)) * (F n m * X + (m : K[X]) * F n (m - 1)) := by
  rw [F, Function.iterate_succ_apply, u_deriv, iterate_derivative_C_mul,
    iterate_derivative_mul_X]
  rw [F, F, nsmul_eq_mul]

theorem F_second (n m : Nat) :
    (F (n + 2) (m + 2) : K[X]) = C (2 * (n + 2 : K) * (2 * n + 3)) * F (n + 1) m +
      C (4 * (n + 2 : K) * (n + 1)) * F n m := by
  have h : derivative (derivative (u (n + 2) : K[X])) =
      C (2 * (n + 2 : K) * (2 * n + 3)) * u (n + 1) + C (4 * (n + 2 : K) * (n + 1)) * u n := by
    rw [u_deriv, derivative_C_mul, derivative_mul, u_deriv, derivative_X]
    simp only [u, map_mul, map_add, map_natCast, map_ofNat, map_one]
    push_cast
    ring
  rw [F, Function.iterate_succ_apply, Function.iterate_succ_apply, h, iterate_map_add,
    iterate_derivative_C_mul, iterate_derivative_C_mul]
  rfl

/-- The `k`-th derivative of the `n`-th Legendre polynomial. -/
theorem iterate_P (n k : Nat) :
    derivative^[k] (P K n) = C (1 / (2 ^ n * (n.factorial : K))) * F n (k + n) := by
  rw [P, iterate_derivative_C_mul, ← Function.iterate_add_apply]
  rfl

theorem recursion (n k : Nat) :
    C ((n : K) + 2 - k) * derivative^[k] (P K (n + 2)) =
      C (2 * (n : K) + 3) * (X * derivative^[k] (P K (n + 1))) -
      C ((n : K) + 1 + k) * derivative^[k] (P K n) := by
  have h1 := F_first (K := K) (n + 1) (k + n + 1)
  have h2 := F_second (K := K) n (k + n)
  have e1 : k + (n + 2) = k + n + 1 + 1 := by omega
  have e2 : k + (n + 1) = k + n + 1 := by omega
  rw [iterate_P, iterate_P, iterate_P, e1, e2]
  rw [show k + n + 1 - 1 = k + n by omega] at h1
  have hf : ((n.factorial : K)) ≠ 0 := by exact_mod_cast n.factorial_ne_zero
  have hn1 : ((n : K) + 1) ≠ 0 := by exact_mod_cast n.succ_ne_zero
  have hn2 : ((n : K) + 2) ≠ 0 := by exact_mod_cast (n + 1).succ_ne_zero
  set c : K := 1 / (2 ^ (n + 2) * ((n + 2).factorial : K)) with hc
  have hc1 : 1 / (2 ^ (n + 1) * ((n + 1).factorial : K)) = c * (2 * (n + 2)) := by
    rw [hc, Nat.factorial_succ (n + 1)]
    push_cast
    have : (((n + 1).factorial : K)) ≠ 0 := by exact_mod_cast (n + 1).factorial_ne_zero
    have h3 : ((n : K) + 1 + 1) ≠ 0 := by rw [add_assoc, one_add_one_eq_two]; exact hn2
    field_simp
    ring
  have hc0 : 1 / (2 ^ n * (n.factorial : K)) = c * (4 * (n + 2) * (n + 1)) := by
    rw [hc, Nat.factorial_succ (n + 1), Nat.factorial_succ n]
    push_cast
    have h3 : ((n : K) + 1 + 1) ≠ 0 := by rw [add_assoc, one_add_one_eq_two]; exact hn2
    field_simp
    ring
  rw [hc1, hc0]
  simp only [map_mul, map_add, map_sub, map_natCast, map_ofNat, map_one] at h1 h2 ⊢
  push_cast at h1 h2 ⊢
  linear_combination C c * (2 * (n : K[X]) + 3) * h1 - C c * ((n : K[X]) + 1 + k) * h2

theorem u_natDegree (n : Nat) : (u n : K[X]).natDegree = 2 * n := by
  rw [u]
  have h : (X ^ 2 - 1 : K[X]).natDegree = 2 := by compute_degree!
  have hm : (X ^ 2 - 1 : K[X]).Monic := by monicity!
  rw [hm.natDegree_pow, h, Nat.mul_comm]

theorem u_monic (n : Nat) : (u n : K[X]).Monic := by
  have hm : (X ^ 2 - 1 : K[X]).Monic := by monicity!
  exact hm.pow n

/-- `Pₙ⁽ᵏ⁾ = 0` for `n < k`. -/
theorem iterate_P_zero {n k : Nat} (h : n < k) : derivative^[k] (P K n) = 0 := by
  rw [iterate_P, F, iterate_derivative_eq_zero (by rw [u_natDegree]; omega), mul_zero]

/-- `Pₖ⁽ᵏ⁾ = (2k)! / (2ᵏ k!)`. -/
theorem iterate_P_self (k : Nat) :
    derivative^[k] (P K k) = C (((2 * k).factorial : K) / (2 ^ k * (k.factorial : K))) := by
  have h : F k (k + k) = C (((2 * k).factorial : K)) := by
    have hd : (F k (k + k) : K[X]).natDegree = 0 := by
      have := natDegree_iterate_derivative (u k : K[X]) (k + k)
      rw [u_natDegree] at this
      rw [F]
      omega
    rw [eq_C_of_natDegree_eq_zero hd, F, coeff_iterate_derivative, zero_add, ← two_mul]
    have : (u k : K[X]).coeff (2 * k) = 1 := by
      have := u_monic (K := K) k
      rw [Monic, leadingCoeff, u_natDegree] at this
      exact this
    rw [this, Nat.descFactorial_self]
    simp
  rw [iterate_P, h, ← C_mul]
  congr 1
  ring

end LegendrePoly

end NuTo
