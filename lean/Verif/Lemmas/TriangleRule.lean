import Verif.Model.TriangleTable
import Verif.Lemmas.SimplexIntegral
import Mathlib.Algebra.BigOperators.Group.List.Basic

/-!
The moments of the tabulated triangle rules, by exact integer arithmetic.
-/
namespace NuTo.SimplexRule

/-- moment of a table, in units of `10^-(20 + 19 (i + j))` -/
def mom2 (r : List (ℤ × ℤ × ℤ)) (i j : ℕ) : ℤ :=
  r.foldr (fun p s => p.2.2 * (p.1 ^ i * p.2.1 ^ j) + s) 0

/-- the moment is within `c / N` of `i! j! / (i + j + 2)!` -/
def ok2 (r : List (ℤ × ℤ × ℤ)) (c N i j : ℕ) : Bool :=
  Nat.ble ((((i + j + 2).factorial : ℤ) * mom2 r i j -
      ((i.factorial * j.factorial * 10 ^ (20 + 19 * (i + j)) : ℕ) : ℤ)).natAbs * N)
    (c * ((i + j + 2).factorial * 10 ^ (20 + 19 * (i + j))))

def all2 (r : List (ℤ × ℤ × ℤ)) (c N n : ℕ) : Bool :=
  (List.range (n + 1)).all fun i => (List.range (n + 1 - i)).all fun j => ok2 r c N i j

theorem close_of_natAbs (s : ℤ) (f g e c N : ℕ) (hf : 0 < f) (he : 0 < e) (hN : 0 < N)
    (h : ((f : ℤ) * s - ((g * e : ℕ) : ℤ)).natAbs * N ≤ c * (f * e)) :
    |(s : ℝ) / e - (g : ℝ) / f| ≤ (c : ℝ) / N := by
  have h' : |(f : ℝ) * s - (g : ℝ) * e| * N ≤ c * (f * e) := by
    have : (((((f : ℤ) * s - ((g * e : ℕ) : ℤ)).natAbs : ℕ) : ℝ)) * N ≤ c * (f * e) := by exact_mod_cast h
    rw [Nat.cast_natAbs] at this
    push_cast at this
    exact this
  have hfr : (0 : ℝ) < f := by exact_mod_cast hf
  have her : (0 : ℝ) < e := by exact_mod_cast he
  have hNr : (0 : ℝ) < N := by exact_mod_cast hN
  have e1 : (s : ℝ) / e - (g : ℝ) / f = ((f : ℝ) * s - g * e) / (f * e) := by
    field_simp
  rw [e1, abs_div, abs_of_pos (mul_pos hfr her), div_le_div_iff₀ (mul_pos hfr her) hNr]
  exact h'

theorem all2_spec {r : List (ℤ × ℤ × ℤ)} {c N n : ℕ} (h : all2 r c N n = true) (hN : 0 < N) (i j : ℕ)
    (hij : i + j ≤ n) :
    |(mom2 r i j : ℝ) / (10 ^ (20 + 19 * (i + j)) : ℕ) -
      ((i.factorial * j.factorial : ℕ) : ℝ) / (i + j + 2).factorial| ≤ (c : ℝ) / N := by
  rw [all2, List.all_eq_true] at h
  have h1 := h i (List.mem_range.2 (by omega))
  rw [List.all_eq_true] at h1
  have h2 := Nat.le_of_ble_eq_true (h1 j (List.mem_range.2 (by omega)))
  exact close_of_natAbs _ _ _ _ _ _ (Nat.factorial_pos _) (by positivity) hN h2

theorem mom2_sum (r : List (ℤ × ℤ × ℤ)) (i j : ℕ) :
    (mom2 r i j : ℝ) / (10 ^ (20 + 19 * (i + j)) : ℕ) =
      ∑ a ∈ Finset.range r.length, ((r.getD a 0).2.2 : ℝ) / 10 ^ 20 *
        ((((r.getD a 0).1 : ℝ) / 10 ^ 19) ^ i * (((r.getD a 0).2.1 : ℝ) / 10 ^ 19) ^ j) := by
  induction r with
  | nil => simp [mom2]
  | cons p r ih =>
    have e : mom2 (p :: r) i j = p.2.2 * (p.1 ^ i * p.2.1 ^ j) + mom2 r i j := rfl
    rw [e, List.length_cons, Finset.sum_range_succ']
    simp only [List.getD_cons_succ, List.getD_cons_zero]
    rw [← ih]
    push_cast
    rw [pow_add, pow_mul, pow_add, div_pow, div_pow]
    field_simp
    ring

theorem triangle_check_0 : all2 triangle0 5 (10 ^ 15) 1 = true := by decide +kernel
theorem triangle_check_1 : all2 triangle1 5 (10 ^ 15) 2 = true := by decide +kernel
theorem triangle_check_2 : all2 triangle2 5 (10 ^ 15) 3 = true := by decide +kernel
theorem triangle_check_3 : all2 triangle3 5 (10 ^ 15) 4 = true := by decide +kernel
theorem triangle_check_4 : all2 triangle4 5 (10 ^ 15) 5 = true := by decide +kernel
theorem triangle_check_5 : all2 triangle5 5 (10 ^ 15) 6 = true := by decide +kernel
theorem triangle_check_6 : all2 triangle6 5 (10 ^ 15) 7 = true := by decide +kernel
theorem triangle_check_7 : all2 triangle7 5 (10 ^ 15) 8 = true := by decide +kernel
theorem triangle_check_8 : all2 triangle8 5 (10 ^ 15) 9 = true := by decide +kernel
theorem triangle_check_9 : all2 triangle9 5 (10 ^ 15) 10 = true := by decide +kernel
theorem triangle_check_10 : all2 triangle10 5 (10 ^ 15) 11 = true := by decide +kernel
theorem triangle_check_11 : all2 triangle11 5 (10 ^ 15) 12 = true := by decide +kernel
theorem triangle_check_12 : all2 triangle12 5 (10 ^ 15) 13 = true := by decide +kernel
theorem triangle_check_13 : all2 triangle13 5 (10 ^ 15) 14 = true := by decide +kernel
theorem triangle_check_14 : all2 triangle14 5 (10 ^ 15) 15 = true := by decide +kernel
theorem triangle_check_15 : all2 triangle15 5 (10 ^ 15) 16 = true := by decide +kernel
theorem triangle_check_16 : all2 triangle16 5 (10 ^ 15) 17 = true := by decide +kernel
theorem triangle_check_17 : all2 triangle17 5 (10 ^ 15) 18 = true := by decide +kernel
theorem triangle_check_18 : all2 triangle18 5 (10 ^ 15) 19 = true := by decide +kernel
theorem triangle_check_19 : all2 triangle19 12 (10 ^ 11) 20 = true := by decide +kernel

end NuTo.SimplexRule
