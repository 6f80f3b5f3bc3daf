/-
Entries of lists filled by nested loops.
-/
import Mathlib.Data.List.Basic
import Mathlib.Data.List.Range
import Mathlib.Algebra.BigOperators.Group.List.Basic

namespace NuTo

/-- The entries of a double loop that stores `f i j` at a running position. -/
theorem getElem?_tensor {α : Type} (f : Nat → Nat → α) (n m id : Nat) :
    ((List.range m).flatMap fun j => (List.range n).map fun i => f i j)[id]? =
      if id < m * n then some (f (id % n) (id / n)) else none := by
  induction m with
  | zero => simp
  | succ m ih =>
    have hlen : ((List.range m).flatMap fun j => (List.range n).map fun i => f i j).length
        = m * n := by
      simp [List.length_flatMap]
    rw [List.range_succ, List.flatMap_append, List.flatMap_singleton, List.getElem?_append, hlen,
      ih]
    by_cases h1 : id < m * n
    · have : id < (m + 1) * n := by rw [Nat.succ_mul]; omega
      simp [h1, this]
    · rw [if_neg h1]
      by_cases h2 : id < (m + 1) * n
      · rw [if_pos h2]
        have h3 : id - m * n < n := by rw [Nat.succ_mul] at h2; omega
        have h4 : id = id - m * n + n * m := by rw [Nat.mul_comm n m]; omega
        have h5 : id % n = id - m * n := by
          conv_lhs => rw [h4]
          rw [Nat.add_mul_mod_self_left, Nat.mod_eq_of_lt h3]
        have h6 : id / n = m := by
          conv_lhs => rw [h4]
          rw [Nat.add_mul_div_left _ _ (by omega), Nat.div_eq_of_lt h3, Nat.zero_add]
        rw [h5, h6]
        simp [h3]
      · rw [if_neg h2]
        have : n ≤ id - m * n := by rw [Nat.succ_mul] at h2; omega
        simp [this]

theorem length_flatMap_uniform {α : Type} (F : Nat → List α) (L : Nat)
    (hF : ∀ k, (F k).length = L) (m : Nat) : ((List.range m).flatMap F).length = m * L := by
  simp [List.length_flatMap, hF]

theorem getElem?_flatMap_uniform {α : Type} (F : Nat → List α) (L : Nat)
    (hF : ∀ k, (F k).length = L) (m id : Nat) :
    ((List.range m).flatMap F)[id]? =
      if id < m * L then (F (id / L))[id % L]? else none := by
  induction m with
  | zero => simp
  | succ m ih =>
    rw [List.range_succ, List.flatMap_append, List.flatMap_singleton, List.getElem?_append,
      length_flatMap_uniform F L hF, ih]
    by_cases h1 : id < m * L
    · have : id < (m + 1) * L := by rw [Nat.succ_mul]; omega
      rw [if_pos h1, if_pos h1, if_pos this]
    · rw [if_neg h1]
      by_cases h2 : id < (m + 1) * L
      · rw [if_pos h2]
        have h3 : id - m * L < L := by rw [Nat.succ_mul] at h2; omega
        have h4 : id = id - m * L + L * m := by rw [Nat.mul_comm L m]; omega
        have h5 : id % L = id - m * L := by
          conv_lhs => rw [h4]
          rw [Nat.add_mul_mod_self_left, Nat.mod_eq_of_lt h3]
        have h6 : id / L = m := by
          conv_lhs => rw [h4]
          rw [Nat.add_mul_div_left _ _ (by omega), Nat.div_eq_of_lt h3, Nat.zero_add]
        rw [h5, h6]
      · rw [if_neg h2]
        exact List.getElem?_eq_none (by rw [hF]; rw [Nat.succ_mul] at h2; omega)

end NuTo
