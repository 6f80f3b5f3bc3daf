/-
The derivative loops of the B-spline basis functions.
-/
import Verif.Lemmas.Nurbs
import Mathlib.Algebra.BigOperators.Ring.Finset

namespace NuTo.Nurbs
open Polynomial

variable {K : Type _} [Field K]

/-- The coefficients of derivative `k` of the function that begins at knot `i`, degree `p`. -/
def dcoef (knot : ℤ → K) (p : ℕ) (i : ℤ) : ℕ → ℤ → K
  | 0, j => if j = 0 then 1 else 0
  | k + 1, j => (dcoef knot p i k j - dcoef knot p i k (j - 1)) / (knot (i + j + p - k) - knot (i + j))

theorem dcoef_neg (knot : ℤ → K) (p : ℕ) (i : ℤ) (k : ℕ) (j : ℤ) (h : j < 0) : dcoef knot p i k j = 0 := by
  induction k generalizing j with
  | zero => rw [dcoef, if_neg (by omega)]
  | succ k ih => rw [dcoef, ih j h, ih (j - 1) (by omega), sub_zero, zero_div]

theorem dcoef_big (knot : ℤ → K) (p : ℕ) (i : ℤ) (k : ℕ) (j : ℤ) (h : (k : ℤ) < j) : dcoef knot p i k j = 0 := by
  induction k generalizing j with
  | zero => rw [dcoef, if_neg (by push_cast at h; omega)]
  | succ k ih =>
    push_cast at h
    rw [dcoef, ih j (by omega), ih (j - 1) (by omega), sub_zero, zero_div]

/-- The derivatives of a piece in terms of pieces of lower degree. -/
theorem iterate_derivative_piece (knot : ℤ → K) (span : ℤ) (p : ℕ) (hs : Separated knot span p) (i : ℤ) (k : ℕ)
    (hk : k ≤ p) : derivative^[k] (piece knot span p i) = C (∏ m ∈ Finset.range k, ((p : K) - (m : K))) *
      ∑ j ∈ Finset.range (k + 1), C (dcoef knot p i k j) * piece knot span (p - k) (i + j) := by
  induction k with
  | zero => simp [dcoef]
  | succ k ih =>
    obtain ⟨q, hq⟩ : ∃ q, p - k = q + 1 := ⟨p - k - 1, by omega⟩
    have hq' : p - (k + 1) = q := by omega
    have hqZ : (q : ℤ) = p - k - 1 := by omega
    rw [Function.iterate_succ_apply', ih (by omega), derivative_C_mul, derivative_sum, hq, hq']
    set G : ℕ → K[X] := fun j => C (knot (i + j + p - k) - knot (i + j))⁻¹ * piece knot span q (i + j) with hG
    have hD : ∀ j : ℕ, derivative (C (dcoef knot p i k j) * piece knot span (q + 1) (i + j)) =
        C ((p : K) - (k : K)) * (C (dcoef knot p i k j) * (G j - G (j + 1))) := by
      intro j
      rw [derivative_C_mul, derivative_piece knot span p hs q (by omega) (i + j)]
      have c : (C ((p : K) - (k : K)) : K[X]) = (q : K[X]) + 1 := by
        have : (p : K) = (k : K) + ((q : K) + 1) := by
          have : p = k + (q + 1) := by omega
          rw [this]; push_cast; ring
        rw [this]
        simp
      have e1 : i + (j : ℤ) + q + 1 = i + j + p - k := by omega
      have e2 : i + (j : ℤ) + q + 2 = i + ((j + 1 : ℕ) : ℤ) + p - k := by push_cast; omega
      have e3 : i + (j : ℤ) + 1 = i + ((j + 1 : ℕ) : ℤ) := by push_cast; ring
      rw [e1, e2, e3, c, hG]
      ring
    rw [Finset.sum_congr rfl fun j _ => hD j, ← Finset.mul_sum, Finset.prod_range_succ, C_mul, mul_assoc]
    congr 2
    have hA : ∀ j : ℕ, C (dcoef knot p i (k + 1) j) * piece knot span q (i + j) =
        C (dcoef knot p i k j) * G j - C (dcoef knot p i k ((j : ℤ) - 1)) * G j := by
      intro j
      rw [dcoef, div_eq_mul_inv, C_mul, hG, C_sub]
      ring
    rw [Finset.sum_congr rfl fun j _ => hA j, Finset.sum_sub_distrib, Finset.sum_range_succ _ (k + 1),
      Finset.sum_range_succ' (fun j : ℕ => C (dcoef knot p i k ((j : ℤ) - 1)) * G j) (k + 1)]
    rw [dcoef_big knot p i k ((k + 1 : ℕ) : ℤ) (by push_cast; omega), dcoef_neg knot p i k (((0 : ℕ) : ℤ) - 1) (by simp)]
    rw [C_0, zero_mul, zero_mul, add_zero, add_zero, ← Finset.sum_sub_distrib]
    refine Finset.sum_congr rfl fun j _ => ?_
    have : (((j + 1 : ℕ) : ℤ) - 1) = j := by push_cast; ring
    rw [this]
    ring

theorem iterate_derivative_piece_zero (knot : ℤ → K) (span : ℤ) (p : ℕ) (hs : Separated knot span p) (i : ℤ) (k : ℕ)
    (hk : p < k) : derivative^[k] (piece knot span p i) = 0 := by
  obtain ⟨m, rfl⟩ : ∃ m, k = m + 1 + p := ⟨k - p - 1, by omega⟩
  have h0 : derivative (derivative^[p] (piece knot span p i)) = 0 := by
    rw [iterate_derivative_piece knot span p hs i p le_rfl, derivative_C_mul, derivative_sum]
    rw [Finset.sum_eq_zero, mul_zero]
    intro j _
    rw [derivative_C_mul, Nat.sub_self, piece]
    split <;> simp
  rw [Function.iterate_add_apply, Function.iterate_succ_apply, h0, iterate_derivative_zero]

/-! ### The loops -/

/-- The loop over the interior coefficients. -/
theorem innerLoop (ndu : Mem K) (s1 s2 rk pk j1 : ℤ) (hne : s1 ≠ s2) (f : Mem K × K) (n : ℕ) :
    (∀ c, ((List.range n).foldl (innerStep ndu s1 s2 rk pk j1) f).1 s1 c = f.1 s1 c) ∧
    (∀ i : ℕ, i < n → ((List.range n).foldl (innerStep ndu s1 s2 rk pk j1) f).1 s2 (j1 + i) =
      (f.1 s1 (j1 + i) - f.1 s1 (j1 + i - 1)) / ndu (pk + 1) (rk + (j1 + i))) ∧
    (∀ c, (∀ i : ℕ, i < n → c ≠ j1 + i) → ((List.range n).foldl (innerStep ndu s1 s2 rk pk j1) f).1 s2 c = f.1 s2 c) ∧
    ((List.range n).foldl (innerStep ndu s1 s2 rk pk j1) f).2 = f.2 + ∑ i ∈ Finset.range n,
      (f.1 s1 (j1 + i) - f.1 s1 (j1 + i - 1)) / ndu (pk + 1) (rk + (j1 + i)) * ndu (rk + (j1 + i)) pk := by
  induction n with
  | zero => exact ⟨fun _ => rfl, fun i hi => absurd hi (by omega), fun _ _ => rfl, by simp⟩
  | succ n ih =>
    obtain ⟨h1, h2, h3, h4⟩ := ih
    rw [List.range_succ, List.foldl_append, List.foldl_cons, List.foldl_nil]
    generalize (List.range n).foldl (innerStep ndu s1 s2 rk pk j1) f = s at h1 h2 h3 h4
    unfold innerStep
    dsimp only
    refine ⟨fun c => ?_, fun i hi => ?_, fun c hc => ?_, ?_⟩
    · rw [set_ne _ _ _ _ _ _ (Or.inl hne), h1]
    · by_cases hin : i = n
      · subst hin; rw [set_self, h1, h1]
      · rw [set_ne _ _ _ _ _ _ (Or.inr (by omega)), h2 i (by omega)]
    · rw [set_ne _ _ _ _ _ _ (Or.inr (hc n (by omega))), h3 c fun i hi => hc i (by omega)]
    · rw [set_self, h1, h1, h4, Finset.sum_range_succ]
      ring

/-- The entries of the coefficient row the code keeps. -/
def Valid (p r k : ℕ) (j : ℤ) : Prop := 0 ≤ j ∧ j ≤ k ∧ (k : ℤ) ≤ r + j ∧ (r : ℤ) + j ≤ p

/-- Derivative `k` of function `r` before scaling. -/
noncomputable def rawDeriv (knot : ℤ → K) (span : ℤ) (x : K) (p r k : ℕ) : K :=
  if k ≤ p then ∑ j ∈ Finset.range (k + 1),
    dcoef knot p (span - p + r) k j * (piece knot span (p - k) (span - p + r + j)).eval x
  else 0

theorem derivStep_ok (knot : ℤ → K) (span : ℤ) (x : K) (p : ℕ) (ndu : Mem K) (ht : TableOk knot span x p ndu)
    (r : ℕ) (hr : r ≤ p) (s : DState K) (κ : ℕ) (hne : s.s1 ≠ s.s2)
    (hrow : ∀ j, Valid p r κ j → s.a s.s1 j = dcoef knot p (span - p + r) κ j) :
    (derivStep ndu p r s (κ + 1)).s1 = s.s2 ∧ (derivStep ndu p r s (κ + 1)).s2 = s.s1 ∧
    (∀ j, Valid p r (κ + 1) j →
      (derivStep ndu p r s (κ + 1)).a s.s2 j = dcoef knot p (span - p + r) (κ + 1) j) ∧
    (derivStep ndu p r s (κ + 1)).ders = s.ders.set (κ + 1 : ℕ) r (rawDeriv knot span x p r (κ + 1)) := by
  refine ⟨rfl, rfl, ?_⟩
  have hfi : firstIndex r (κ + 1 : ℕ) = max 1 ((κ : ℤ) + 1 - r) := by
    unfold firstIndex; push_cast; split <;> omega
  have hla : lastIndex p r (κ + 1 : ℕ) = min (κ : ℤ) ((p : ℤ) - r) := by
    unfold lastIndex; push_cast; split <;> omega
  by_cases hkp : κ + 1 ≤ p
  swap
  · -- nothing is computed
    have hnv : ∀ j, ¬ Valid p r (κ + 1) j := fun j h => by
      obtain ⟨_, _, h3, h4⟩ := h
      push_cast at h3; omega
    refine ⟨fun j hj => absurd hj (hnv j), ?_⟩
    unfold derivStep
    dsimp only
    rw [hfi, hla]
    have hn : (min (κ : ℤ) ((p : ℤ) - r) + 1 - max 1 ((κ : ℤ) + 1 - r)).toNat = 0 := by omega
    rw [hn, List.range_zero, List.foldl_nil, firstEntry, if_neg (by omega), lastEntry, if_neg (by push_cast; omega),
      rawDeriv, if_neg hkp]
  obtain ⟨q, hq⟩ : ∃ q, p - (κ + 1) = q := ⟨_, rfl⟩
  have hqZ : (q : ℤ) = p - κ - 1 := by omega
  set i : ℤ := span - p + r with hi
  -- the table entries in terms of the knots
  have hlow : ∀ j : ℤ, 0 ≤ j → (κ : ℤ) + 1 ≤ r + j → (r : ℤ) + j ≤ p →
      ndu (((p : ℤ) - (κ + 1 : ℕ)) + 1) ((r : ℤ) - (κ + 1 : ℕ) + j) = knot (i + j + p - κ) - knot (i + j) := by
    intro j h0 h1 h2
    have := ht.lower q ((r : ℤ) - (κ + 1 : ℕ) + j).toNat (by omega) (by omega)
    have e1 : (((r : ℤ) - (κ + 1 : ℕ) + j).toNat : ℤ) = (r : ℤ) - (κ + 1 : ℕ) + j := Int.toNat_of_nonneg (by push_cast; omega)
    have e2 : (((p : ℤ) - (κ + 1 : ℕ)) + 1) = ((q + 1 : ℕ) : ℤ) := by push_cast; omega
    rw [e1, ← e2] at this
    rw [this]
    congr 2
    · push_cast; omega
    · push_cast; omega
  have hup : ∀ j : ℤ, 0 ≤ j → (κ : ℤ) + 1 ≤ r + j → (r : ℤ) + j ≤ p →
      ndu ((r : ℤ) - (κ + 1 : ℕ) + j) ((p : ℤ) - (κ + 1 : ℕ)) = (piece knot span q (i + j)).eval x := by
    intro j h0 h1 h2
    have := ht.upper q ((r : ℤ) - (κ + 1 : ℕ) + j).toNat (by omega) (by omega)
    have e1 : (((r : ℤ) - (κ + 1 : ℕ) + j).toNat : ℤ) = (r : ℤ) - (κ + 1 : ℕ) + j := Int.toNat_of_nonneg (by push_cast; omega)
    have e2 : ((p : ℤ) - (κ + 1 : ℕ)) = (q : ℤ) := by push_cast; omega
    rw [e1] at this
    rw [e2, this]
    congr 2
    push_cast; omega
  -- the coefficients of the new row from the old row
  have hnew : ∀ j : ℤ, 1 ≤ j → j ≤ κ → (κ : ℤ) + 1 ≤ r + j → (r : ℤ) + j ≤ p →
      (s.a s.s1 j - s.a s.s1 (j - 1)) / (knot (i + j + p - κ) - knot (i + j)) = dcoef knot p i (κ + 1) j := by
    intro j h1 h2 h3 h4
    rw [hrow j ⟨by omega, h2, by omega, h4⟩, hrow (j - 1) ⟨by omega, by omega, by omega, by omega⟩, dcoef]
  have hzero : ∀ j : ℕ, j ≤ κ + 1 → ¬ ((κ : ℤ) + 1 ≤ r + j ∧ (r : ℤ) + j ≤ p) →
      (piece knot span q (i + j)).eval x = 0 := by
    intro j _ h
    rw [not_and_or, not_le, not_le] at h
    rcases h with h | h
    · rw [piece_zero_left knot span q _ (by omega), eval_zero]
    · rw [piece_zero_right knot span q _ (by omega), eval_zero]
  -- first entry
  have hf : ∀ c, (firstEntry ndu s.s1 s.s2 r (κ + 1 : ℕ) ((p : ℤ) - (κ + 1 : ℕ)) s.a).1 s.s1 c = s.a s.s1 c := by
    intro c
    unfold firstEntry
    split
    · exact set_ne _ _ _ _ _ _ (Or.inl hne)
    · rfl
  have hf0 : Valid p r (κ + 1) 0 →
      (firstEntry ndu s.s1 s.s2 r (κ + 1 : ℕ) ((p : ℤ) - (κ + 1 : ℕ)) s.a).1 s.s2 0 = dcoef knot p i (κ + 1) 0 := by
    intro hv
    obtain ⟨_, _, h3, h4⟩ := hv
    unfold firstEntry
    rw [if_pos (by omega)]
    dsimp only
    have e : ((r : ℤ) - (κ + 1 : ℕ)) = (r : ℤ) - (κ + 1 : ℕ) + 0 := by ring
    rw [set_self, e, hlow 0 le_rfl (by push_cast at h3; omega) (by omega),
      hrow 0 ⟨le_rfl, by omega, by push_cast at h3; omega, by omega⟩, dcoef,
      dcoef_neg knot p i κ (0 - 1) (by omega), sub_zero]
  have hfd : (firstEntry ndu s.s1 s.s2 r (κ + 1 : ℕ) ((p : ℤ) - (κ + 1 : ℕ)) s.a).2 =
      dcoef knot p i (κ + 1) 0 * (piece knot span q (i + 0)).eval x := by
    by_cases hv : ((κ + 1 : ℕ) : ℤ) ≤ r
    · have := hf0 ⟨le_rfl, by omega, by omega, by omega⟩
      unfold firstEntry at this ⊢
      rw [if_pos hv] at this ⊢
      dsimp only at this ⊢
      rw [this]
      have e : ((r : ℤ) - (κ + 1 : ℕ)) = (r : ℤ) - (κ + 1 : ℕ) + 0 := by ring
      rw [e, hup 0 le_rfl (by push_cast at hv; omega) (by omega)]
    · unfold firstEntry
      rw [if_neg hv]
      have := hzero 0 (by omega) (by push_cast at hv ⊢; omega)
      rw [Nat.cast_zero] at this
      rw [this, mul_zero]
  unfold derivStep
  dsimp only
  rw [hfi, hla]
  obtain ⟨J, hJ⟩ : ∃ J : ℕ, (J : ℤ) = max 1 ((κ : ℤ) + 1 - r) := ⟨(max 1 ((κ : ℤ) + 1 - r)).toNat, by omega⟩
  rw [← hJ]
  generalize hn : (min (κ : ℤ) ((p : ℤ) - r) + 1 - J).toNat = n
  obtain ⟨g1, g2, g3, g4⟩ := innerLoop ndu s.s1 s.s2 ((r : ℤ) - (κ + 1 : ℕ)) ((p : ℤ) - (κ + 1 : ℕ)) J hne
    (firstEntry ndu s.s1 s.s2 r (κ + 1 : ℕ) ((p : ℤ) - (κ + 1 : ℕ)) s.a) n
  generalize (List.range n).foldl (innerStep ndu s.s1 s.s2 ((r : ℤ) - (κ + 1 : ℕ)) ((p : ℤ) - (κ + 1 : ℕ)) J)
    (firstEntry ndu s.s1 s.s2 r (κ + 1 : ℕ) ((p : ℤ) - (κ + 1 : ℕ)) s.a) = g at g1 g2 g3 g4
  have g2' : ∀ m : ℕ, m < n → g.1 s.s2 ((J : ℤ) + m) = dcoef knot p i (κ + 1) ((J : ℤ) + m) := by
    intro m hm
    rw [g2 m hm, hf, hf, hlow _ (by omega) (by omega) (by omega), hnew _ (by omega) (by omega) (by omega) (by omega)]
  have g4' : g.2 = dcoef knot p i (κ + 1) 0 * (piece knot span q (i + 0)).eval x + ∑ m ∈ Finset.range n,
      dcoef knot p i (κ + 1) ((J : ℤ) + m) * (piece knot span q (i + ((J : ℤ) + m))).eval x := by
    rw [g4, hfd]
    congr 1
    refine Finset.sum_congr rfl fun m hm => ?_
    have hm' := Finset.mem_range.1 hm
    rw [hf, hf, hlow _ (by omega) (by omega) (by omega), hnew _ (by omega) (by omega) (by omega) (by omega),
      hup _ (by omega) (by omega) (by omega)]
  -- last entry
  have hl0 : Valid p r (κ + 1) ((κ + 1 : ℕ) : ℤ) →
      (lastEntry ndu s.s1 s.s2 r (κ + 1 : ℕ) ((p : ℤ) - (κ + 1 : ℕ)) g).1 s.s2 (κ + 1 : ℕ) =
        dcoef knot p i (κ + 1) (κ + 1 : ℕ) := by
    intro hv
    obtain ⟨_, _, h3, h4⟩ := hv
    unfold lastEntry
    rw [if_pos (by omega)]
    dsimp only
    have e : (r : ℤ) = (r : ℤ) - (κ + 1 : ℕ) + (κ + 1 : ℕ) := by ring
    have hlw := hlow ((κ + 1 : ℕ) : ℤ) (by omega) (by push_cast; omega) h4
    rw [← e] at hlw
    rw [set_self, g1, hf, hlw, hrow _ ⟨by push_cast; omega, by push_cast; omega, by push_cast; omega, by push_cast at h4 ⊢; omega⟩,
      dcoef, dcoef_big knot p i κ ((κ + 1 : ℕ) : ℤ) (by push_cast; omega), zero_sub]
  have hld : (lastEntry ndu s.s1 s.s2 r (κ + 1 : ℕ) ((p : ℤ) - (κ + 1 : ℕ)) g).2 = g.2 +
      dcoef knot p i (κ + 1) (κ + 1 : ℕ) * (piece knot span q (i + (κ + 1 : ℕ))).eval x := by
    by_cases hv : (r : ℤ) ≤ (p : ℤ) - (κ + 1 : ℕ)
    · have := hl0 ⟨by omega, le_rfl, by omega, by omega⟩
      unfold lastEntry at this ⊢
      rw [if_pos hv] at this ⊢
      dsimp only at this ⊢
      rw [this]
      have e : (r : ℤ) = (r : ℤ) - (κ + 1 : ℕ) + (κ + 1 : ℕ) := by ring
      have hu := hup ((κ + 1 : ℕ) : ℤ) (by omega) (by push_cast; omega) (by omega)
      rw [← e] at hu
      rw [hu]
    · unfold lastEntry
      rw [if_neg hv]
      have := hzero (κ + 1) le_rfl (by push_cast at hv ⊢; omega)
      rw [this, mul_zero, add_zero]
  have hlrow : ∀ c, c ≠ ((κ + 1 : ℕ) : ℤ) →
      (lastEntry ndu s.s1 s.s2 r (κ + 1 : ℕ) ((p : ℤ) - (κ + 1 : ℕ)) g).1 s.s2 c = g.1 s.s2 c := by
    intro c hc
    unfold lastEntry
    split
    · exact set_ne _ _ _ _ _ _ (Or.inr hc)
    · rfl
  refine ⟨fun j hj => ?_, ?_⟩
  · by_cases hjl : j = ((κ + 1 : ℕ) : ℤ)
    · subst hjl; exact hl0 hj
    · rw [hlrow j hjl]
      by_cases hj0 : j = 0
      · subst hj0
        rw [g3 0 fun m hm => by omega]
        exact hf0 hj
      · obtain ⟨h1, h2, h3, h4⟩ := hj
        push_cast at h2 h3 hjl
        have := g2' (j - J).toNat (by omega)
        have e : ((J : ℤ) + (j - J).toNat) = j := by omega
        rw [e] at this
        exact this
  · rw [hld, g4', rawDeriv, if_pos hkp, hq, ← hi]
    congr 1
    set F : ℕ → K := fun j => dcoef knot p i (κ + 1) j * (piece knot span q (i + j)).eval x with hF
    have hz : ∀ j : ℕ, j ≤ κ + 1 → ¬ ((κ : ℤ) + 1 ≤ r + j ∧ (r : ℤ) + j ≤ p) → F j = 0 := fun j h1 h2 => by
      rw [hF]; dsimp only; rw [hzero j h1 h2, mul_zero]
    have hmid : ∑ m ∈ Finset.range n, dcoef knot p i (κ + 1) ((J : ℤ) + m) * (piece knot span q (i + ((J : ℤ) + m))).eval x =
        ∑ j ∈ Finset.Ico 1 (κ + 1), F j := by
      have h1 : ∑ m ∈ Finset.range n, dcoef knot p i (κ + 1) ((J : ℤ) + m) *
          (piece knot span q (i + ((J : ℤ) + m))).eval x = ∑ j ∈ Finset.Ico J (J + n), F j := by
        rw [Finset.sum_Ico_eq_sum_range, Nat.add_sub_cancel_left]
        refine Finset.sum_congr rfl fun m _ => ?_
        rw [hF]; push_cast; rfl
      rw [h1]
      refine Finset.sum_subset (fun j hj => ?_) fun j hj hj' => ?_
      · rw [Finset.mem_Ico] at hj ⊢; omega
      · rw [Finset.mem_Ico] at hj hj'
        exact hz j (by omega) (by omega)
    have h0 : dcoef knot p i (κ + 1) 0 * (piece knot span q (i + 0)).eval x = F 0 := by
      rw [hF]; simp
    have hend : ∑ j ∈ Finset.range (κ + 1 + 1), F j = F 0 + ∑ j ∈ Finset.Ico 1 (κ + 1), F j + F (κ + 1) := by
      rw [Finset.sum_range_succ, Finset.range_eq_Ico, Finset.sum_eq_sum_Ico_succ_bot (Nat.succ_pos κ)]
    rw [hmid, h0]
    exact hend.symm

/-- The loop over the derivatives of function `r`. -/
theorem derivLoop (knot : ℤ → K) (span : ℤ) (x : K) (p : ℕ) (ndu : Mem K) (ht : TableOk knot span x p ndu)
    (r : ℕ) (hr : r ≤ p) (a0 ders0 : Mem K) (n : ℕ) :
    ∃ s : DState K, (List.range' 1 n).foldl (derivStep ndu p r) ⟨a0.set 0 0 1, 0, 1, ders0⟩ = s ∧ s.s1 ≠ s.s2 ∧
      (∀ j, Valid p r n j → s.a s.s1 j = dcoef knot p (span - p + r) n j) ∧
      (∀ k : ℕ, 1 ≤ k → k ≤ n → s.ders k r = rawDeriv knot span x p r k) ∧
      (∀ (k : ℕ) (c : ℤ), (k = 0 ∨ c ≠ r) → s.ders k c = ders0 k c) := by
  induction n with
  | zero =>
    refine ⟨⟨a0.set 0 0 1, 0, 1, ders0⟩, rfl, Int.zero_ne_one, fun j hj => ?_, fun k h1 h2 => absurd h1 (by omega),
      fun _ _ _ => rfl⟩
    obtain ⟨h1, h2, _, _⟩ := hj
    obtain rfl : j = 0 := by push_cast at h2; omega
    dsimp only
    rw [set_self, dcoef, if_pos rfl]
  | succ n ih =>
    obtain ⟨s, hs, hne, h1, h2, h3⟩ := ih
    obtain ⟨e1, e2, e3, e4⟩ := derivStep_ok knot span x p ndu ht r hr s n hne h1
    refine ⟨derivStep ndu p r s (n + 1), ?_, ?_, ?_, ?_, ?_⟩
    · rw [List.range'_1_concat, List.foldl_append, List.foldl_cons, List.foldl_nil, hs, Nat.add_comm 1 n]
    · rw [e1, e2]; exact hne.symm
    · intro j hj; rw [e1]; exact e3 j hj
    · intro k hk1 hk2
      rw [e4]
      by_cases hk : k = n + 1
      · subst hk; rw [set_self]
      · rw [set_ne _ _ _ _ _ _ (Or.inl (by omega))]; exact h2 k hk1 (by omega)
    · intro k c hc
      rw [e4, set_ne _ _ _ _ _ _ ?_]
      · exact h3 k c hc
      · rcases hc with h | h
        · exact Or.inl (by omega)
        · exact Or.inr h

/-- The loop over the functions. -/
theorem functionLoop (knot : ℤ → K) (span : ℤ) (x : K) (p order : ℕ) (ndu : Mem K) (ht : TableOk knot span x p ndu)
    (a0 ders0 : Mem K) (n : ℕ) (hn : n ≤ p + 1) :
    (∀ r k : ℕ, r < n → 1 ≤ k → k ≤ order →
      ((List.range n).foldl (derivFunction ndu order p) (a0, ders0)).2 k r = rawDeriv knot span x p r k) ∧
    (∀ c : ℤ, ((List.range n).foldl (derivFunction ndu order p) (a0, ders0)).2 (0 : ℕ) c = ders0 (0 : ℕ) c) := by
  induction n with
  | zero => exact ⟨fun r k h => absurd h (by omega), fun _ => rfl⟩
  | succ n ih =>
    obtain ⟨h1, h2⟩ := ih (by omega)
    rw [List.range_succ, List.foldl_append, List.foldl_cons, List.foldl_nil]
    generalize (List.range n).foldl (derivFunction ndu order p) (a0, ders0) = s at h1 h2
    obtain ⟨t, ht', _, _, t2, t3⟩ := derivLoop knot span x p ndu ht n (by omega) s.1 s.2 order
    unfold derivFunction
    rw [ht']
    dsimp only
    refine ⟨fun r k hr hk1 hk2 => ?_, fun c => ?_⟩
    · by_cases hrn : r = n
      · subst hrn; exact t2 k hk1 hk2
      · rw [t3 k r (Or.inr (by omega))]; exact h1 r k (by omega) hk1 hk2
    · rw [t3 0 c (Or.inl rfl)]; exact h2 c

theorem rowLoop (v : K) (k : ℤ) (m0 : Mem K) (n : ℕ) :
    (∀ j : ℕ, j < n → ((List.range n).foldl (fun m (j : Nat) => m.set k j (m k j * v)) m0) k j = m0 k j * v) ∧
    (∀ c d : ℤ, (c ≠ k ∨ ∀ j : ℕ, j < n → d ≠ j) →
      ((List.range n).foldl (fun m (j : Nat) => m.set k j (m k j * v)) m0) c d = m0 c d) := by
  induction n with
  | zero => exact ⟨fun j h => absurd h (by omega), fun _ _ _ => rfl⟩
  | succ n ih =>
    obtain ⟨h1, h2⟩ := ih
    rw [List.range_succ, List.foldl_append, List.foldl_cons, List.foldl_nil]
    generalize (List.range n).foldl (fun m (j : Nat) => m.set k j (m k j * v)) m0 = s at h1 h2
    refine ⟨fun j hj => ?_, fun c d h => ?_⟩
    · by_cases hjn : j = n
      · subst hjn
        rw [set_self, h2 _ _ (Or.inr fun i hi => by omega)]
      · rw [set_ne _ _ _ _ _ _ (Or.inr (by omega))]; exact h1 j (by omega)
    · rw [set_ne _ _ _ _ _ _ ?_]
      · exact h2 c d (h.imp id fun g i hi => g i (by omega))
      · exact h.imp id fun g => g n (by omega)

omit [Field K] in
theorem valueLoop (ndu : Mem K) (p : ℕ) (ders : Mem K) (n : ℕ) :
    (∀ j : ℕ, j < n → ((List.range n).foldl (fun m (j : Nat) => m.set 0 j (ndu j p)) ders) 0 j = ndu j p) := by
  induction n with
  | zero => exact fun j h => absurd h (by omega)
  | succ n ih =>
    rw [List.range_succ, List.foldl_append, List.foldl_cons, List.foldl_nil]
    intro j hj
    by_cases hjn : j = n
    · subst hjn; rw [set_self]
    · rw [set_ne _ _ _ _ _ _ (Or.inr (by omega))]; exact ih j (by omega)

/-- The scaling loop. -/
theorem scaleLoop (p : ℕ) (d : Mem K) (n : ℕ) :
    ((List.range' 1 n).foldl (scaleStep p) (d, (p : K))).2 = ∏ m ∈ Finset.range (n + 1), ((p : K) - (m : K)) ∧
    (∀ k j : ℕ, k ≤ n → j ≤ p → ((List.range' 1 n).foldl (scaleStep p) (d, (p : K))).1 k j =
      d k j * ∏ m ∈ Finset.range k, ((p : K) - (m : K))) ∧
    (∀ (k : ℕ) (c : ℤ), n < k → ((List.range' 1 n).foldl (scaleStep p) (d, (p : K))).1 k c = d k c) := by
  induction n with
  | zero =>
    refine ⟨by simp, fun k j hk hj => ?_, fun _ _ _ => rfl⟩
    obtain rfl : k = 0 := by omega
    simp
  | succ n ih =>
    obtain ⟨h1, h2, h3⟩ := ih
    rw [List.range'_1_concat, List.foldl_append, List.foldl_cons, List.foldl_nil, Nat.add_comm 1 n]
    generalize (List.range' 1 n).foldl (scaleStep p) (d, (p : K)) = s at h1 h2 h3
    unfold scaleStep
    obtain ⟨r1, r2⟩ := rowLoop s.2 ((n + 1 : ℕ) : ℤ) s.1 (p + 1)
    refine ⟨?_, fun k j hk hj => ?_, fun k c hk => ?_⟩
    · dsimp only
      rw [h1, Finset.prod_range_succ _ (n + 1)]
    · dsimp only
      by_cases hkn : k = n + 1
      · subst hkn
        rw [r1 j (by omega), h3 _ _ (by omega), h1]
      · rw [r2 _ _ (Or.inl (by omega))]; exact h2 k j (by omega) hj
    · dsimp only
      rw [r2 _ _ (Or.inl (by omega))]; exact h3 k c (by omega)

/-- The result of `BasisFunctionsAndDerivatives`. -/
theorem basisTable_eq (knot : ℤ → K) (span : ℤ) (x : K) (p order : ℕ) (hs : Separated knot span p) (g : Garbage K)
    (k j : ℕ) (hk : k ≤ order) (hj : j ≤ p) :
    basisTable g order x span p knot k j = (derivative^[k] (piece knot span p (span - p + j))).eval x := by
  have ht := nduTable_ok knot span x (g.ndu, g.left, g.right) p
  unfold basisTable
  generalize nduTable (g.ndu, g.left, g.right) x span p knot = ndu at ht
  obtain ⟨_, h2, _⟩ := scaleLoop p ((List.range (p + 1)).foldl (derivFunction ndu order p)
    (g.a, valueRow ndu p g.ders)).2 order
  rw [h2 k j hk hj]
  obtain ⟨f1, f2⟩ := functionLoop knot span x p order ndu ht g.a (valueRow ndu p g.ders) (p + 1) le_rfl
  rcases Nat.eq_zero_or_pos k with rfl | hk0
  · rw [f2, valueRow, Nat.cast_zero, valueLoop ndu p g.ders (p + 1) j (by omega), ht.upper p j le_rfl hj]
    simp
  · rw [f1 j k (by omega) hk0 hk, rawDeriv]
    by_cases hkp : k ≤ p
    · rw [if_pos hkp, iterate_derivative_piece knot span p hs _ k hkp, eval_mul, eval_C, eval_finsetSum, mul_comm]
      congr 1
      refine Finset.sum_congr rfl fun m _ => ?_
      rw [eval_mul, eval_C]
    · rw [if_neg hkp, zero_mul, iterate_derivative_piece_zero knot span p hs _ k (by omega), eval_zero]

end NuTo.Nurbs
