/-
Specification of B-splines (Cox-de Boor recursion, polynomial pieces) and the loops of the model.
-/
import Verif.Model.Nurbs
import Mathlib.Algebra.Polynomial.Derivative
import Mathlib.Algebra.Polynomial.Eval.Degree
import Mathlib.Algebra.BigOperators.Intervals
import Mathlib.Algebra.Order.Field.Basic
import Mathlib.Tactic.Ring
import Mathlib.Tactic.LinearCombination

namespace NuTo.Nurbs
open Polynomial

variable {K : Type _} [Field K]

/-- Specification: a quotient whose denominator vanishes counts as zero. -/
def ratio [DecidableEq K] (a b : K) : K := if b = 0 then 0 else a / b

/-- Specification: B-spline basis functions by the Cox-de Boor recursion, `N_{i,q}(t)`. -/
def coxDeBoor [LinearOrder K] (knot : ℤ → K) : ℕ → ℤ → K → K
  | 0, i, t => if knot i ≤ t ∧ t < knot (i + 1) then 1 else 0
  | q + 1, i, t => ratio (t - knot i) (knot (i + q + 1) - knot i) * coxDeBoor knot q i t +
      ratio (knot (i + q + 2) - t) (knot (i + q + 2) - knot (i + 1)) * coxDeBoor knot q (i + 1) t

/-- Specification: the polynomial that `N_{i,q}` is on span `span`. -/
noncomputable def piece (knot : ℤ → K) (span : ℤ) : ℕ → ℤ → K[X]
  | 0, i => if i = span then 1 else 0
  | q + 1, i => (X - C (knot i)) * (C (knot (i + q + 1) - knot i)⁻¹ * piece knot span q i) +
      (C (knot (i + q + 2)) - X) * (C (knot (i + q + 2) - knot (i + 1))⁻¹ * piece knot span q (i + 1))

theorem piece_zero_left (knot : ℤ → K) (span : ℤ) (q : ℕ) (i : ℤ) (h : i < span - q) : piece knot span q i = 0 := by
  induction q generalizing i with
  | zero => rw [piece, if_neg (by push_cast at h; omega)]
  | succ q ih =>
    rw [piece, ih i (by push_cast at h; omega), ih (i + 1) (by push_cast at h; omega)]
    simp

theorem piece_zero_right (knot : ℤ → K) (span : ℤ) (q : ℕ) (i : ℤ) (h : span < i) : piece knot span q i = 0 := by
  induction q generalizing i with
  | zero => rw [piece, if_neg (by omega)]
  | succ q ih =>
    rw [piece, ih i h, ih (i + 1) (by omega)]
    simp

/-- The knots around a non-empty span differ. -/
def Separated (knot : ℤ → K) (span : ℤ) (p : ℕ) : Prop :=
  ∀ i j : ℤ, span - p < i → i ≤ span → span + 1 ≤ j → j ≤ span + p → knot j - knot i ≠ 0

/-- The derivative of a piece. -/
theorem derivative_piece (knot : ℤ → K) (span : ℤ) (p : ℕ) (hs : Separated knot span p) (q : ℕ) (hq : q + 1 ≤ p)
    (i : ℤ) : derivative (piece knot span (q + 1) i) =
      ((q : K[X]) + 1) * (C (knot (i + q + 1) - knot i)⁻¹ * piece knot span q i -
        C (knot (i + q + 2) - knot (i + 1))⁻¹ * piece knot span q (i + 1)) := by
  induction q generalizing i with
  | zero =>
    have h0 : ∀ j, derivative (piece knot span 0 j) = 0 := fun j => by
      rw [piece]; split <;> simp
    have e : piece knot span (0 + 1) i = (X - C (knot i)) * (C (knot (i + (0 : ℕ) + 1) - knot i)⁻¹ *
        piece knot span 0 i) + (C (knot (i + (0 : ℕ) + 2)) - X) *
        (C (knot (i + (0 : ℕ) + 2) - knot (i + 1))⁻¹ * piece knot span 0 (i + 1)) := piece.eq_2 ..
    rw [e]
    simp only [derivative_add, derivative_mul, derivative_sub, derivative_X, derivative_C, h0]
    rw [Nat.cast_zero]
    ring
  | succ q ih =>
    have k1 : i + (q : ℤ) + 1 = i + (q + 1) := by ring
    have k2 : i + (q : ℤ) + 2 = i + (q + 2) := by ring
    have k3 : i + 1 + (q : ℤ) + 1 = i + (q + 2) := by ring
    have k4 : i + 1 + (q : ℤ) + 2 = i + (q + 3) := by ring
    have k5 : i + 1 + 1 = i + 2 := by ring
    have k6 : i + ((q + 1 : ℕ) : ℤ) + 1 = i + (q + 2) := by push_cast; ring
    have k7 : i + ((q + 1 : ℕ) : ℤ) + 2 = i + (q + 3) := by push_cast; ring
    have e1 : piece knot span (q + 2) i = (X - C (knot i)) * (C (knot (i + (q + 2)) - knot i)⁻¹ *
        piece knot span (q + 1) i) + (C (knot (i + (q + 3))) - X) *
        (C (knot (i + (q + 3)) - knot (i + 1))⁻¹ * piece knot span (q + 1) (i + 1)) := by
      rw [piece, k6, k7]
    have e2 := ih (by omega) i
    have e3 := ih (by omega) (i + 1)
    have p1 : piece knot span (q + 1) i = (X - C (knot i)) * (C (knot (i + (q + 1)) - knot i)⁻¹ *
        piece knot span q i) + (C (knot (i + (q + 2))) - X) *
        (C (knot (i + (q + 2)) - knot (i + 1))⁻¹ * piece knot span q (i + 1)) := by
      rw [piece, k1, k2]
    have p2 : piece knot span (q + 1) (i + 1) = (X - C (knot (i + 1))) * (C (knot (i + (q + 2)) - knot (i + 1))⁻¹ *
        piece knot span q (i + 1)) + (C (knot (i + (q + 3))) - X) *
        (C (knot (i + (q + 3)) - knot (i + 2))⁻¹ * piece knot span q (i + 2)) := by
      rw [piece]
      rw [k3, k4, k5]
    rw [k1, k2] at e2
    rw [k3, k4, k5] at e3
    rw [k6, k7, e1]
    simp only [derivative_add, derivative_mul, derivative_sub, derivative_X, derivative_C, e2, e3]
    rw [p1, p2]
    have key : (C (knot (i + (q + 2)) - knot i)⁻¹ * C (knot (i + (q + 2)) - knot i) -
        C (knot (i + (q + 3)) - knot (i + 1))⁻¹ * C (knot (i + (q + 3)) - knot (i + 1))) *
        piece knot span q (i + 1) = 0 := by
      by_cases hz : piece knot span q (i + 1) = 0
      · rw [hz, mul_zero]
      · have hl : span - q ≤ i + 1 := by
          by_contra h
          exact hz (piece_zero_left knot span q _ (by omega))
        have hr : i + 1 ≤ span := by
          by_contra h
          exact hz (piece_zero_right knot span q _ (by omega))
        have d1 := hs i (i + (q + 2)) (by omega) (by omega) (by omega) (by omega)
        have d2 := hs (i + 1) (i + (q + 3)) (by omega) (by omega) (by omega) (by omega)
        rw [← C_mul, ← C_mul, inv_mul_cancel₀ d1, inv_mul_cancel₀ d2, sub_self, zero_mul]
    simp only [C_sub] at key
    push_cast
    generalize C (knot (i + (q + 2)) - knot i)⁻¹ = c1 at *
    generalize C (knot (i + (q + 3)) - knot (i + 1))⁻¹ = c2 at *
    generalize C (knot (i + (q + 1)) - knot i)⁻¹ = c3 at *
    generalize C (knot (i + (q + 2)) - knot (i + 1))⁻¹ = c4 at *
    generalize C (knot (i + (q + 3)) - knot (i + 2))⁻¹ = c5 at *
    linear_combination (-(q + 1 : K[X])) * c4 * key

/-- The piece is the basis function on its span. -/
theorem coxDeBoor_eq_piece [LinearOrder K] [IsStrictOrderedRing K] (knot : ℤ → K) (span lo hi : ℤ) (t : K)
    (hmono : ∀ a b : ℤ, lo ≤ a → a ≤ b → b ≤ hi → knot a ≤ knot b) (hlo : lo ≤ span) (hhi : span + 1 ≤ hi)
    (hl : knot span ≤ t) (hr : t < knot (span + 1)) (n : ℕ) (j : ℤ) (h1 : lo ≤ j) (h2 : j + n + 1 ≤ hi) :
    coxDeBoor knot n j t = (piece knot span n j).eval t := by
  induction n generalizing j with
  | zero =>
    rw [coxDeBoor, piece]
    by_cases hj : j = span
    · subst hj
      rw [if_pos rfl, if_pos ⟨hl, hr⟩, eval_one]
    · rw [if_neg hj, eval_zero, if_neg]
      rintro ⟨h3, h4⟩
      push_cast at h2
      rcases lt_or_gt_of_ne hj with h | h
      · exact absurd (lt_of_lt_of_le h4 (hmono (j + 1) span (by omega) (by omega) (by omega))) (not_lt.2 hl)
      · exact absurd (le_trans (hmono (span + 1) j (by omega) (by omega) (by omega)) h3) (not_le.2 hr)
  | succ n ih =>
    push_cast at h2
    rw [coxDeBoor, piece, ih j h1 (by omega), ih (j + 1) (by omega) (by omega)]
    have hr : ∀ a b : K, ratio a b = a * b⁻¹ := fun a b => by
      unfold ratio
      split
      · rename_i h; rw [h, inv_zero, mul_zero]
      · rw [div_eq_mul_inv]
    rw [hr, hr]
    simp only [eval_add, eval_mul, eval_sub, eval_X, eval_C]
    ring

/-- The pieces of a span add up to one. -/
theorem sum_piece (knot : ℤ → K) (span : ℤ) (p : ℕ) (hs : Separated knot span p) (q : ℕ) (hq : q ≤ p) :
    ∑ r ∈ Finset.range (q + 1), piece knot span q (span - q + r) = 1 := by
  induction q with
  | zero => simp [piece]
  | succ q ih =>
    set G : ℕ → K[X] := fun r => C (knot (span + r) - knot (span - q - 1 + r))⁻¹ * piece knot span q (span - q - 1 + r)
      with hG
    have h1 : ∀ r : ℕ, piece knot span (q + 1) (span - (q + 1 : ℕ) + r) =
        (X - C (knot (span - q - 1 + r))) * G r + (C (knot (span + ((r + 1 : ℕ) : ℤ))) - X) * G (r + 1) := by
      intro r
      rw [piece, hG]
      have a1 : span - ((q + 1 : ℕ) : ℤ) + r = span - q - 1 + r := by push_cast; ring
      have a2 : span - (q : ℤ) - 1 + r + q + 1 = span + r := by ring
      have a3 : span - (q : ℤ) - 1 + r + q + 2 = span + ((r + 1 : ℕ) : ℤ) := by push_cast; ring
      have a4 : span - (q : ℤ) - 1 + r + 1 = span - q - 1 + ((r + 1 : ℕ) : ℤ) := by push_cast; ring
      rw [a1, a2, a3, a4]
    have g0 : G 0 = 0 := by
      rw [hG]; dsimp only
      rw [piece_zero_left knot span q _ (by push_cast; omega), mul_zero]
    have gl : G (q + 2) = 0 := by
      rw [hG]; dsimp only
      rw [piece_zero_right knot span q _ (by push_cast; omega), mul_zero]
    rw [Finset.sum_congr rfl fun r _ => h1 r, Finset.sum_add_distrib]
    rw [Finset.sum_range_succ' (fun r : ℕ => (X - C (knot (span - q - 1 + r))) * G r) (q + 1),
      Finset.sum_range_succ (fun r : ℕ => (C (knot (span + ((r + 1 : ℕ) : ℤ))) - X) * G (r + 1)) (q + 1),
      g0, gl, mul_zero, mul_zero, add_zero, add_zero, ← Finset.sum_add_distrib, ← ih (by omega)]
    refine Finset.sum_congr rfl fun r hr => ?_
    have hr' := Finset.mem_range.1 hr
    have e : span - (q : ℤ) - 1 + ((r + 1 : ℕ) : ℤ) = span - q + r := by push_cast; ring
    rw [hG]; dsimp only
    rw [e]
    have hd := hs (span - q + r) (span + ((r + 1 : ℕ) : ℤ)) (by omega) (by omega) (by push_cast; omega)
      (by push_cast; omega)
    have hc : (C (knot (span + ((r + 1 : ℕ) : ℤ)) - knot (span - q + r)) *
        C (knot (span + ((r + 1 : ℕ) : ℤ)) - knot (span - q + r))⁻¹ : K[X]) = 1 := by
      rw [← C_mul, mul_inv_cancel₀ hd, C_1]
    rw [C_sub] at hc
    linear_combination (piece knot span q (span - q + r)) * hc

/-- The pieces are non-negative on their span. -/
theorem piece_nonneg [LinearOrder K] [IsStrictOrderedRing K] (knot : ℤ → K) (span lo hi : ℤ) (t : K)
    (hmono : ∀ a b : ℤ, lo ≤ a → a ≤ b → b ≤ hi → knot a ≤ knot b) (hlo : lo ≤ span) (hhi : span + 1 ≤ hi)
    (hl : knot span ≤ t) (hr : t ≤ knot (span + 1)) (n : ℕ) (j : ℤ) (h1 : lo ≤ j) (h2 : j + n + 1 ≤ hi) :
    0 ≤ (piece knot span n j).eval t := by
  induction n generalizing j with
  | zero =>
    rw [piece]
    split <;> simp
  | succ n ih =>
    push_cast at h2
    rw [piece]
    simp only [eval_add, eval_mul, eval_sub, eval_X, eval_C]
    refine add_nonneg ?_ ?_
    · by_cases hz : piece knot span n j = 0
      · rw [hz, eval_zero, mul_zero, mul_zero]
      · have hj : j ≤ span := by
          by_contra h
          exact hz (piece_zero_right knot span n j (by omega))
        refine mul_nonneg (sub_nonneg.2 (le_trans (hmono _ _ h1 hj (by omega)) hl))
          (mul_nonneg (inv_nonneg.2 (sub_nonneg.2 (hmono _ _ h1 (by omega) (by omega)))) (ih j h1 (by omega)))
    · by_cases hz : piece knot span n (j + 1) = 0
      · rw [hz, eval_zero, mul_zero, mul_zero]
      · have hj : span - n ≤ j + 1 := by
          by_contra h
          exact hz (piece_zero_left knot span n _ (by omega))
        refine mul_nonneg (sub_nonneg.2 (le_trans hr (hmono _ _ (by omega) (by omega) (by omega))))
          (mul_nonneg (inv_nonneg.2 (sub_nonneg.2 (hmono _ _ (by omega) (by omega) (by omega))))
            (ih (j + 1) (by omega) (by omega)))

/-! ### The table -/

omit [Field K] in
theorem set_self (m : Mem K) (i j : ℤ) (v : K) : m.set i j v i j = v := by
  unfold Mem.set; rw [if_pos ⟨rfl, rfl⟩]

omit [Field K] in
theorem set_ne (m : Mem K) (i j i' j' : ℤ) (v : K) (h : i' ≠ i ∨ j' ≠ j) : m.set i j v i' j' = m i' j' := by
  unfold Mem.set
  rw [if_neg]
  rintro ⟨h1, h2⟩
  rcases h with h | h
  · exact h h1
  · exact h h2

/-- The inner loop of the table. -/
theorem nduInner (knot : ℤ → K) (span : ℤ) (x : K) (left right : ℤ → K) (j : ℕ) (m0 : Mem K)
    (hleft : ∀ n : ℕ, 1 ≤ n → n ≤ j + 1 → left n = x - knot (span + 1 - n))
    (hright : ∀ n : ℕ, 1 ≤ n → n ≤ j + 1 → right n = knot (span + n) - x)
    (hprev : ∀ r : ℕ, r ≤ j → m0 r j = (piece knot span j (span - j + r)).eval x) (n : ℕ) (hn : n ≤ j + 1) :
    (∀ r : ℕ, r < n → ((List.range n).foldl (nduStep left right (j + 1 : ℕ)) (m0, 0)).1 (j + 1 : ℕ) r =
      knot (span + r + 1) - knot (span - j + r)) ∧
    (∀ r : ℕ, r < n → ((List.range n).foldl (nduStep left right (j + 1 : ℕ)) (m0, 0)).1 r (j + 1 : ℕ) =
      (piece knot span (j + 1) (span - (j + 1) + r)).eval x) ∧
    (∀ a b : ℤ, a ≠ (j + 1 : ℕ) → b ≠ (j + 1 : ℕ) →
      ((List.range n).foldl (nduStep left right (j + 1 : ℕ)) (m0, 0)).1 a b = m0 a b) ∧
    ((List.range n).foldl (nduStep left right (j + 1 : ℕ)) (m0, 0)).2 =
      (x - knot (span - (j + 1) + n)) * ((knot (span + n) - knot (span - (j + 1) + n))⁻¹ *
        (piece knot span j (span - (j + 1) + n)).eval x) := by
  induction n with
  | zero =>
    refine ⟨fun r hr => absurd hr (by omega), fun r hr => absurd hr (by omega), fun a b _ _ => rfl, ?_⟩
    rw [List.range_zero, List.foldl_nil, piece_zero_left knot span j _ (by push_cast; omega)]
    simp
  | succ n ih =>
    obtain ⟨h1, h2, h3, h4⟩ := ih (by omega)
    rw [List.range_succ, List.foldl_append, List.foldl_cons, List.foldl_nil]
    generalize (List.range n).foldl (nduStep left right (j + 1 : ℕ)) (m0, 0) = s at h1 h2 h3 h4
    have hR : right ((n : ℤ) + 1) = knot (span + n + 1) - x := by
      have := hright (n + 1) (by omega) hn
      push_cast at this
      rw [this]
      congr 2; ring
    have hL : left (((j + 1 : ℕ) : ℤ) - n) = x - knot (span - j + n) := by
      have := hleft (j + 1 - n) (by omega) (by omega)
      have e : ((j + 1 - n : ℕ) : ℤ) = ((j + 1 : ℕ) : ℤ) - n := by omega
      rw [e] at this
      rw [this]
      congr 2; push_cast; ring
    have hD : right ((n : ℤ) + 1) + left (((j + 1 : ℕ) : ℤ) - n) = knot (span + n + 1) - knot (span - j + n) := by
      rw [hR, hL]; ring
    have hprev' : s.1 n j = (piece knot span j (span - j + n)).eval x := by
      rw [h3 _ _ (by omega) (by omega)]
      exact hprev n (by omega)
    unfold nduStep
    dsimp only
    rw [hD]
    have t1 : (s.1.set (j + 1 : ℕ) n (knot (span + n + 1) - knot (span - j + n))) n (((j + 1 : ℕ) : ℤ) - 1) =
        (piece knot span j (span - j + n)).eval x := by
      have e : (((j + 1 : ℕ) : ℤ) - 1) = j := by omega
      rw [e, set_ne _ _ _ _ _ _ (Or.inl (by omega)), hprev']
    have t2 : (s.1.set (j + 1 : ℕ) n (knot (span + n + 1) - knot (span - j + n))) (j + 1 : ℕ) n =
        knot (span + n + 1) - knot (span - j + n) := set_self _ _ _ _
    rw [t1, t2]
    refine ⟨fun r hr => ?_, fun r hr => ?_, fun a b ha hb => ?_, ?_⟩
    · rw [set_ne _ _ _ _ _ _ (Or.inl (by omega))]
      by_cases hrn : r = n
      · subst hrn; rw [set_self]
      · rw [set_ne _ _ _ _ _ _ (Or.inr (by omega))]
        exact h1 r (by omega)
    · by_cases hrn : r = n
      · subst hrn
        rw [set_self, h4, hR, piece]
        simp only [eval_add, eval_mul, eval_sub, eval_X, eval_C]
        have a1 : span - ((j : ℤ) + 1) + r + j + 1 = span + r := by ring
        have a2 : span - ((j : ℤ) + 1) + r + j + 2 = span + r + 1 := by ring
        have a3 : span - ((j : ℤ) + 1) + r + 1 = span - j + r := by ring
        rw [a1, a2, a3]
        ring
      · rw [set_ne _ _ _ _ _ _ (Or.inl (by omega)), set_ne _ _ _ _ _ _ (Or.inl (by omega))]
        exact h2 r (by omega)
    · rw [set_ne _ _ _ _ _ _ (Or.inr hb), set_ne _ _ _ _ _ _ (Or.inl ha), h3 a b ha hb]
    · rw [hL]
      have a1 : span - ((j : ℤ) + 1) + ((n + 1 : ℕ) : ℤ) = span - j + n := by push_cast; ring
      have a2 : span + ((n + 1 : ℕ) : ℤ) = span + n + 1 := by push_cast; ring
      rw [a1, a2]
      ring

/-- What the table contains after the columns up to `J`. -/
structure TableOk (knot : ℤ → K) (span : ℤ) (x : K) (J : ℕ) (m : Mem K) : Prop where
  upper : ∀ q r : ℕ, q ≤ J → r ≤ q → m r q = (piece knot span q (span - q + r)).eval x
  lower : ∀ q r : ℕ, q + 1 ≤ J → r ≤ q → m (q + 1 : ℕ) r = knot (span + r + 1) - knot (span - q + r)

theorem nduColumns (knot : ℤ → K) (span : ℤ) (x : K) (init : Mem K × (ℤ → K) × (ℤ → K)) (J : ℕ) :
    TableOk knot span x J ((List.range' 1 J).foldl (nduColumn x span knot) (init.1.set 0 0 1, init.2)).1 ∧
    (∀ n : ℕ, 1 ≤ n → n ≤ J →
      ((List.range' 1 J).foldl (nduColumn x span knot) (init.1.set 0 0 1, init.2)).2.1 n = x - knot (span + 1 - n)) ∧
    (∀ n : ℕ, 1 ≤ n → n ≤ J →
      ((List.range' 1 J).foldl (nduColumn x span knot) (init.1.set 0 0 1, init.2)).2.2 n = knot (span + n) - x) := by
  induction J with
  | zero =>
    refine ⟨⟨fun q r hq hr => ?_, fun q r hq => absurd hq (by omega)⟩, fun n h1 h2 => absurd h1 (by omega),
      fun n h1 h2 => absurd h1 (by omega)⟩
    obtain rfl : q = 0 := by omega
    obtain rfl : r = 0 := by omega
    rw [List.range'_zero, List.foldl_nil]
    simp [Mem.set, piece]
  | succ J ih =>
    rw [List.range'_1_concat, List.foldl_append, List.foldl_cons, List.foldl_nil]
    generalize (List.range' 1 J).foldl (nduColumn x span knot) (init.1.set 0 0 1, init.2) = s at ih
    obtain ⟨⟨hu, hl⟩, hleft, hright⟩ := ih
    have hc : 1 + J = J + 1 := by omega
    rw [hc]
    unfold nduColumn
    dsimp only
    have hL : ∀ n : ℕ, 1 ≤ n → n ≤ J + 1 → Function.update s.2.1 (((J + 1 : ℕ) : ℤ)) (x - knot (span + 1 - (J + 1 : ℕ))) n =
        x - knot (span + 1 - n) := by
      intro n h1 h2
      by_cases h : n = J + 1
      · subst h; rw [Function.update_self]
      · rw [Function.update_of_ne (by omega)]; exact hleft n h1 (by omega)
    have hR : ∀ n : ℕ, 1 ≤ n → n ≤ J + 1 → Function.update s.2.2 (((J + 1 : ℕ) : ℤ)) (knot (span + (J + 1 : ℕ)) - x) n =
        knot (span + n) - x := by
      intro n h1 h2
      by_cases h : n = J + 1
      · subst h; rw [Function.update_self]
      · rw [Function.update_of_ne (by omega)]; exact hright n h1 (by omega)
    obtain ⟨i1, i2, i3, i4⟩ := nduInner knot span x _ _ J s.1 hL hR (fun r hr => hu J r le_rfl hr) (J + 1) le_rfl
    refine ⟨⟨fun q r hq hr => ?_, fun q r hq hr => ?_⟩, hL, hR⟩
    · by_cases hqJ : q = J + 1
      · subst hqJ
        by_cases hrJ : r = J + 1
        · subst hrJ
          rw [set_self, i4, piece]
          have a1 : span - ((J : ℤ) + 1) + ((J + 1 : ℕ) : ℤ) = span := by push_cast; ring
          have a2 : span - ((J + 1 : ℕ) : ℤ) + ((J + 1 : ℕ) : ℤ) = span := by ring
          have a3 : span + ((J + 1 : ℕ) : ℤ) = span + J + 1 := by push_cast; ring
          rw [a1, a2, a3, piece_zero_right knot span J (span + 1) (by omega)]
          simp
        · rw [set_ne _ _ _ _ _ _ (Or.inl (by omega)), i2 r (by omega)]
          congr 2
      · rw [set_ne _ _ _ _ _ _ (Or.inr (by omega)), i3 _ _ (by omega) (by omega)]
        exact hu q r (by omega) hr
    · by_cases hqJ : q = J
      · subst hqJ
        rw [set_ne _ _ _ _ _ _ (Or.inr (by omega)), i1 r (by omega)]
      · rw [set_ne _ _ _ _ _ _ (Or.inl (by omega)), i3 _ _ (by omega) (by omega)]
        exact hl q r (by omega) hr

theorem nduTable_ok (knot : ℤ → K) (span : ℤ) (x : K) (init : Mem K × (ℤ → K) × (ℤ → K)) (p : ℕ) :
    TableOk knot span x p (nduTable init x span p knot) := (nduColumns knot span x init p).1

end NuTo.Nurbs
