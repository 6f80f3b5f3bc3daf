/-
C60: Gauss and Lobatto points lie in the interval, and all weights are positive.
-/
import Verif.Props.Quadrature
import Mathlib.MeasureTheory.Integral.IntervalIntegral.Basic
import Mathlib.Algebra.Polynomial.BigOperators
import Mathlib.Tactic.LinearCombination
import Mathlib.Data.List.GetD
import Mathlib.Analysis.Calculus.LocalExtr.Polynomial
import Mathlib.Data.Finset.Sort

namespace NuTo

open Polynomial LegendrePoly

/-- A polynomial that is non-negative on the interval and not zero has a positive integral. -/
theorem integral_pos_of_nonneg (f : ℝ[X]) (h0 : f ≠ 0) (hf : ∀ x ∈ Set.Icc (-1 : ℝ) 1, 0 ≤ f.eval x) :
    0 < ∫ x in (-1 : ℝ)..1, f.eval x := by
  obtain ⟨c, hc, hne⟩ : ∃ c ∈ Set.Icc (-1 : ℝ) 1, f.eval c ≠ 0 := by
    by_contra hcon
    push Not at hcon
    apply h0
    refine Polynomial.eq_zero_of_infinite_isRoot f (Set.Infinite.mono (s := Set.Icc (-1 : ℝ) 1) ?_ ?_)
    · intro x hx; exact hcon x hx
    · exact Set.Icc_infinite (by norm_num)
  exact intervalIntegral.integral_pos (by norm_num) f.continuous.continuousOn
    (fun x hx => hf x ⟨hx.1.le, hx.2⟩) ⟨c, hc, lt_of_le_of_ne (hf c hc) (Ne.symm hne)⟩

/-- If a rule is exact for `g` and `g` vanishes in all other points, the weight times `g` is its integral. -/
theorem apply_single (pts : List ℝ) (w : List ℝ) (hw : w.length = pts.length) (k : Nat)
    (hk : k < pts.length) (g : ℝ[X]) (hg : ∀ i, (hi : i < pts.length) → i ≠ k → g.eval pts[i] = 0) :
    Quadrature.apply (w, pts) g = w.getD k 0 * g.eval pts[k] := by
  rw [Quadrature.apply]
  have : List.zipWith (fun w x => w * g.eval x) w pts =
      (List.range pts.length).map fun i => if i = k then w.getD k 0 * g.eval pts[k] else 0 := by
    apply List.ext_getElem
    · simp [hw]
    · intro i h1 h2
      have hi : i < pts.length := by simpa using h2
      simp only [List.getElem_zipWith, List.getElem_map, List.getElem_range]
      split
      · rename_i h; subst h
        rw [List.getD_eq_getElem w 0 (hw ▸ hi)]
      · rename_i h
        rw [hg i hi h, mul_zero]
  rw [this, List.sum_map_ite_eq]
  simp [List.count_eq_one_of_mem List.nodup_range (List.mem_range.mpr hk)]

/-- the square of the product over all other points -/
noncomputable def others (pts : List ℝ) (k : Nat) : ℝ[X] :=
  ∏ x ∈ pts.toFinset.erase (pts.getD k 0), (X - C x) ^ 2

theorem others_monic (pts : List ℝ) (k : Nat) : (others pts k).Monic :=
  monic_prod_of_monic _ _ fun x _ => (monic_X_sub_C x).pow 2

theorem others_natDegree (pts : List ℝ) (hnd : pts.Nodup) (k : Nat) (hk : k < pts.length) :
    (others pts k).natDegree = 2 * (pts.length - 1) := by
  rw [others, natDegree_prod_of_monic _ _ fun x _ => (monic_X_sub_C x).pow 2]
  simp only [natDegree_pow, natDegree_X_sub_C, mul_one, Finset.sum_const, smul_eq_mul]
  rw [Finset.card_erase_of_mem, List.toFinset_card_of_nodup hnd, mul_comm]
  rw [List.mem_toFinset, List.getD_eq_getElem _ _ hk]
  exact List.getElem_mem hk

theorem others_eval (pts : List ℝ) (k : Nat) (y : ℝ) :
    (others pts k).eval y = ∏ x ∈ pts.toFinset.erase (pts.getD k 0), (y - x) ^ 2 := by
  simp [others, eval_prod]

theorem others_nonneg (pts : List ℝ) (k : Nat) (y : ℝ) : 0 ≤ (others pts k).eval y := by
  rw [others_eval]; exact Finset.prod_nonneg fun x _ => sq_nonneg _

theorem others_pos (pts : List ℝ) (k : Nat) (hk : k < pts.length) : 0 < (others pts k).eval pts[k] := by
  rw [others_eval]
  refine Finset.prod_pos fun x hx => ?_
  have : x ≠ pts[k] := by
    have := Finset.ne_of_mem_erase hx
    rwa [List.getD_eq_getElem _ _ hk] at this
  have : pts[k] - x ≠ 0 := sub_ne_zero.mpr (Ne.symm this)
  positivity

theorem others_zero (pts : List ℝ) (hnd : pts.Nodup) (k : Nat) (hk : k < pts.length) (i : Nat)
    (hi : i < pts.length) (h : i ≠ k) : (others pts k).eval pts[i] = 0 := by
  rw [others_eval]
  refine Finset.prod_eq_zero (i := pts[i]) (Finset.mem_erase.mpr ⟨?_, ?_⟩) (by simp)
  · rw [List.getD_eq_getElem _ _ hk]
    intro hc
    exact h ((List.Nodup.getElem_inj_iff hnd).mp hc)
  · rw [List.mem_toFinset]; exact List.getElem_mem hi

/-- **C60** All Gauss points lie inside of the interval and all weights are positive. -/
theorem C60_gauss_inside (n : Nat) (pts : List ℝ) (hn : 0 < n) (hlen : pts.length = n)
    (hnd : pts.Nodup) (hroot : ∀ x ∈ pts, (P ℝ n).eval x = 0) (w : List ℝ)
    (hr : Quadrature.gauss (n : Int) pts = .ok (w, pts)) :
    (∀ x ∈ pts, -1 < x ∧ x < 1) ∧ ∀ v ∈ w, 0 < v := by
  obtain ⟨w', hr', hw, hex⟩ := C60_gauss n pts hn hlen hnd hroot
  obtain rfl : w' = w := by
    rw [hr'] at hr; injection hr with hr; exact congrArg Prod.fst hr
  have key : ∀ k, (hk : k < pts.length) → 0 < w'.getD k 0 ∧ -1 < pts[k] ∧ pts[k] < 1 := by
    intro k hk
    have hdeg := others_natDegree pts hnd k hk
    have hp := others_pos pts k hk
    have hwk : 0 < w'.getD k 0 := by
      have h1 := hex (others pts k) (by omega)
      rw [apply_single pts w' (hw.trans hlen.symm) k hk _
        (fun i hi h => others_zero pts hnd k hk i hi h)] at h1
      have h2 := integral_pos_of_nonneg _ (others_monic pts k).ne_zero fun x _ => others_nonneg pts k x
      rw [← h1] at h2
      exact (pos_iff_pos_of_mul_pos h2).mpr hp
    have side : ∀ s : ℝ, s = 1 ∨ s = -1 → 0 < 1 + s * pts[k] := by
      intro s hs
      set l : ℝ[X] := C s * X + C 1 with hl
      have hs0 : s ≠ 0 := by rcases hs with h | h <;> rw [h] <;> norm_num
      have hld : l.natDegree = 1 := natDegree_linear hs0
      have hl0 : l ≠ 0 := by intro h; rw [h] at hld; simp at hld
      have h1 := hex (l * others pts k) (by
        rw [natDegree_mul hl0 (others_monic pts k).ne_zero, hld, hdeg]; omega)
      rw [apply_single pts w' (hw.trans hlen.symm) k hk _
        (fun i hi h => by rw [eval_mul, others_zero pts hnd k hk i hi h, mul_zero])] at h1
      have h2 := integral_pos_of_nonneg (l * others pts k) (mul_ne_zero hl0 (others_monic pts k).ne_zero)
        fun x hx => by
          rw [eval_mul]
          refine mul_nonneg ?_ (others_nonneg pts k x)
          simp only [hl, eval_add, eval_mul, eval_C, eval_X]
          rcases hs with h | h <;> rw [h] <;> linarith [hx.1, hx.2]
      rw [← h1, eval_mul] at h2
      have h3 := (pos_iff_pos_of_mul_pos ((pos_iff_pos_of_mul_pos h2).mp hwk)).mpr hp
      simp only [hl, eval_add, eval_mul, eval_C, eval_X] at h3
      linarith
    have s1 := side 1 (Or.inl rfl)
    have s2 := side (-1) (Or.inr rfl)
    exact ⟨hwk, by linarith, by linarith⟩
  constructor
  · intro x hx
    obtain ⟨k, hk, rfl⟩ := List.getElem_of_mem hx
    exact (key k hk).2
  · intro v hv
    obtain ⟨k, hk, rfl⟩ := List.getElem_of_mem hv
    have := (key k (by omega)).1
    rwa [List.getD_eq_getElem _ _ hk] at this

theorem inner_others (inner : List ℝ) (k : Nat) (hk : k < inner.length) (hnd : inner.Nodup) (l : ℝ[X])
    (hl : l ≠ 0) (hl1 : l.eval (-1) = 0) (hl2 : l.eval 1 = 0) (w : List ℝ) (hw : w.length = inner.length + 2)
    (hpos : ∀ x ∈ Set.Icc (-1 : ℝ) 1, 0 ≤ l.eval x) (m : Nat) (hm : 2 * (inner.length - 1) + l.natDegree < m)
    (hex : ∀ f : ℝ[X], f.natDegree < m →
        Quadrature.apply (w, -1 :: (inner ++ [1])) f = ∫ x in (-1 : ℝ)..1, f.eval x) :
    0 < w.getD (k + 1) 0 * l.eval inner[k] := by
  have h0 := mul_ne_zero hl (others_monic inner k).ne_zero
  have h1 := hex (l * others inner k) (by
    rw [natDegree_mul hl (others_monic inner k).ne_zero, others_natDegree inner hnd k hk]; omega)
  have hlen : (-1 :: (inner ++ [1])).length = inner.length + 2 := by simp
  have hkk : (-1 :: (inner ++ [(1 : ℝ)]))[k + 1]'(by omega) = inner[k] := by
    simp [List.getElem_append_left hk]
  rw [apply_single _ w (by omega) (k + 1) (by omega) _ (fun i hi h => ?_), hkk] at h1
  · have h2 := integral_pos_of_nonneg _ h0 fun x hx => by
      rw [eval_mul]; exact mul_nonneg (hpos x hx) (others_nonneg inner k x)
    rw [← h1, eval_mul, ← mul_assoc] at h2
    exact (pos_iff_pos_of_mul_pos h2).mpr (others_pos inner k hk)
  · rw [eval_mul]
    cases i with
    | zero => simp [hl1]
    | succ i =>
      rw [List.getElem_cons_succ]
      by_cases hi' : i < inner.length
      · rw [List.getElem_append_left hi', others_zero inner hnd k hk i hi' (by omega), mul_zero]
      · rw [List.getElem_append_right (by omega)]
        simp [hl2]

/-- **C60** All inner Lobatto points lie inside of the interval and all weights are positive. -/
theorem C60_lobatto_inside (n : Nat) (inner : List ℝ) (hn : 0 < n) (hlen : inner.length = n - 1)
    (hnd : inner.Nodup) (hroot : ∀ x ∈ inner, (derivative (P ℝ n)).eval x = 0) (w : List ℝ)
    (hr : Quadrature.lobatto ((n : Int) + 1) inner = .ok (w, -1 :: (inner ++ [1]))) :
    (∀ x ∈ inner, -1 < x ∧ x < 1) ∧ ∀ v ∈ w, 0 < v := by
  obtain ⟨w', hr', hw, hex⟩ := C60_lobatto n inner hn hlen hnd hroot
  obtain rfl : w' = w := by
    rw [hr'] at hr; injection hr with hr; exact congrArg Prod.fst hr
  have hdl : ∀ a b : ℝ, a ≠ 0 → (C a * X + C b : ℝ[X]) ≠ 0 ∧ (C a * X + C b : ℝ[X]).natDegree = 1 := by
    intro a b ha
    have := natDegree_linear (a := a) (b := b) ha
    exact ⟨fun h => by rw [h] at this; simp at this, this⟩
  obtain ⟨u1, u2⟩ := hdl 1 1 (by norm_num)
  obtain ⟨v1, v2⟩ := hdl (-1) 1 (by norm_num)
  have key : ∀ k, (hk : k < inner.length) → 0 < w'.getD (k + 1) 0 ∧ -1 < inner[k] ∧ inner[k] < 1 := by
    intro k hk
    have e1 := inner_others inner k hk hnd ((C 1 * X + C 1) * (C (-1) * X + C 1)) (mul_ne_zero u1 v1)
      (by simp) (by simp) w' (by omega) (fun x hx => by
        simp only [eval_mul, eval_add, eval_C, eval_X]
        exact mul_nonneg (by linarith [hx.1]) (by linarith [hx.2])) (2 * n)
      (by rw [natDegree_mul u1 v1, u2, v2]; omega) hex
    have e2 := inner_others inner k hk hnd ((C 1 * X + C 1) * (C 1 * X + C 1) * (C (-1) * X + C 1))
      (mul_ne_zero (mul_ne_zero u1 u1) v1)
      (by simp) (by simp) w' (by omega) (fun x hx => by
        simp only [eval_mul, eval_add, eval_C, eval_X]
        exact mul_nonneg (mul_self_nonneg _) (by linarith [hx.2])) (2 * n)
      (by rw [natDegree_mul (mul_ne_zero u1 u1) v1, natDegree_mul u1 u1, u2, v2]; omega) hex
    have e3 := inner_others inner k hk hnd ((C 1 * X + C 1) * (C (-1) * X + C 1) * (C (-1) * X + C 1))
      (mul_ne_zero (mul_ne_zero u1 v1) v1)
      (by simp) (by simp) w' (by omega) (fun x hx => by
        simp only [eval_mul, eval_add, eval_C, eval_X]
        rw [mul_assoc]
        exact mul_nonneg (by linarith [hx.1]) (mul_self_nonneg _)) (2 * n)
      (by rw [natDegree_mul (mul_ne_zero u1 v1) v1, natDegree_mul u1 v1, u2, v2]; omega) hex
    simp only [eval_mul, eval_add, eval_C, eval_X, one_mul] at e1 e2 e3
    set W := w'.getD (k + 1) 0
    set x := inner[k]
    have q2 : 0 < x + 1 := by
      have : 0 < (W * ((x + 1) * (-1 * x + 1))) * (x + 1) := by linarith
      exact (pos_iff_pos_of_mul_pos this).mp e1
    have q3 : 0 < -1 * x + 1 := by
      have : 0 < (W * ((x + 1) * (-1 * x + 1))) * (-1 * x + 1) := by linarith
      exact (pos_iff_pos_of_mul_pos this).mp e1
    exact ⟨(pos_iff_pos_of_mul_pos e1).mpr (mul_pos q2 q3), by linarith, by linarith⟩
  refine ⟨fun x hx => ?_, fun v hv => ?_⟩
  · obtain ⟨k, hk, rfl⟩ := List.getElem_of_mem hx
    exact (key k hk).2
  · rw [Quadrature.lobatto, if_neg (by omega)] at hr
    obtain ⟨ws, hws, h⟩ := Res.bind_eq_ok hr
    cases h
    have hedge : (0 : ℝ) < 2 / ((((n : Int) + 1) * ((n : Int) + 1 - 1) : Int) : ℝ) := by
      have : (0 : ℝ) < n := by exact_mod_cast hn
      push_cast
      have h2 : (0 : ℝ) < (n + 1) * (n + 1 - 1) := by nlinarith
      positivity
    rw [List.mem_cons, List.mem_append, List.mem_singleton] at hv
    rcases hv with h | h | h
    · rw [h]; exact hedge
    · obtain ⟨k, hk, rfl⟩ := List.getElem_of_mem h
      have hk' : k < inner.length := by
        simp only [List.length_cons, List.length_append, List.length_nil] at hw
        omega
      have := (key k hk').1
      rw [List.getD_cons_succ, List.getD_append _ _ _ _ hk, List.getD_eq_getElem _ _ hk] at this
      exact this
    · rw [h]; exact hedge

/-! ### The roots exist -/

theorem card_roots_iterate (p : ℝ[X]) (m : Nat) : p.roots.card ≤ (derivative^[m] p).roots.card + m := by
  induction m with
  | zero => simp
  | succ m ih =>
    rw [Function.iterate_succ_apply']
    have := card_roots_le_derivative (derivative^[m] p)
    omega

theorem card_roots_P (n : Nat) : n ≤ (P ℝ n).roots.card := by
  have h := card_roots_iterate ((X ^ 2 - 1) ^ n) n
  have hf : (X ^ 2 - 1 : ℝ[X]) = (X - C 1) * (X - C (-1)) := by
    simp only [C_1, C_neg]; ring
  have hr : ((X ^ 2 - 1 : ℝ[X]) ^ n).roots.card = 2 * n := by
    rw [roots_pow, hf, roots_mul (mul_ne_zero (X_sub_C_ne_zero 1) (X_sub_C_ne_zero (-1))), roots_X_sub_C, roots_X_sub_C]
    simp [mul_comm]
  rw [P, roots_C_mul _ (by positivity)]
  omega

/-- A polynomial that is orthogonal (with a weight that is positive inside) to all polynomials of degree below its own has
no double root. -/
theorem nodup_roots_of_orthogonal (p l : ℝ[X]) (hp : p ≠ 0) (hl0 : l ≠ 0)
    (hl : ∀ x ∈ Set.Icc (-1 : ℝ) 1, 0 ≤ l.eval x) (horth : ∀ q : ℝ[X], q.natDegree < p.natDegree → int (l * p * q) = 0) :
    p.roots.Nodup := by
  rw [Multiset.nodup_iff_count_le_one]
  intro x
  by_contra hc
  push Not at hc
  rw [count_roots] at hc
  obtain ⟨q, hq⟩ := (pow_dvd_pow (X - C x) hc).trans (pow_rootMultiplicity_dvd p x)
  have hq0 : q ≠ 0 := by rintro rfl; simp at hq; exact hp hq
  have hx0 : (X - C x) ^ 2 ≠ 0 := pow_ne_zero 2 (X_sub_C_ne_zero x)
  have hd : p.natDegree = 2 + q.natDegree := by
    conv_lhs => rw [hq]
    rw [natDegree_mul (pow_ne_zero _ (X_sub_C_ne_zero x)) hq0, natDegree_pow, natDegree_X_sub_C]
  have h1 := horth q (by omega)
  have h2 := integral_pos_of_nonneg (l * ((X - C x) ^ 2 * q ^ 2)) (mul_ne_zero hl0 (mul_ne_zero hx0 (pow_ne_zero 2 hq0)))
    fun y hy => by
      simp only [eval_mul, eval_pow]
      exact mul_nonneg (hl y hy) (mul_nonneg (sq_nonneg _) (sq_nonneg _))
  have h3 : l * p * q = l * ((X - C x) ^ 2 * q ^ 2) := by
    rw [hq]; ring
  rw [int, h3] at h1
  linarith

theorem P_ne_zero (n : Nat) : P ℝ n ≠ 0 := by
  intro h
  have := eval_one (K := ℝ) n
  rw [h] at this; simp at this

theorem dP_ne_zero (n : Nat) (hn : 0 < n) : derivative (P ℝ n) ≠ 0 := by
  intro h
  have h1 := deriv_one (K := ℝ) n
  rw [h, eval_zero] at h1
  have : (0 : ℝ) < n := by exact_mod_cast hn
  have : (0 : ℝ) < (n : ℝ) * (n + 1) / 2 := by positivity
  linarith

/-- the distinct roots in increasing order -/
theorem sorted_roots (p : ℝ[X]) (hp : p ≠ 0) (n : Nat) (hd : p.natDegree = n) (hn : n ≤ p.roots.card) (hnd : p.roots.Nodup) :
    ∃! pts : List ℝ, pts.length = n ∧ pts.Pairwise (· < ·) ∧ ∀ x ∈ pts, p.eval x = 0 := by
  have hcard : p.roots.toFinset.card = n := by
    rw [Multiset.toFinset_card_of_nodup hnd]
    exact le_antisymm (hd ▸ card_roots' p) hn
  refine ⟨p.roots.toFinset.sort (· ≤ ·), ⟨by simp [hcard], Finset.sortedLT_sort _ |>.pairwise, fun x hx => ?_⟩, ?_⟩
  · rw [Finset.mem_sort, Multiset.mem_toFinset, mem_roots hp] at hx
    exact hx
  · rintro l ⟨h1, h2, h3⟩
    have hlnd : l.Nodup := h2.imp fun h => ne_of_lt h
    have hsub : l.toFinset = p.roots.toFinset := by
      apply Finset.eq_of_subset_of_card_le
      · intro x hx
        rw [Multiset.mem_toFinset, mem_roots hp]
        exact h3 x (List.mem_toFinset.mp hx)
      · rw [hcard, List.toFinset_card_of_nodup hlnd, h1]
    rw [← hsub]
    exact ((List.toFinset_sort (· ≤ ·) hlnd).mpr (h2.imp fun h => le_of_lt h)).symm

/-- **C60** For every number of points there is exactly one increasing list of `n` roots of the Legendre polynomial, so the
Gauss rule exists for every `n`. -/
theorem C60_gauss_exists (n : Nat) :
    ∃! pts : List ℝ, pts.length = n ∧ pts.Pairwise (· < ·) ∧ ∀ x ∈ pts, (P ℝ n).eval x = 0 := by
  refine sorted_roots _ (P_ne_zero n) n (natDegree_P n) (card_roots_P n) ?_
  refine nodup_roots_of_orthogonal _ 1 (P_ne_zero n) one_ne_zero (fun x _ => by simp) fun q hq => ?_
  rw [one_mul]
  exact orthogonal n q (by rwa [natDegree_P] at hq)

/-- **C60** The same for the inner points of the Lobatto rules. -/
theorem C60_lobatto_exists (n : Nat) (hn : 0 < n) :
    ∃! pts : List ℝ, pts.length = n - 1 ∧ pts.Pairwise (· < ·) ∧ ∀ x ∈ pts, (derivative (P ℝ n)).eval x = 0 := by
  refine sorted_roots _ (dP_ne_zero n hn) (n - 1) (natDegree_dP n) ?_ ?_
  · have h1 := card_roots_le_derivative (P ℝ n)
    have h2 := card_roots_P n
    omega
  · refine nodup_roots_of_orthogonal _ (1 - X ^ 2) (dP_ne_zero n hn) ?_ (fun x hx => ?_) fun q hq => ?_
    · intro h
      have := congrArg (Polynomial.eval 0) h
      simp at this
    · simp only [eval_sub, eval_pow, eval_X, Polynomial.eval_one]
      nlinarith [hx.1, hx.2]
    · have h := lobatto_orthogonal n q (by rwa [natDegree_dP] at hq)
      have e : (1 - X ^ 2) * derivative (P ℝ n) * q = C (-1) * (lobattoPoly n * q) := by
        rw [lobattoPoly, C_neg, C_1]; ring
      rw [e, int_C_mul, h, mul_zero]

end NuTo
