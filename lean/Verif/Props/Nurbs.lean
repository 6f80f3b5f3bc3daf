/-
C46: B-spline basis functions and rational basis functions.
-/
import Verif.Props.KnotSpan
import Verif.Lemmas.NurbsDeriv
import Mathlib.Algebra.Order.BigOperators.Group.Finset
import Mathlib.Data.Fintype.BigOperators
import Mathlib.Algebra.BigOperators.Fin
import Mathlib.Algebra.BigOperators.Field
import Mathlib.Data.List.GetD
import Mathlib.Tactic.FieldSimp
import Mathlib.Tactic.NormNum
import Mathlib.Tactic.FinCases

namespace NuTo.Nurbs
open Polynomial

variable {K : Type _} [Field K] [LinearOrder K] [IsStrictOrderedRing K]

/-- Specification: knot `i` of the vector. -/
def knotFn (knots : List K) (i : ℤ) : K := knots.getD i.toNat 0

/-- Specification: `s` is a span of the domain and is not empty. -/
structure SpanOf (knots : List K) (p s : ℕ) : Prop where
  vector : KnotVector knots p
  left : p ≤ s
  right : s < knots.length - p - 1
  nonempty : knotFn knots s < knotFn knots (s + 1)

omit [IsStrictOrderedRing K] in
theorem knotFn_mono (knots : List K) (p : ℕ) (hk : KnotVector knots p) (a b : ℤ) (_ha : 0 ≤ a) (hab : a ≤ b)
    (hb : b ≤ knots.length - 1) : knotFn knots a ≤ knotFn knots b := by
  have hlen := hk.length
  unfold knotFn
  have h1 : a.toNat < knots.length := by omega
  have h2 : b.toNat < knots.length := by omega
  rw [List.getD_eq_getElem _ _ h1, List.getD_eq_getElem _ _ h2]
  exact hk.sorted _ _ _ _ (List.getElem?_eq_getElem h1) (List.getElem?_eq_getElem h2) (by omega)

theorem SpanOf.separated {knots : List K} {p s : ℕ} (h : SpanOf knots p s) : Separated (knotFn knots) s p := by
  intro i j h1 h2 h3 h4
  have hl := h.left
  have hr := h.right
  have a := knotFn_mono knots p h.vector i s (by omega) h2 (by omega)
  have b := knotFn_mono knots p h.vector (s + 1) j (by omega) h3 (by omega)
  exact ne_of_gt (sub_pos.2 (lt_of_le_of_lt a (lt_of_lt_of_le h.nonempty b)))

omit [IsStrictOrderedRing K] in
theorem basisFunctions_eq (g : Garbage K) (order : ℕ) (u : K) (knots : List K) (p s : ℕ) (h : SpanOf knots p s) :
    basisFunctions g order u s p knots = .ok (basisTable g order u s p (knotFn knots)) := by
  have hl := h.left
  have hr := h.right
  unfold basisFunctions
  rw [if_pos (Or.inr ⟨by omega, by omega⟩)]
  rfl

omit [IsStrictOrderedRing K] in
/-- C46: the spans found by `FindSpan` are the spans of the domain. -/
theorem C46_span (u : K) (p : ℕ) (knots : List K) (hk : KnotVector knots p)
    (hl : knotFn knots p ≤ u) (hr : u < knotFn knots (knots.length - p - 1)) :
    ∃ s : ℕ, findSpan u p knots = .ok (s : ℤ) ∧ SpanOf knots p s ∧ knotFn knots s ≤ u ∧ u < knotFn knots (s + 1) := by
  have hlen := hk.length
  have e : ∀ (i : ℕ) (a : K), knots[i]? = some a → knotFn knots i = a := fun i a h => by
    unfold knotFn
    rw [Int.toNat_natCast, List.getD_eq_getElem?_getD, h, Option.getD_some]
  obtain ⟨s, a, b, h1, h2, h3, h4, h5, h6, h7⟩ := C45_inside u p knots hk
    (fun a ha => by rw [← e p a ha]; exact hl)
    (fun b hb => by
      rw [← e _ b hb]
      have : ((knots.length - p - 1 : ℕ) : ℤ) = (knots.length : ℤ) - p - 1 := by omega
      rw [this]; exact hr)
  have ea := e s a h4
  have eb : knotFn knots (s + 1) = b := by
    have := e (s + 1) b h5
    push_cast at this
    exact this
  exact ⟨s, h1, ⟨hk, h2, h3, by rw [ea, eb]; exact lt_of_le_of_lt h6 h7⟩, by rw [ea]; exact h6, by rw [eb]; exact h7⟩

/-- C46: the values are the B-spline basis functions of the Cox-de Boor recursion, whatever the matrices
contain before and whatever derivatives are computed too. -/
theorem C46_values (g : Garbage K) (order : ℕ) (u : K) (knots : List K) (p s : ℕ) (h : SpanOf knots p s)
    (hl : knotFn knots s ≤ u) (hr : u < knotFn knots (s + 1)) (j : ℕ) (hj : j ≤ p) :
    ∃ m, basisFunctions g order u s p knots = .ok m ∧ m 0 j = coxDeBoor (knotFn knots) p (s - p + j) u := by
  have h1 := h.left
  have h2 := h.right
  refine ⟨_, basisFunctions_eq g order u knots p s h, ?_⟩
  have := basisTable_eq (knotFn knots) s u p order h.separated g 0 j (Nat.zero_le _) hj
  rw [Nat.cast_zero] at this
  rw [this, Function.iterate_zero, id, coxDeBoor_eq_piece (knotFn knots) s 0 (knots.length - 1) u
    (fun a b => knotFn_mono knots p h.vector a b) (by omega) (by omega) hl hr p _ (by omega) (by omega)]

/-- C46: all other basis functions vanish on the span. -/
theorem C46_others_vanish (u : K) (knots : List K) (p s : ℕ) (h : SpanOf knots p s)
    (hl : knotFn knots s ≤ u) (hr : u < knotFn knots (s + 1)) (i : ℕ) (hi : i < knots.length - p - 1)
    (hout : i + p < s ∨ s < i) : coxDeBoor (knotFn knots) p i u = 0 := by
  have h1 := h.left
  have h2 := h.right
  rw [coxDeBoor_eq_piece (knotFn knots) s 0 (knots.length - 1) u
    (fun a b => knotFn_mono knots p h.vector a b) (by omega) (by omega) hl hr p _ (by omega) (by omega)]
  rcases hout with h | h
  · rw [piece_zero_left _ _ _ _ (by omega), eval_zero]
  · rw [piece_zero_right _ _ _ _ (by omega), eval_zero]

/-- C46: on the closed span the values are non-negative and add up to one; the derivatives add up to zero. -/
theorem C46_partition (g : Garbage K) (order : ℕ) (u : K) (knots : List K) (p s : ℕ) (h : SpanOf knots p s) :
    ∃ m, basisFunctions g order u s p knots = .ok m ∧ ∑ j ∈ Finset.range (p + 1), m 0 j = 1 ∧
      (∀ k : ℕ, 1 ≤ k → k ≤ order → ∑ j ∈ Finset.range (p + 1), m k j = 0) ∧
      (knotFn knots s ≤ u → u ≤ knotFn knots (s + 1) → ∀ j : ℕ, j ≤ p → 0 ≤ m 0 j) := by
  have h1 := h.left
  have h2 := h.right
  have ht := basisTable_eq (knotFn knots) s u p order h.separated g
  have hsum := sum_piece (knotFn knots) s p h.separated p le_rfl
  refine ⟨_, basisFunctions_eq g order u knots p s h, ?_, fun k hk1 hk2 => ?_, fun hl hr j hj => ?_⟩
  · have h0 : ∀ j ∈ Finset.range (p + 1), basisTable g order u s p (knotFn knots) 0 j =
        (piece (knotFn knots) s p (s - p + j)).eval u := fun j hj => by
      have := ht 0 j (Nat.zero_le _) (by have := Finset.mem_range.1 hj; omega)
      rwa [Nat.cast_zero] at this
    rw [Finset.sum_congr rfl h0]
    have := congrArg (eval u) hsum
    rw [eval_finsetSum, eval_one] at this
    simpa using this
  · rw [Finset.sum_congr rfl fun j hj => ht k j hk2 (by have := Finset.mem_range.1 hj; omega)]
    have := congrArg (fun q => eval u (derivative^[k] q)) hsum
    rw [iterate_derivative_sum, eval_finsetSum] at this
    rw [this]
    obtain ⟨n, rfl⟩ : ∃ n, k = n + 1 := ⟨k - 1, by omega⟩
    rw [Function.iterate_succ_apply, derivative_one, iterate_derivative_zero, eval_zero]
  · have := ht 0 j (Nat.zero_le _) hj
    rw [Nat.cast_zero] at this
    rw [this, Function.iterate_zero, id]
    exact piece_nonneg (knotFn knots) s 0 (knots.length - 1) u (fun a b => knotFn_mono knots p h.vector a b)
      (by omega) (by omega) hl hr p _ (by omega) (by omega)

omit [LinearOrder K] [IsStrictOrderedRing K] in
theorem weightedSum_eq (m : Mem K) (p : ℕ) (w : ℕ → K) (k : ℕ) :
    weightedSum m p w k = ∑ i ∈ Finset.range (p + 1), m k i * w i := by
  unfold weightedSum
  generalize p + 1 = n
  induction n with
  | zero => rfl
  | succ n ih => rw [List.range_succ, List.foldl_append, ih, Finset.sum_range_succ]; rfl

/-- C46: for positive weights the rational basis functions are defined, non-negative on the closed span and
add up to one. -/
theorem C46_rational (g : Garbage K) (u : K) (knots weights : List K) (p s : ℕ) (h : SpanOf knots p s)
    (hw : weights.length = knots.length - p - 1) (hpos : ∀ w ∈ weights, 0 < w)
    (hl : knotFn knots s ≤ u) (hr : u ≤ knotFn knots (s + 1)) :
    ∃ l, rational g 0 u s p knots weights = .ok l ∧ l.length = p + 1 ∧ (∀ x ∈ l, 0 ≤ x) ∧ l.sum = 1 := by
  have h1 := h.left
  have h2 := h.right
  obtain ⟨m, hm, hsum, _, hnn⟩ := C46_partition g 0 u knots p s h
  have hnn' := hnn hl hr
  set w : ℕ → K := fun i => weights.getD ((s : ℤ) - p + i).toNat 0 with hwdef
  have hwpos : ∀ i, i ≤ p → 0 < w i := by
    intro i hi
    rw [hwdef]
    dsimp only
    rw [List.getD_eq_getElem _ _ (by omega)]
    exact hpos _ (List.getElem_mem _)
  have hW : weightedSum m p w 0 = ∑ i ∈ Finset.range (p + 1), m 0 i * w i := by
    have := weightedSum_eq m p w 0
    rwa [Nat.cast_zero] at this
  have hWpos : 0 < weightedSum m p w 0 := by
    rw [hW]
    refine lt_of_le_of_ne (Finset.sum_nonneg fun i hi => ?_) fun h0 => ?_
    · have := Finset.mem_range.1 hi
      exact mul_nonneg (hnn' i (by omega)) (hwpos i (by omega)).le
    · have hz := (Finset.sum_eq_zero_iff_of_nonneg fun i hi => by
        have := Finset.mem_range.1 hi
        exact mul_nonneg (hnn' i (by omega)) (hwpos i (by omega)).le).1 h0.symm
      have : ∑ j ∈ Finset.range (p + 1), m 0 j = 0 := Finset.sum_eq_zero fun i hi => by
        have hi' := Finset.mem_range.1 hi
        exact (mul_eq_zero.1 (hz i hi)).resolve_right (hwpos i (by omega)).ne'
      rw [this] at hsum
      exact zero_ne_one hsum
  refine ⟨(List.range (p + 1)).map (rationalEntry m p w 0), ?_, by simp, fun x hx => ?_, ?_⟩
  · unfold rational
    rw [if_pos (by omega), hm, Res.bind_ok', if_pos ⟨by omega, by omega⟩]
  · obtain ⟨i, hi, rfl⟩ := List.mem_map.1 hx
    have hi' := List.mem_range.1 hi
    unfold rationalEntry
    rw [if_pos rfl]
    exact div_nonneg (mul_nonneg (hnn' i (by omega)) (hwpos i (by omega)).le) hWpos.le
  · have : ((List.range (p + 1)).map (rationalEntry m p w 0)).sum =
        ∑ i ∈ Finset.range (p + 1), m 0 i * w i / weightedSum m p w 0 := by
      generalize p + 1 = n
      induction n with
      | zero => rfl
      | succ n ih =>
        rw [List.range_succ, List.map_append, List.sum_append, ih, Finset.sum_range_succ, List.map_singleton,
          List.sum_singleton, rationalEntry, if_pos rfl]
    rw [this, ← Finset.sum_div, ← hW, div_self hWpos.ne']

/-- C46: with equal weights the rational functions are the B-spline functions. -/
theorem C46_equal_weights (g : Garbage K) (u c : K) (hc : c ≠ 0) (knots : List K) (p s : ℕ) (h : SpanOf knots p s)
    (i : ℕ) : ∃ m, basisFunctions g 0 u s p knots = .ok m ∧ rationalEntry m p (fun _ => c) 0 i = m 0 i := by
  obtain ⟨m, hm, hsum, _, _⟩ := C46_partition g 0 u knots p s h
  refine ⟨m, hm, ?_⟩
  have hW := weightedSum_eq m p (fun _ => c) 0
  rw [Nat.cast_zero, ← Finset.sum_mul, hsum, one_mul] at hW
  unfold rationalEntry
  rw [if_pos rfl]
  dsimp only
  rw [hW, mul_div_assoc, div_self hc, mul_one]

/-- A quadratic knot vector with a repeated inner knot: a span that meets the hypotheses. -/
example : SpanOf ([0, 0, 0, 1, 1, 2, 2, 2] : List ℚ) 2 4 := by
  refine ⟨⟨fun i j a b hi hj hij => ?_, by decide⟩, by decide, by decide, by decide +kernel⟩
  have hp : List.Pairwise (· ≤ ·) ([0, 0, 0, 1, 1, 2, 2, 2] : List ℚ) := by decide +kernel
  obtain ⟨hi', rfl⟩ := List.getElem?_eq_some_iff.1 hi
  obtain ⟨hj', rfl⟩ := List.getElem?_eq_some_iff.1 hj
  rcases Nat.lt_or_ge i j with h | h
  · exact List.pairwise_iff_getElem.1 hp i j hi' hj' h
  · obtain rfl : i = j := by omega
    exact le_refl _

end NuTo.Nurbs
