import Verif.Model.Iga
import Verif.Props.Nurbs

/-! Lemmas on NURBS curves -/
namespace NuTo.Nurbs
open Polynomial

variable {K : Type _} [Field K] [LinearOrder K] [IsStrictOrderedRing K] {d : ℕ}

omit [LinearOrder K] [IsStrictOrderedRing K] in
theorem combine_eq (shape : List K) (points : List (Fin d → K)) (k : Fin d) :
    combine shape points k = ∑ j ∈ Finset.range points.length, shape.getD j 0 * points.getD j 0 k := by
  unfold combine
  have : ∀ n : ℕ, (List.range n).foldl (fun (c : Fin d → K) (j : ℕ) => fun k => c k + shape.getD j 0 * points.getD j 0 k) (fun _ => 0) k =
      ∑ j ∈ Finset.range n, shape.getD j 0 * points.getD j 0 k := by
    intro n
    induction n with
    | zero => rfl
    | succ n ih => rw [List.range_succ, List.foldl_append, Finset.sum_range_succ, ← ih]; rfl
  exact this _

/-- the shape functions of a span -/
theorem shape_span (c : Curve K d) (g : Garbage K) (der : ℕ) (hd : der ≤ 2) (u : K) (s : ℕ) (h : SpanOf c.knots c.degree s)
    (hw : c.weights.length = c.knots.length - c.degree - 1) (hf : findSpan u c.degree c.knots = .ok (s : ℤ)) :
    c.shape g der u = .ok ((List.range (c.degree + 1)).map
      (rationalEntry (basisTable g der u s c.degree (knotFn c.knots)) c.degree (fun i => c.weights.getD (s - c.degree + i) 0) der)) := by
  have h1 := h.left
  have h2 := h.right
  unfold Curve.shape rational
  rw [hf, Res.bind_ok', if_pos hd, basisFunctions_eq g der u c.knots c.degree s h, Res.bind_ok', if_pos ⟨by omega, by omega⟩]
  congr 3
  funext i
  congr 1
  omega

omit [LinearOrder K] [IsStrictOrderedRing K] in
theorem controlPoints_span (c : Curve K d) (s : ℕ) (h1 : c.degree ≤ s) (h2 : s < c.points.length) :
    c.controlPoints s = .ok ((List.range (c.degree + 1)).map fun i => c.points.getD (s - c.degree + i) 0) := by
  unfold Curve.controlPoints
  rw [if_neg (by omega), if_pos (by omega)]
  congr 2
  funext i
  congr 1
  omega

omit [LinearOrder K] [IsStrictOrderedRing K] in
theorem combine_map (n : ℕ) (f : ℕ → K) (p : ℕ → Fin d → K) :
    combine ((List.range n).map f) ((List.range n).map p) = fun k => ∑ j ∈ Finset.range n, f j * p j k := by
  funext k
  rw [combine_eq, List.length_map, List.length_range]
  refine Finset.sum_congr rfl fun j hj => ?_
  have hj' : j < n := Finset.mem_range.1 hj
  rw [List.getD_eq_getElem _ _ (by simpa using hj'), List.getD_eq_getElem _ _ (by simpa using hj')]
  simp

theorem evaluate_span (c : Curve K d) (g : Garbage K) (der : ℕ) (hd : der ≤ 2) (u : K) (s : ℕ) (h : SpanOf c.knots c.degree s)
    (hp : c.points.length = c.knots.length - c.degree - 1) (hw : c.weights.length = c.knots.length - c.degree - 1)
    (hf : findSpan u c.degree c.knots = .ok (s : ℤ)) :
    c.evaluate g u der = .ok fun k => ∑ j ∈ Finset.range (c.degree + 1),
      rationalEntry (basisTable g der u s c.degree (knotFn c.knots)) c.degree (fun i => c.weights.getD (s - c.degree + i) 0) der j *
        c.points.getD (s - c.degree + j) 0 k := by
  have h2 := h.right
  unfold Curve.evaluate
  rw [hf, Res.bind_ok', shape_span c g der hd u s h hw hf, Res.bind_ok', controlPoints_span c s h.left (by omega), Res.bind_ok',
    if_pos (by simp), combine_map]

/-- a sum over all functions is a sum over the functions of a span -/
theorem window_sum {M : Type _} [AddCommMonoid M] (f : ℕ → M) (n s p : ℕ) (hp : p ≤ s) (hs : s < n) (h0 : ∀ i < n, i + p < s ∨ s < i → f i = 0) :
    ∑ i ∈ Finset.range n, f i = ∑ j ∈ Finset.range (p + 1), f (s - p + j) := by
  rw [show ∑ j ∈ Finset.range (p + 1), f (s - p + j) = ∑ i ∈ (Finset.range (p + 1)).image (fun j => s - p + j), f i by
    rw [Finset.sum_image fun a _ b _ hab => by omega]]
  refine (Finset.sum_subset (fun i hi => ?_) fun i hi hn => ?_).symm
  · obtain ⟨j, hj, rfl⟩ := Finset.mem_image.1 hi
    rw [Finset.mem_range] at hj ⊢
    omega
  · refine h0 i (Finset.mem_range.1 hi) ?_
    by_contra hc
    push Not at hc
    exact hn (Finset.mem_image.2 ⟨i - (s - p), Finset.mem_range.2 (by omega), by omega⟩)

omit [IsStrictOrderedRing K] in
/-- the span of a parameter is unique -/
theorem findSpan_eq_of (u : K) (p : ℕ) (knots : List K) (s : ℕ) (h : SpanOf knots p s) (hl : knotFn knots s ≤ u) (hr : u < knotFn knots (s + 1)) :
    findSpan u p knots = .ok (s : ℤ) := by
  have h1 := h.left
  have h2 := h.right
  have m1 := knotFn_mono knots p h.vector p s (by omega) (by omega) (by omega)
  have m2 := knotFn_mono knots p h.vector (s + 1) (knots.length - p - 1) (by omega) (by omega) (by omega)
  obtain ⟨t, e, ht, a, b⟩ := C46_span u p knots h.vector (m1.trans hl) (lt_of_lt_of_le hr m2)
  have t1 := ht.left
  have t2 := ht.right
  rw [e]
  rcases lt_trichotomy t s with hlt | rfl | hgt
  · have := knotFn_mono knots p h.vector (t + 1) s (by omega) (by omega) (by omega)
    exact absurd (lt_of_lt_of_le b (this.trans hl)) (lt_irrefl _)
  · rfl
  · have := knotFn_mono knots p h.vector (s + 1) t (by omega) (by omega) (by omega)
    exact absurd (lt_of_lt_of_le hr (this.trans a)) (lt_irrefl _)

omit [IsStrictOrderedRing K] in
/-- the last span at the right end -/
theorem findSpan_last (p : ℕ) (knots : List K) (hk : KnotVector knots p)
    (hne : knotFn knots (knots.length - p - 2) < knotFn knots (knots.length - p - 1)) :
    ∃ s : ℕ, s + 1 = knots.length - p - 1 ∧ findSpan (knotFn knots (knots.length - p - 1)) p knots = .ok (s : ℤ) ∧ SpanOf knots p s := by
  have hlen := hk.length
  have e : ∀ (i : ℕ) (a : K), knots[i]? = some a → knotFn knots i = a := fun i a h => by
    unfold knotFn
    rw [Int.toNat_natCast, List.getD_eq_getElem?_getD, h, Option.getD_some]
  have g : ∀ (i : ℕ) (h : i < knots.length), knots[i]? = some (knotFn knots i) := fun i h => by
    rw [List.getElem?_eq_getElem h, e i _ (List.getElem?_eq_getElem h)]
  have c1 : ((knots.length - p - 1 : ℕ) : ℤ) = (knots.length : ℤ) - p - 1 := by omega
  have c2 : ((knots.length - p - 2 : ℕ) : ℤ) = (knots.length : ℤ) - p - 2 := by omega
  refine ⟨knots.length - p - 2, by omega, ?_, hk, by omega, by omega, ?_⟩
  · unfold findSpan
    have k0 : knotAt knots 0 = .ok (knotFn knots 0) := by
      have := knotAt_nat knots 0 (by omega)
      rw [Nat.cast_zero] at this
      rw [this]
      congr 1
      have h0 := e 0 _ (List.getElem?_eq_getElem (by omega : 0 < knots.length))
      rw [← h0]; rfl
    have kk : ∀ i : ℕ, i < knots.length → knotAt knots i = .ok (knotFn knots i) := fun i hi => by
      rw [knotAt_nat knots i hi, e i _ (List.getElem?_eq_getElem hi)]
    have kl := kk (knots.length - 1) (by omega)
    have kn := kk (knots.length - p - 1) (by omega)
    have c3 : ((knots.length - 1 : ℕ) : ℤ) = (knots.length : ℤ) - 1 := by omega
    rw [c3] at kl
    rw [c1] at kn
    simp only [k0, kl, Res.bind_ok']
    rw [if_neg, kn, Res.bind_ok', if_pos rfl]
    · congr 1; omega
    · push Not
      exact ⟨knotFn_mono knots p hk 0 _ (by omega) (by omega) (by omega), knotFn_mono knots p hk _ _ (by omega) (by omega) (by omega)⟩
  · rw [c2]
    have : (knots.length : ℤ) - p - 2 + 1 = knots.length - p - 1 := by ring
    rw [this]
    exact hne

/-- the functions at a knot of full multiplicity to the right -/
theorem piece_right (knot : ℤ → K) (span : ℤ) (p : ℕ) (u : K) (hs : knot span < u) (hk : ∀ m : ℕ, 1 ≤ m → m ≤ p → knot (span + m) = u) (q : ℕ)
    (hq : q ≤ p) : ∀ i : ℤ, i ≤ span → (piece knot span q i).eval u = if i = span then 1 else 0 := by
  induction q with
  | zero =>
    intro i _
    rw [piece]
    split <;> simp
  | succ q ih =>
    intro i hi
    have ih' := ih (by omega)
    have hkq : knot (span + (q + 1 : ℕ)) = u := hk (q + 1) (by omega) hq
    rw [piece]
    simp only [eval_add, eval_mul, eval_sub, eval_X, eval_C]
    rcases eq_or_lt_of_le hi with rfl | hlt
    · have e : i + (q : ℤ) + 1 = i + (q + 1 : ℕ) := by push_cast; ring
      rw [ih' i le_rfl, if_pos rfl, piece_zero_right knot i q (i + 1) (by omega), eval_zero, e, hkq]
      have : u - knot i ≠ 0 := (sub_pos.2 hs).ne'
      field_simp
      ring
    · rw [ih' i hi, if_neg hlt.ne, ih' (i + 1) (by omega)]
      by_cases h1 : i + 1 = span
      · have e : i + (q : ℤ) + 2 = span + (q + 1 : ℕ) := by push_cast; omega
        rw [e, hkq]
        simp
      · rw [if_neg h1]
        simp

/-- the functions at a knot of full multiplicity to the left -/
theorem piece_left (knot : ℤ → K) (span : ℤ) (p : ℕ) (u : K) (hs : u < knot (span + 1)) (hk : ∀ m : ℕ, m < p → knot (span - m) = u) (q : ℕ)
    (hq : q ≤ p) : ∀ i : ℤ, (piece knot span q i).eval u = if i = span - q then 1 else 0 := by
  induction q with
  | zero =>
    intro i
    rw [piece]
    simp only [Nat.cast_zero, sub_zero]
    split <;> simp
  | succ q ih =>
    intro i
    have ih' := ih (by omega)
    have hkq : knot (span - q) = u := hk q (by omega)
    rw [piece]
    simp only [eval_add, eval_mul, eval_sub, eval_X, eval_C]
    rw [ih' i, ih' (i + 1)]
    by_cases h1 : i + 1 = span - q
    · have e : i + (q : ℤ) + 2 = span + 1 := by omega
      rw [if_neg (by omega), if_pos h1, if_pos (by push_cast; omega), e, h1, hkq]
      have : knot (span + 1) - u ≠ 0 := (sub_pos.2 hs).ne'
      field_simp
      ring
    · rw [if_neg h1, if_neg (show ¬ i = span - (q + 1 : ℕ) by push_cast; omega)]
      by_cases h2 : i = span - q
      · rw [if_pos h2, h2, hkq]
        simp
      · rw [if_neg h2]
        simp

omit [LinearOrder K] [IsStrictOrderedRing K] in
theorem combine_append (a b : List K) (p q : List (Fin d → K)) (h : a.length = p.length) :
    combine (a ++ b) (p ++ q) = fun k => combine a p k + combine b q k := by
  funext k
  rw [combine_eq, combine_eq, combine_eq, List.length_append, Finset.sum_range_add]
  congr 1
  · refine Finset.sum_congr rfl fun j hj => ?_
    have hj' := Finset.mem_range.1 hj
    rw [List.getD_append _ _ _ _ (by omega), List.getD_append _ _ _ _ hj']
  · refine Finset.sum_congr rfl fun j hj => ?_
    rw [List.getD_append_right _ _ _ _ (by omega), List.getD_append_right _ _ _ _ (by omega)]
    rw [h, Nat.add_sub_cancel_left]

omit [LinearOrder K] [IsStrictOrderedRing K] in
theorem combine_flatMap (n m : ℕ) (f : ℕ → ℕ → K) (p : ℕ → ℕ → Fin d → K) :
    combine ((List.range n).flatMap fun i => (List.range m).map (f i)) ((List.range n).flatMap fun i => (List.range m).map (p i)) =
      fun k => ∑ i ∈ Finset.range n, ∑ j ∈ Finset.range m, f i j * p i j k := by
  induction n with
  | zero => rfl
  | succ n ih =>
    rw [List.range_succ, List.flatMap_append, List.flatMap_append, combine_append _ _ _ _ (by simp), ih]
    funext k
    rw [Finset.sum_range_succ]
    congr 1
    simp only [List.flatMap_cons, List.flatMap_nil, List.append_nil]
    rw [combine_map]

end NuTo.Nurbs
