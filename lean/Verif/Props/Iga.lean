/-
C94: NURBS curves, surfaces and isogeometric elements.
-/
import Verif.Lemmas.Iga
import Verif.Props.NurbsDeriv
import Mathlib.Analysis.Calculus.Deriv.Prod

namespace NuTo.Nurbs
open Polynomial

section Curves

variable {K : Type _} [Field K] [LinearOrder K] [IsStrictOrderedRing K] {d : ℕ}

/-- Specification: sorted knots, one control point and one positive weight for each basis function. -/
structure Curve.WellFormed (c : Curve K d) : Prop where
  vector : KnotVector c.knots c.degree
  points : c.points.length = c.knots.length - c.degree - 1
  weights : c.weights.length = c.knots.length - c.degree - 1
  pos : ∀ w ∈ c.weights, 0 < w

/-- Specification: the point of the curve, the mean of all control points with the weighted B-spline functions of Cox and de Boor. -/
def Curve.point (c : Curve K d) (u : K) : Fin d → K := fun k =>
  (∑ i ∈ Finset.range c.points.length, c.weights.getD i 0 * coxDeBoor (knotFn c.knots) c.degree i u * c.points.getD i 0 k) /
    ∑ i ∈ Finset.range c.points.length, c.weights.getD i 0 * coxDeBoor (knotFn c.knots) c.degree i u

/-- The knot at the right end of the domain -/
def Curve.last (c : Curve K d) : K := knotFn c.knots (c.knots.length - c.degree - 1)

/-- The last span of the domain has positive length. -/
def Curve.LastSpan (c : Curve K d) : Prop := knotFn c.knots (c.knots.length - c.degree - 2) < c.last

theorem domain_span (c : Curve K d) (hk : KnotVector c.knots c.degree) (u : K) (hl : knotFn c.knots c.degree ≤ u)
    (hr : u < c.last ∨ (u = c.last ∧ c.LastSpan)) :
    ∃ s : ℕ, findSpan u c.degree c.knots = .ok (s : ℤ) ∧ SpanOf c.knots c.degree s ∧ knotFn c.knots s ≤ u ∧ u ≤ knotFn c.knots (s + 1) := by
  rcases hr with hr | ⟨rfl, hr⟩
  · obtain ⟨s, h1, h2, h3, h4⟩ := C46_span u c.degree c.knots hk hl hr
    exact ⟨s, h1, h2, h3, h4.le⟩
  · obtain ⟨s, h0, h1, h2⟩ := findSpan_last c.degree c.knots hk hr
    have hlen := hk.length
    have e : ((s : ℤ) + 1) = (c.knots.length : ℤ) - c.degree - 1 := by omega
    refine ⟨s, h1, h2, ?_, by rw [e]; exact le_rfl⟩
    exact knotFn_mono c.knots c.degree hk s _ (by omega) (by omega) (by omega)

theorem sum_map_range {M : Type _} [AddCommMonoid M] (f : ℕ → M) (n : ℕ) :
    ∑ j ∈ Finset.range n, f j = ((List.range n).map f).sum := by
  induction n with
  | zero => rfl
  | succ n ih => rw [Finset.sum_range_succ, List.range_succ, List.map_append, List.sum_append, ih]; simp

/-- the shape functions are the coefficients of a mean -/
theorem convex_span (c : Curve K d) (hc : c.WellFormed) (g : Garbage K) (u : K) (s : ℕ) (h : SpanOf c.knots c.degree s)
    (hf : findSpan u c.degree c.knots = .ok (s : ℤ)) (hl : knotFn c.knots s ≤ u) (hr : u ≤ knotFn c.knots (s + 1)) :
    ∃ R : ℕ → K, (∀ j ≤ c.degree, 0 ≤ R j) ∧ ∑ j ∈ Finset.range (c.degree + 1), R j = 1 ∧
      c.shape g 0 u = .ok ((List.range (c.degree + 1)).map R) ∧
      c.evaluate g u 0 = .ok fun k => ∑ j ∈ Finset.range (c.degree + 1), R j * c.points.getD (s - c.degree + j) 0 k := by
  obtain ⟨l, h1, h2, h3, h4⟩ := C46_rational g u c.knots c.weights c.degree s h hc.weights hc.pos hl hr
  have hs := shape_span c g 0 (by omega) u s h hc.weights hf
  have he := evaluate_span c g 0 (by omega) u s h hc.points hc.weights hf
  generalize rationalEntry (basisTable g 0 u s c.degree (knotFn c.knots)) c.degree (fun i => c.weights.getD (s - c.degree + i) 0) 0 = R at hs he
  have : c.shape g 0 u = .ok l := by
    unfold Curve.shape
    rw [hf, Res.bind_ok', h1]
  rw [hs] at this
  obtain rfl := Res.ok.inj this
  refine ⟨R, fun j hj => h3 _ (List.mem_map.2 ⟨j, List.mem_range.2 (by omega), rfl⟩), ?_, hs, he⟩
  rw [← h4, ← sum_map_range]

/-- C94: `Evaluate` returns the point of the curve. -/
theorem C94_evaluate (c : Curve K d) (hc : c.WellFormed) (g : Garbage K) (u : K) (hl : knotFn c.knots c.degree ≤ u) (hr : u < c.last) :
    c.evaluate g u 0 = .ok (c.point u) := by
  obtain ⟨s, h1, h2, h3, h4⟩ := C46_span u c.degree c.knots hc.vector hl hr
  have hl' := h2.left
  have hr' := h2.right
  have hp := hc.points
  rw [evaluate_span c g 0 (by omega) u s h2 hc.points hc.weights h1]
  have hN : ∀ j : ℕ, j ≤ c.degree → basisTable g 0 u s c.degree (knotFn c.knots) 0 j =
      coxDeBoor (knotFn c.knots) c.degree ((s - c.degree + j : ℕ) : ℤ) u := by
    intro j hj
    obtain ⟨m, hm, e⟩ := C46_values g 0 u c.knots c.degree s h2 h3 h4 j hj
    rw [basisFunctions_eq g 0 u c.knots c.degree s h2] at hm
    obtain rfl := Res.ok.inj hm
    rw [e]
    congr 1
    omega
  have hW : weightedSum (basisTable g 0 u s c.degree (knotFn c.knots)) c.degree (fun i => c.weights.getD (s - c.degree + i) 0) 0 =
      ∑ i ∈ Finset.range c.points.length, c.weights.getD i 0 * coxDeBoor (knotFn c.knots) c.degree i u := by
    rw [window_sum _ c.points.length s c.degree hl' (by omega) fun i hi ho => by
      rw [C46_others_vanish u c.knots c.degree s h2 h3 h4 i (by omega) ho, mul_zero]]
    have := weightedSum_eq (basisTable g 0 u s c.degree (knotFn c.knots)) c.degree (fun i => c.weights.getD (s - c.degree + i) 0) 0
    rw [Nat.cast_zero] at this
    rw [this]
    refine Finset.sum_congr rfl fun j hj => ?_
    rw [hN j (by have := Finset.mem_range.1 hj; omega), mul_comm]
  congr 1
  funext k
  unfold Curve.point
  rw [window_sum (fun i => c.weights.getD i 0 * coxDeBoor (knotFn c.knots) c.degree i u * c.points.getD i 0 k) c.points.length s c.degree hl'
    (by omega) fun i hi ho => by rw [C46_others_vanish u c.knots c.degree s h2 h3 h4 i (by omega) ho, mul_zero, zero_mul], ← hW,
    Finset.sum_div]
  refine Finset.sum_congr rfl fun j hj => ?_
  have hj' := Finset.mem_range.1 hj
  unfold rationalEntry
  rw [if_pos rfl]
  dsimp only
  rw [hN j (by omega)]
  ring

/-- C94: outside of the domain an exception is raised. -/
theorem C94_outside (c : Curve K d) (hc : c.WellFormed) (g : Garbage K) (u : K) (der : ℕ)
    (h : u < knotFn c.knots c.degree ∨ c.last < u) : c.evaluate g u der = .throw := by
  have hlen := hc.vector.length
  have e : ∀ (i : ℕ) (a : K), c.knots[i]? = some a → knotFn c.knots i = a := fun i a h => by
    unfold knotFn
    rw [Int.toNat_natCast, List.getD_eq_getElem?_getD, h, Option.getD_some]
  have : findSpan u c.degree c.knots = .throw := C45_outside u c.degree c.knots hc.vector (by
    rcases h with h | h
    · exact .inl fun a ha => by rw [← e _ a ha]; exact h
    · refine .inr fun a ha => ?_
      have hq := e _ a ha
      have c1 : ((c.knots.length - c.degree - 1 : ℕ) : ℤ) = (c.knots.length : ℤ) - c.degree - 1 := by omega
      rw [c1] at hq
      rw [← hq]
      exact h)
  unfold Curve.evaluate
  rw [this]
  rfl

/-- C94: the curve lies in the convex hull of its control points: if all of them lie in a half space, so does every point. -/
theorem C94_hull (c : Curve K d) (hc : c.WellFormed) (g : Garbage K) (u : K) (hl : knotFn c.knots c.degree ≤ u)
    (hr : u < c.last ∨ (u = c.last ∧ c.LastSpan)) (a : Fin d → K) (b : K) (hP : ∀ P ∈ c.points, ∑ k, a k * P k ≤ b) :
    ∃ x, c.evaluate g u 0 = .ok x ∧ ∑ k, a k * x k ≤ b := by
  obtain ⟨s, h1, h2, h3, h4⟩ := domain_span c hc.vector u hl hr
  obtain ⟨R, hR, hsum, _, he⟩ := convex_span c hc g u s h2 h1 h3 h4
  refine ⟨_, he, ?_⟩
  have hl' := h2.left
  have hr' := h2.right
  have hp := hc.points
  have : ∑ k, a k * ∑ j ∈ Finset.range (c.degree + 1), R j * c.points.getD (s - c.degree + j) 0 k =
      ∑ j ∈ Finset.range (c.degree + 1), R j * ∑ k, a k * c.points.getD (s - c.degree + j) 0 k := by
    simp only [Finset.mul_sum]
    rw [Finset.sum_comm]
    exact Finset.sum_congr rfl fun j _ => Finset.sum_congr rfl fun k _ => by ring
  rw [this, ← one_mul b, ← hsum, Finset.sum_mul]
  refine Finset.sum_le_sum fun j hj => ?_
  have hj' := Finset.mem_range.1 hj
  refine mul_le_mul_of_nonneg_left (hP _ ?_) (hR j (by omega))
  rw [List.getD_eq_getElem _ _ (by omega)]
  exact List.getElem_mem _

/-- C94: an affine map of the control points maps the curve. -/
theorem C94_affine {e : ℕ} (c : Curve K d) (hc : c.WellFormed) (g : Garbage K) (u : K) (hl : knotFn c.knots c.degree ≤ u)
    (hr : u < c.last ∨ (u = c.last ∧ c.LastSpan)) (A : Fin e → Fin d → K) (b : Fin e → K) :
    ∃ x, c.evaluate g u 0 = .ok x ∧
      Curve.evaluate ⟨c.knots, c.points.map (fun P i => ∑ k, A i k * P k + b i), c.weights, c.degree⟩ g u 0 =
        .ok fun i => ∑ k, A i k * x k + b i := by
  obtain ⟨s, h1, h2, h3, h4⟩ := domain_span c hc.vector u hl hr
  obtain ⟨R, hR, hsum, hs, he⟩ := convex_span c hc g u s h2 h1 h3 h4
  have hl' := h2.left
  have hr' := h2.right
  have hp := hc.points
  refine ⟨_, he, ?_⟩
  have hc' : Curve.WellFormed ⟨c.knots, c.points.map (fun P i => ∑ k, A i k * P k + b i), c.weights, c.degree⟩ :=
    ⟨hc.vector, by simpa using hc.points, hc.weights, hc.pos⟩
  obtain ⟨R', _, _, hs', he'⟩ := convex_span _ hc' g u s h2 h1 h3 h4
  have hRR : ∀ j ≤ c.degree, R' j = R j := by
    intro j hj
    have : Res.ok ((List.range (c.degree + 1)).map R') = Res.ok ((List.range (c.degree + 1)).map R) := by rw [← hs, ← hs']; rfl
    have := congrArg (fun l => l.getD j 0) (Res.ok.inj this)
    simpa [show j < c.degree + 1 by omega] using this
  rw [he']
  congr 1
  funext i
  dsimp only
  have : ∀ j ∈ Finset.range (c.degree + 1), R' j * (c.points.map (fun P i => ∑ k, A i k * P k + b i)).getD (s - c.degree + j) 0 i =
      R j * (∑ k, A i k * c.points.getD (s - c.degree + j) 0 k + b i) := by
    intro j hj
    have hj' := Finset.mem_range.1 hj
    rw [hRR j (by omega), List.getD_eq_getElem _ _ (by rw [List.length_map]; omega), List.getElem_map, List.getD_eq_getElem _ _ (by omega)]
  rw [Finset.sum_congr rfl this]
  simp only [mul_add, Finset.sum_add_distrib, ← Finset.sum_mul, hsum, one_mul]
  congr 1
  simp only [Finset.mul_sum]
  rw [Finset.sum_comm]
  exact Finset.sum_congr rfl fun j _ => Finset.sum_congr rfl fun k _ => by ring

/-- only one function does not vanish -/
theorem shape_single (c : Curve K d) (hc : c.WellFormed) (g : Garbage K) (u : K) (s : ℕ) (h : SpanOf c.knots c.degree s)
    (hf : findSpan u c.degree c.knots = .ok (s : ℤ)) (j0 : ℕ) (hj0 : j0 ≤ c.degree)
    (hN : ∀ j ≤ c.degree, (piece (knotFn c.knots) s c.degree (s - c.degree + j)).eval u = if j = j0 then 1 else 0) :
    c.shape g 0 u = .ok ((List.range (c.degree + 1)).map fun j => if j = j0 then 1 else 0) := by
  have hl' := h.left
  have hr' := h.right
  rw [shape_span c g 0 (by omega) u s h hc.weights hf]
  have hB : ∀ j : ℕ, j ≤ c.degree → basisTable g 0 u s c.degree (knotFn c.knots) 0 j = if j = j0 then 1 else 0 := by
    intro j hj
    have := basisTable_eq (knotFn c.knots) s u c.degree 0 h.separated g 0 j le_rfl hj
    rw [Nat.cast_zero] at this
    rw [this, ← hN j hj]
    rfl
  have hw : c.weights.getD (s - c.degree + j0) 0 ≠ 0 := by
    have := hc.weights
    rw [List.getD_eq_getElem _ _ (by omega)]
    exact (hc.pos _ (List.getElem_mem _)).ne'
  have hW : weightedSum (basisTable g 0 u s c.degree (knotFn c.knots)) c.degree (fun i => c.weights.getD (s - c.degree + i) 0) 0 =
      c.weights.getD (s - c.degree + j0) 0 := by
    have := weightedSum_eq (basisTable g 0 u s c.degree (knotFn c.knots)) c.degree (fun i => c.weights.getD (s - c.degree + i) 0) 0
    rw [Nat.cast_zero] at this
    rw [this, Finset.sum_eq_single j0 (fun j hj hne => by
      rw [hB j (by have := Finset.mem_range.1 hj; omega), if_neg hne, zero_mul]) (fun hn => absurd (Finset.mem_range.2 (by omega)) hn),
      hB j0 hj0, if_pos rfl, one_mul]
  congr 1
  refine List.map_congr_left fun j hj => ?_
  have hj' := List.mem_range.1 hj
  unfold rationalEntry
  rw [if_pos rfl, hB j (by omega)]
  dsimp only
  rw [hW]
  by_cases hjj : j = j0
  · rw [if_pos hjj, one_mul, hjj, div_self hw]
  · rw [if_neg hjj, zero_mul, zero_div]

theorem evaluate_single (c : Curve K d) (hc : c.WellFormed) (g : Garbage K) (u : K) (s : ℕ) (h : SpanOf c.knots c.degree s)
    (hf : findSpan u c.degree c.knots = .ok (s : ℤ)) (j0 : ℕ) (hj0 : j0 ≤ c.degree)
    (hN : ∀ j ≤ c.degree, (piece (knotFn c.knots) s c.degree (s - c.degree + j)).eval u = if j = j0 then 1 else 0) :
    c.evaluate g u 0 = .ok (c.points.getD (s - c.degree + j0) 0) := by
  have hl' := h.left
  have hr' := h.right
  have hp := hc.points
  unfold Curve.evaluate
  rw [hf, Res.bind_ok', shape_single c hc g u s h hf j0 hj0 hN, Res.bind_ok', controlPoints_span c s hl' (by omega), Res.bind_ok',
    if_pos (by simp), combine_map]
  congr 1
  funext k
  rw [Finset.sum_eq_single j0 (fun j hj hne => by rw [if_neg hne, zero_mul])
    (fun hn => absurd (Finset.mem_range.2 (by omega)) hn), if_pos rfl, one_mul]

/-- C94: at a knot with multiplicity of the degree (at least) the curve meets a control point; in particular at the left end of a domain
with repeated knots (`s` the degree) it meets the first one. -/
theorem C94_interpolates (c : Curve K d) (hc : c.WellFormed) (g : Garbage K) (s : ℕ) (h : SpanOf c.knots c.degree s)
    (hk : ∀ m : ℕ, m < c.degree → knotFn c.knots (s - m) = knotFn c.knots s) :
    c.evaluate g (knotFn c.knots s) 0 = .ok (c.points.getD (s - c.degree) 0) := by
  have := evaluate_single c hc g (knotFn c.knots s) s h (findSpan_eq_of _ _ _ s h le_rfl h.nonempty) 0 (by omega) (fun j hj => by
    rw [piece_left (knotFn c.knots) s c.degree _ h.nonempty hk c.degree le_rfl]
    congr 1
    simp)
  simpa using this

/-- C94: at the right end of a domain with repeated knots the curve meets the last control point. -/
theorem C94_end (c : Curve K d) (hc : c.WellFormed) (g : Garbage K) (hL : c.LastSpan)
    (hk : ∀ m : ℕ, m < c.degree → knotFn c.knots (c.knots.length - c.degree - 1 + m) = c.last) :
    c.evaluate g c.last 0 = .ok (c.points.getD (c.points.length - 1) 0) := by
  obtain ⟨s, h0, h1, h2⟩ := findSpan_last c.degree c.knots hc.vector hL
  have hlen := hc.vector.length
  have hp := hc.points
  have hl' := h2.left
  have e : ((s : ℤ) + 1) = (c.knots.length : ℤ) - c.degree - 1 := by omega
  have hs : knotFn c.knots s < c.last := by
    have := h2.nonempty
    rw [e] at this
    exact this
  have := evaluate_single c hc g c.last s h2 h1 c.degree le_rfl (fun j hj => by
    rw [piece_right (knotFn c.knots) s c.degree c.last hs (fun m h1 hm => by
      have := hk (m - 1) (by omega)
      rw [← this]
      congr 1
      omega) c.degree le_rfl _ (by omega)]
    congr 1
    simp only [eq_iff_iff]
    omega)
  rw [this]
  congr 2
  omega

/-! ### Elements -/

/-- C94: the coordinate of an element runs from the knot of the element to the next. -/
theorem C94_transformation (c : Curve K d) (s : ℕ) (hs : s + 1 < c.knots.length) (xi : K) :
    ∃ u, c.transformation s xi = .ok u ∧ u = (1 - xi) / 2 * knotFn c.knots s + (1 + xi) / 2 * knotFn c.knots (s + 1) := by
  have e : ∀ (i : ℕ) (h : i < c.knots.length), knotAt c.knots i = .ok (knotFn c.knots i) := fun i h => by
    rw [knotAt_nat c.knots i h, knotFn, Int.toNat_natCast, List.getD_eq_getElem _ _ h]
  have e1 := e (s + 1) hs
  push_cast at e1
  refine ⟨_, ?_, rfl⟩
  unfold Curve.transformation
  rw [e s (by omega), Res.bind_ok', e1, Res.bind_ok']
  congr 1
  ring

theorem transformation_inside (c : Curve K d) (s : ℕ) (h : SpanOf c.knots c.degree s) (xi : K) (h1 : -1 ≤ xi) (h2 : xi < 1) :
    knotFn c.knots s ≤ (1 - xi) / 2 * knotFn c.knots s + (1 + xi) / 2 * knotFn c.knots (s + 1) ∧
      (1 - xi) / 2 * knotFn c.knots s + (1 + xi) / 2 * knotFn c.knots (s + 1) < knotFn c.knots (s + 1) := by
  have hn := h.nonempty
  constructor
  · have : 0 ≤ (1 + xi) / 2 * (knotFn c.knots (s + 1) - knotFn c.knots s) := mul_nonneg (by linarith) (by linarith)
    linarith
  · have : 0 < (1 - xi) / 2 * (knotFn c.knots (s + 1) - knotFn c.knots s) := mul_pos (by linarith) (by linarith)
    linarith

/-- C94: inside of an element and at its left end interpolation gives the point of the curve. -/
theorem C94_element_partial (c : Curve K d) (hc : c.WellFormed) (g : Garbage K) (s : ℕ) (h : SpanOf c.knots c.degree s) (xi : K)
    (h1 : -1 ≤ xi) (h2 : xi < 1) :
    c.interpolate g s xi = .ok (c.point ((1 - xi) / 2 * knotFn c.knots s + (1 + xi) / 2 * knotFn c.knots (s + 1))) := by
  have hl' := h.left
  have hr' := h.right
  have hp := hc.points
  obtain ⟨u, hu, e⟩ := C94_transformation c s (by omega) xi
  obtain ⟨a, b⟩ := transformation_inside c s h xi h1 h2
  rw [← e] at a b ⊢
  have hf := findSpan_eq_of u c.degree c.knots s h a b
  have m1 := knotFn_mono c.knots c.degree h.vector c.degree s (by omega) (by omega) (by omega)
  have m2 := knotFn_mono c.knots c.degree h.vector (s + 1) (c.knots.length - c.degree - 1) (by omega) (by omega) (by omega)
  have hev := C94_evaluate c hc g u (m1.trans a) (lt_of_lt_of_le b m2)
  unfold Curve.evaluate at hev
  unfold Curve.interpolate Curve.elementShape
  rw [hf, Res.bind_ok', shape_span c g 0 (by omega) u s h hc.weights hf, Res.bind_ok', controlPoints_span c s hl' (by omega),
    Res.bind_ok', if_pos (by simp)] at hev
  rw [hu, Res.bind_ok', shape_span c g 0 (by omega) u s h hc.weights hf, Res.bind_ok', controlPoints_span c s hl' (by omega), Res.bind_ok', hev]

/-- C94: at the right end of an element followed by another one interpolation is wrong: the shape functions there are those of the next
element, the nodes are those of this one.  If the knot between them has the multiplicity of the degree, interpolation returns the first
control point of the element, not the last one, where the curve is. -/
theorem C94_element_end_counterexample (c : Curve K d) (hc : c.WellFormed) (g : Garbage K) (s : ℕ) (h : SpanOf c.knots c.degree s)
    (h' : SpanOf c.knots c.degree (s + c.degree)) (hp : 1 ≤ c.degree)
    (hk : ∀ m : ℕ, m < c.degree → knotFn c.knots ((s + c.degree : ℕ) - m) = knotFn c.knots (s + c.degree : ℕ)) :
    c.interpolate g s 1 = .ok (c.points.getD (s - c.degree) 0) ∧ c.evaluate g (knotFn c.knots (s + 1)) 0 = .ok (c.points.getD s 0) := by
  have hl' := h.left
  have hr' := h.right
  have hpt := hc.points
  have hu : knotFn c.knots (s + 1) = knotFn c.knots (s + c.degree : ℕ) := by
    rw [← hk (c.degree - 1) (by omega)]
    congr 1
    omega
  have e2 := C94_interpolates c hc g (s + c.degree) h' hk
  rw [hu]
  refine ⟨?_, by simpa using e2⟩
  obtain ⟨u, hu', e⟩ := C94_transformation c s (by omega) 1
  have eu : u = knotFn c.knots (s + c.degree : ℕ) := by rw [e, ← hu]; ring
  have hsh := shape_single c hc g u (s + c.degree) h' (by rw [eu]; exact findSpan_eq_of _ _ _ _ h' le_rfl h'.nonempty) 0 (by omega)
    (fun j hj => by
      rw [piece_left (knotFn c.knots) (s + c.degree : ℕ) c.degree u (by rw [eu]; exact h'.nonempty) (by rw [eu]; exact hk) c.degree le_rfl]
      congr 1
      simp)
  unfold Curve.interpolate Curve.elementShape
  rw [hu', Res.bind_ok', hsh, Res.bind_ok', controlPoints_span c s hl' (by omega), Res.bind_ok', combine_map]
  congr 1
  funext k
  rw [Finset.sum_eq_single 0 (fun j hj hne => by rw [if_neg hne, zero_mul]) (fun hn => absurd (Finset.mem_range.2 (by omega)) hn), if_pos rfl,
    one_mul, add_zero]

end Curves

/-! ### Derivatives -/

section Derivatives

variable {d : ℕ}

theorem weights_ne (c : Curve ℝ d) (hc : c.WellFormed) (u : ℝ) (s : ℕ) (h : SpanOf c.knots c.degree s)
    (hl : knotFn c.knots s ≤ u) (hr : u < knotFn c.knots (s + 1)) :
    ∑ j ∈ Finset.range (c.degree + 1), fn c.knots c.degree s 0 j u * c.weights.getD (s - c.degree + j) 0 ≠ 0 := by
  have hf := findSpan_eq_of u c.degree c.knots s h hl hr
  let g : Garbage ℝ := ⟨fun _ _ => 0, fun _ => 0, fun _ => 0, fun _ _ => 0, fun _ _ => 0⟩
  intro h0
  obtain ⟨R, _, hsum, hs, _⟩ := convex_span c hc g u s h hf hl hr.le
  rw [shape_span c g 0 (by omega) u s h hc.weights hf] at hs
  have hl := congrArg List.sum (Res.ok.inj hs)
  rw [← sum_map_range, ← sum_map_range, hsum] at hl
  have hz : ∀ j ∈ Finset.range (c.degree + 1), rationalEntry (basisTable g 0 u s c.degree (knotFn c.knots)) c.degree
      (fun i => c.weights.getD (s - c.degree + i) 0) 0 j = 0 := by
    intro j _
    unfold rationalEntry
    rw [if_pos rfl]
    dsimp only
    have := wsum_eq g 0 u c.knots c.degree s h (fun i => c.weights.getD (s - c.degree + i) 0) 0 le_rfl
    rw [this, h0, div_zero]
  rw [Finset.sum_eq_zero hz] at hl
  exact zero_ne_one hl

/-- C94: inside of the spans `Evaluate` with derivative order 1 returns the derivative of the curve, and with order 2 the derivative of
that. -/
theorem C94_derivative (c : Curve ℝ d) (hc : c.WellFormed) (g : Garbage ℝ) (s : ℕ) (h : SpanOf c.knots c.degree s) :
    ∃ v a : ℝ → Fin d → ℝ, ∀ u, knotFn c.knots s < u → u < knotFn c.knots (s + 1) →
      c.evaluate g u 1 = .ok (v u) ∧ HasDerivAt c.point (v u) u ∧ c.evaluate g u 2 = .ok (a u) ∧ HasDerivAt v (a u) u := by
  have hl' := h.left
  have hr' := h.right
  have m1 := knotFn_mono c.knots c.degree h.vector c.degree s (by omega) (by omega) (by omega)
  have m2 := knotFn_mono c.knots c.degree h.vector (s + 1) (c.knots.length - c.degree - 1) (by omega) (by omega) (by omega)
  refine ⟨fun u k => ∑ j ∈ Finset.range (c.degree + 1), rationalEntry (basisTable g 1 u s c.degree (knotFn c.knots)) c.degree
      (fun i => c.weights.getD (s - c.degree + i) 0) 1 j * c.points.getD (s - c.degree + j) 0 k,
    fun u k => ∑ j ∈ Finset.range (c.degree + 1), rationalEntry (basisTable g 2 u s c.degree (knotFn c.knots)) c.degree
      (fun i => c.weights.getD (s - c.degree + i) 0) 2 j * c.points.getD (s - c.degree + j) 0 k, fun u hl hr => ?_⟩
  have hf := findSpan_eq_of u c.degree c.knots s h hl.le hr
  have hW := weights_ne c hc u s h hl.le hr
  refine ⟨evaluate_span c g 1 (by omega) u s h hc.points hc.weights hf, ?_, evaluate_span c g 2 (by omega) u s h hc.points hc.weights hf, ?_⟩
  · have he : c.point =ᶠ[nhds u] fun t k => ∑ j ∈ Finset.range (c.degree + 1), rationalEntry (basisTable g 0 t s c.degree (knotFn c.knots))
        c.degree (fun i => c.weights.getD (s - c.degree + i) 0) 0 j * c.points.getD (s - c.degree + j) 0 k := by
      filter_upwards [Ioo_mem_nhds hl hr] with t ht
      have e1 := C94_evaluate c hc g t (m1.trans ht.1.le) (lt_of_lt_of_le ht.2 m2)
      have e2 := evaluate_span c g 0 (by omega) t s h hc.points hc.weights (findSpan_eq_of t c.degree c.knots s h ht.1.le ht.2)
      rw [e1] at e2
      exact Res.ok.inj e2
    refine HasDerivAt.congr_of_eventuallyEq ?_ he
    refine hasDerivAt_pi.2 fun k => HasDerivAt.fun_sum fun j hj => HasDerivAt.mul_const ?_ _
    have hj' := Finset.mem_range.1 hj
    exact C67_curve_first g g u c.knots c.degree s h _ j (by omega) hW
  · refine hasDerivAt_pi.2 fun k => HasDerivAt.fun_sum fun j hj => HasDerivAt.mul_const ?_ _
    have hj' := Finset.mem_range.1 hj
    exact C67_curve_second g g u c.knots c.degree s h _ j (by omega) hW

/-- C94: the derivative of the interpolation of an element by its coordinate is half the length of the span times the value computed from
`GetDerivativeShapeFunctions`: the two agree only for spans of length 2. -/
theorem C94_element_derivative_partial (c : Curve ℝ d) (hc : c.WellFormed) (g : Garbage ℝ) (s : ℕ) (h : SpanOf c.knots c.degree s) (xi : ℝ)
    (h1 : -1 < xi) (h2 : xi < 1) :
    ∃ t, c.tangent g s xi = .ok t ∧
      HasDerivAt (fun x => c.point ((1 - x) / 2 * knotFn c.knots s + (1 + x) / 2 * knotFn c.knots (s + 1)))
        (((knotFn c.knots (s + 1) - knotFn c.knots s) / 2) • t) xi := by
  have hl' := h.left
  have hr' := h.right
  have hp := hc.points
  have hn := h.nonempty
  obtain ⟨v, a, hv⟩ := C94_derivative c hc g s h
  obtain ⟨u, hu, e⟩ := C94_transformation c s (by omega) xi
  have b1 : knotFn c.knots s < u := by
    rw [e]
    have : 0 < (1 + xi) / 2 * (knotFn c.knots (s + 1) - knotFn c.knots s) := mul_pos (by linarith) (by linarith)
    linarith
  have b2 : u < knotFn c.knots (s + 1) := by
    rw [e]
    have : 0 < (1 - xi) / 2 * (knotFn c.knots (s + 1) - knotFn c.knots s) := mul_pos (by linarith) (by linarith)
    linarith
  obtain ⟨hev, hder, _, _⟩ := hv u b1 b2
  have hf := findSpan_eq_of u c.degree c.knots s h b1.le b2
  refine ⟨v u, ?_, ?_⟩
  · unfold Curve.evaluate at hev
    unfold Curve.tangent Curve.elementDerivative
    rw [hf, Res.bind_ok', shape_span c g 1 (by omega) u s h hc.weights hf, Res.bind_ok', controlPoints_span c s hl' (by omega),
      Res.bind_ok', if_pos (by simp)] at hev
    rw [hu, Res.bind_ok', shape_span c g 1 (by omega) u s h hc.weights hf, Res.bind_ok', controlPoints_span c s hl' (by omega), Res.bind_ok',
      hev]
  · have hin : HasDerivAt (fun x : ℝ => (1 - x) / 2 * knotFn c.knots s + (1 + x) / 2 * knotFn c.knots (s + 1))
        ((knotFn c.knots (s + 1) - knotFn c.knots s) / 2) xi := by
      have a1 := ((((hasDerivAt_id xi).const_sub 1).div_const 2).mul_const (knotFn c.knots s)).add
        ((((hasDerivAt_id xi).const_add 1).div_const 2).mul_const (knotFn c.knots (s + 1)))
      refine a1.congr_deriv ?_
      ring
    rw [e] at hder
    have := HasDerivAt.scomp xi hder hin
    rw [← e] at this
    exact this

/-- The straight line from 0 to 1 with parameter 0 to 1 -/
def line : Curve ℝ 1 := ⟨[0, 0, 1, 1], [fun _ => 0, fun _ => 1], [1, 1], 1⟩

theorem pairwise_vector {K : Type _} [LinearOrder K] (knots : List K) (p : ℕ) (hp : knots.Pairwise (· ≤ ·)) (hl : 2 * p + 2 ≤ knots.length) :
    KnotVector knots p := by
  refine ⟨fun i j a b hi hj hij => ?_, hl⟩
  obtain ⟨hi', rfl⟩ := List.getElem?_eq_some_iff.1 hi
  obtain ⟨hj', rfl⟩ := List.getElem?_eq_some_iff.1 hj
  rcases Nat.lt_or_ge i j with h | h
  · exact List.pairwise_iff_getElem.1 hp i j hi' hj' h
  · obtain rfl : i = j := by omega
    exact le_refl _

theorem line_ok : line.WellFormed := by
  refine ⟨pairwise_vector _ _ ?_ (by decide), rfl, rfl, ?_⟩
  · simp [line]
  · intro w hw
    simp [line] at hw
    rw [hw]; exact one_pos

theorem line_span : SpanOf line.knots line.degree 1 := by
  refine ⟨line_ok.vector, le_rfl, by decide, ?_⟩
  simp [line, knotFn]

theorem line_point (u : ℝ) (h1 : 0 ≤ u) (h2 : u < 1) : line.point u = fun _ => u := by
  funext k
  simp [Curve.point, line, Finset.sum_range_succ, coxDeBoor, knotFn, ratio, h1, h2, not_le.2 h2, not_lt.2 h1]

/-- C94: the derivative shape functions of elements are derivatives by the knot parameter, not by the coordinate of the element: on the
straight line from 0 to 1 they give the tangent 1, while the interpolation by the coordinate in [-1, 1] has the derivative 1/2.  The
length of the line integrated with a rule on [-1, 1] would be 2. -/
theorem C94_element_derivative_counterexample (g : Garbage ℝ) (xi : ℝ) (h1 : -1 < xi) (h2 : xi < 1) :
    line.tangent g 1 xi = .ok (fun _ => 1) ∧ (∀ x, -1 ≤ x → x < 1 → line.interpolate g 1 x = .ok fun _ => (1 + x) / 2) ∧
      HasDerivAt (fun x : ℝ => (1 + x) / 2) (1 / 2) xi := by
  have hd : HasDerivAt (fun x : ℝ => (1 + x) / 2) (1 / 2) xi := ((hasDerivAt_id xi).const_add 1).div_const 2
  have ep : ∀ x : ℝ, (1 - x) / 2 * knotFn line.knots (1 : ℕ) + (1 + x) / 2 * knotFn line.knots ((1 : ℕ) + 1) = (1 + x) / 2 := by
    intro x
    simp [line, knotFn]
  refine ⟨?_, fun x a b => ?_, hd⟩
  · obtain ⟨t, ht, hder⟩ := C94_element_derivative_partial line line_ok g 1 line_span xi h1 h2
    rw [Nat.cast_one] at ht
    rw [ht]
    congr 1
    simp only [ep] at hder
    have he : (fun x : ℝ => line.point ((1 + x) / 2)) =ᶠ[nhds xi] fun x _ => (1 + x) / 2 := by
      filter_upwards [Ioo_mem_nhds h1 h2] with x hx
      exact line_point _ (by linarith [hx.1]) (by linarith [hx.2])
    have e := (hder.congr_of_eventuallyEq he.symm).unique (hasDerivAt_pi.2 fun _ => hd)
    funext k
    have ek := congrFun e k
    have k2 : knotFn line.knots ((1 : ℕ) + 1) - knotFn line.knots (1 : ℕ) = 1 := by simp [line, knotFn]
    rw [k2] at ek
    simp only [Pi.smul_apply, smul_eq_mul] at ek
    linarith
  · have := C94_element_partial line line_ok g 1 line_span x a b
    rw [ep, Nat.cast_one] at this
    rw [this, line_point _ (by linarith) (by linarith)]

end Derivatives

/-! ### Surfaces -/

section Surfaces

variable {K : Type _} [Field K] [LinearOrder K] [IsStrictOrderedRing K] {d : ℕ}

/-- Specification: sorted knots in both directions, a control point and a positive weight for each pair of basis functions, a row for each
function of the second direction. -/
structure Surface.WellFormed (c : Surface K d) : Prop where
  vectorX : KnotVector c.knotsX c.px
  vectorY : KnotVector c.knotsY c.py
  points : c.points.length = c.knotsY.length - c.py - 1
  rows : ∀ r ∈ c.points, r.length = c.knotsX.length - c.px - 1
  weights : c.weights.length = c.knotsY.length - c.py - 1
  weightRows : ∀ r ∈ c.weights, r.length = c.knotsX.length - c.px - 1
  pos : ∀ r ∈ c.weights, ∀ w ∈ r, 0 < w

/-- Control point of function `i` of the second and `j` of the first direction -/
def Surface.P (c : Surface K d) (i j : ℕ) : Fin d → K := (c.points.getD i []).getD j 0

/-- Its weight -/
def Surface.w (c : Surface K d) (i j : ℕ) : K := (c.weights.getD i []).getD j 0

/-- Specification: the weighted product of the B-spline functions -/
def Surface.coefficient (c : Surface K d) (u v : K) (i j : ℕ) : K :=
  c.w i j * (coxDeBoor (knotFn c.knotsX) c.px j u * coxDeBoor (knotFn c.knotsY) c.py i v)

/-- Specification: the point of the surface, the mean of all control points -/
def Surface.point (c : Surface K d) (u v : K) : Fin d → K := fun k =>
  (∑ i ∈ Finset.range (c.knotsY.length - c.py - 1), ∑ j ∈ Finset.range (c.knotsX.length - c.px - 1), c.coefficient u v i j * c.P i j k) /
    ∑ i ∈ Finset.range (c.knotsY.length - c.py - 1), ∑ j ∈ Finset.range (c.knotsX.length - c.px - 1), c.coefficient u v i j

omit [LinearOrder K] [IsStrictOrderedRing K] in
theorem surfaceSum_range (sx sy : Mem K) (px py : ℕ) (w : ℕ → ℕ → K) (k l : ℕ) :
    surfaceSum sx sy px py w k l = ∑ i ∈ Finset.range (py + 1), ∑ j ∈ Finset.range (px + 1), sx k j * sy l i * w i j := by
  have inner : ∀ (i n : ℕ) (c : K), (List.range n).foldl (fun (s : K) (j : ℕ) => s + sx k j * sy l i * w i j) c =
      c + ∑ j ∈ Finset.range n, sx k j * sy l i * w i j := by
    intro i n c
    induction n with
    | zero => simp
    | succ n ih => rw [List.range_succ, List.foldl_append, ih, Finset.sum_range_succ, List.foldl_cons, List.foldl_nil, add_assoc]
  unfold surfaceSum
  simp only [inner]
  generalize py + 1 = m
  induction m with
  | zero => rfl
  | succ m ih => rw [List.range_succ, List.foldl_append, ih, Finset.sum_range_succ, List.foldl_cons, List.foldl_nil]

theorem inRange_of {α : Type _} (rows : List (List α)) (m n sx sy py : ℕ) (hr : rows.length = m) (hc : ∀ r ∈ rows, r.length = n) (h1 : sx < n)
    (h2 : sy < m) (h3 : py ≤ sy) : inRange rows sx sy py = true := by
  unfold inRange
  rw [Bool.and_eq_true, List.all_eq_true]
  refine ⟨decide_eq_true (by omega), fun i hi => decide_eq_true ?_⟩
  have hi' := List.mem_range.1 hi
  have hlt : ((sy : ℤ) - py + i).toNat < rows.length := by omega
  rw [List.getD_eq_getElem _ _ hlt, hc _ (List.getElem_mem hlt)]
  omega

/-- evaluation in a pair of spans -/
theorem surface_span (c : Surface K d) (hc : c.WellFormed) (g : Garbage K) (der : ℕ) (hd : der ≤ 2) (u v : K) (sx sy : ℕ)
    (hx : SpanOf c.knotsX c.px sx) (hy : SpanOf c.knotsY c.py sy) (fx : findSpan u c.px c.knotsX = .ok (sx : ℤ))
    (fy : findSpan v c.py c.knotsY = .ok (sy : ℤ)) :
    c.evaluate g u v der = .ok fun k => ∑ i ∈ Finset.range (c.py + 1), ∑ j ∈ Finset.range (c.px + 1),
      (surfaceRow (basisTable g der u sx c.px (knotFn c.knotsX)) (basisTable g der v sy c.py (knotFn c.knotsY)) c.px c.py
        (fun i j => c.w (sy - c.py + i) (sx - c.px + j)) der i j).getD 0 0 * c.P (sy - c.py + i) (sx - c.px + j) k := by
  have x1 := hx.left
  have x2 := hx.right
  have y1 := hy.left
  have y2 := hy.right
  have ey : ∀ i : ℕ, ((sy : ℤ) - c.py + i).toNat = sy - c.py + i := fun i => by omega
  have ex : ∀ i : ℕ, ((sx : ℤ) - c.px + i).toNat = sx - c.px + i := fun i => by omega
  unfold Surface.evaluate Surface.shape Surface.controlPoints
  rw [if_pos hd, fx, Res.bind_ok', fy, Res.bind_ok', Res.bind_ok', Res.bind_ok', basisFunctions_eq g der u c.knotsX c.px sx hx, Res.bind_ok',
    basisFunctions_eq g der v c.knotsY c.py sy hy, Res.bind_ok',
    if_pos ⟨by omega, by omega, inRange_of c.weights _ _ sx sy c.py hc.weights hc.weightRows (by omega) (by omega) y1⟩, Res.bind_ok',
    if_neg (by omega), if_pos (inRange_of c.points _ _ sx sy c.py hc.points hc.rows (by omega) (by omega) y1), Res.bind_ok',
    if_pos (by simp)]
  simp only [ex, ey]
  rw [List.map_flatMap]
  simp only [List.map_map]
  have := combine_flatMap (d := d) (c.py + 1) (c.px + 1)
    (fun i j => (surfaceRow (basisTable g der u sx c.px (knotFn c.knotsX)) (basisTable g der v sy c.py (knotFn c.knotsY)) c.px c.py
        (fun i j => c.w (sy - c.py + i) (sx - c.px + j)) der i j).getD 0 0) (fun i j => c.P (sy - c.py + i) (sx - c.px + j))
  exact congrArg Res.ok this

/-- C94: `Evaluate` of a surface returns its point. -/
theorem C94_surface (c : Surface K d) (hc : c.WellFormed) (g : Garbage K) (u v : K) (ul : knotFn c.knotsX c.px ≤ u)
    (ur : u < knotFn c.knotsX (c.knotsX.length - c.px - 1)) (vl : knotFn c.knotsY c.py ≤ v)
    (vr : v < knotFn c.knotsY (c.knotsY.length - c.py - 1)) :
    c.evaluate g u v 0 = .ok (c.point u v) := by
  obtain ⟨sx, fx, hx, ux, ux'⟩ := C46_span u c.px c.knotsX hc.vectorX ul ur
  obtain ⟨sy, fy, hy, vy, vy'⟩ := C46_span v c.py c.knotsY hc.vectorY vl vr
  have x1 := hx.left
  have x2 := hx.right
  have y1 := hy.left
  have y2 := hy.right
  rw [surface_span c hc g 0 (by omega) u v sx sy hx hy fx fy]
  congr 1
  funext k
  have hN : ∀ (knots : List K) (p s : ℕ) (t : K), SpanOf knots p s → knotFn knots s ≤ t → t < knotFn knots (s + 1) → ∀ j : ℕ, j ≤ p →
      basisTable g 0 t s p (knotFn knots) 0 j = coxDeBoor (knotFn knots) p ((s - p + j : ℕ) : ℤ) t := by
    intro knots p s t h a b j hj
    obtain ⟨m, hm, e⟩ := C46_values g 0 t knots p s h a b j hj
    rw [basisFunctions_eq g 0 t knots p s h] at hm
    obtain rfl := Res.ok.inj hm
    have := h.left
    rw [e]
    congr 1
    omega
  have hw : ∀ f : ℕ → ℕ → K, ∑ i ∈ Finset.range (c.knotsY.length - c.py - 1), ∑ j ∈ Finset.range (c.knotsX.length - c.px - 1),
      c.coefficient u v i j * f i j = ∑ i ∈ Finset.range (c.py + 1), ∑ j ∈ Finset.range (c.px + 1),
        c.coefficient u v (sy - c.py + i) (sx - c.px + j) * f (sy - c.py + i) (sx - c.px + j) := by
    intro f
    rw [window_sum _ (c.knotsY.length - c.py - 1) sy c.py y1 (by omega) fun i hi ho => Finset.sum_eq_zero fun j _ => by
      unfold Surface.coefficient
      rw [C46_others_vanish v c.knotsY c.py sy hy vy vy' i hi ho, mul_zero, mul_zero, zero_mul]]
    refine Finset.sum_congr rfl fun i _ => ?_
    exact window_sum _ (c.knotsX.length - c.px - 1) sx c.px x1 (by omega) fun j hj ho => by
      unfold Surface.coefficient
      rw [C46_others_vanish u c.knotsX c.px sx hx ux ux' j hj ho, zero_mul, mul_zero, zero_mul]
  have hw1 := hw fun _ _ => 1
  simp only [mul_one] at hw1
  unfold Surface.point
  rw [hw, hw1, Finset.sum_div]
  refine Finset.sum_congr rfl fun i hi => ?_
  rw [Finset.sum_div]
  refine Finset.sum_congr rfl fun j hj => ?_
  have hi' := Finset.mem_range.1 hi
  have hj' := Finset.mem_range.1 hj
  unfold surfaceRow surfaceValue
  rw [if_pos rfl]
  have hS := surfaceSum_range (basisTable g 0 u sx c.px (knotFn c.knotsX)) (basisTable g 0 v sy c.py (knotFn c.knotsY)) c.px c.py
    (fun i j => c.w (sy - c.py + i) (sx - c.px + j)) 0 0
  simp only [Nat.cast_zero] at hS
  have hS' : surfaceSum (basisTable g 0 u sx c.px (knotFn c.knotsX)) (basisTable g 0 v sy c.py (knotFn c.knotsY)) c.px c.py
      (fun i j => c.w (sy - c.py + i) (sx - c.px + j)) 0 0 = ∑ i ∈ Finset.range (c.py + 1), ∑ j ∈ Finset.range (c.px + 1),
        c.coefficient u v (sy - c.py + i) (sx - c.px + j) := by
    rw [hS]
    refine Finset.sum_congr rfl fun i hi => Finset.sum_congr rfl fun j hj => ?_
    have hi' := Finset.mem_range.1 hi
    have hj' := Finset.mem_range.1 hj
    rw [hN _ _ _ _ hx ux ux' j (by omega), hN _ _ _ _ hy vy vy' i (by omega)]
    unfold Surface.coefficient
    ring
  rw [hS', hN _ _ _ _ hx ux ux' j (by omega), hN _ _ _ _ hy vy vy' i (by omega)]
  simp only [List.getD_cons_zero]
  unfold Surface.coefficient
  ring

/-- C94: outside of the domain an exception is raised. -/
theorem C94_surface_outside (c : Surface K d) (hc : c.WellFormed) (g : Garbage K) (u v : K) (der : ℕ)
    (ul : knotFn c.knotsX c.px ≤ u) (ur : u < knotFn c.knotsX (c.knotsX.length - c.px - 1))
    (h : v < knotFn c.knotsY c.py ∨ knotFn c.knotsY (c.knotsY.length - c.py - 1) < v) : c.evaluate g u v der = .throw := by
  obtain ⟨sx, fx, _, _, _⟩ := C46_span u c.px c.knotsX hc.vectorX ul ur
  have hlen := hc.vectorY.length
  have e : ∀ (i : ℕ) (a : K), c.knotsY[i]? = some a → knotFn c.knotsY i = a := fun i a h => by
    unfold knotFn
    rw [Int.toNat_natCast, List.getD_eq_getElem?_getD, h, Option.getD_some]
  have : findSpan v c.py c.knotsY = .throw := C45_outside v c.py c.knotsY hc.vectorY (by
    rcases h with h | h
    · exact .inl fun a ha => by rw [← e _ a ha]; exact h
    · refine .inr fun a ha => ?_
      have hq := e _ a ha
      have c1 : ((c.knotsY.length - c.py - 1 : ℕ) : ℤ) = (c.knotsY.length : ℤ) - c.py - 1 := by omega
      rw [c1] at hq
      rw [← hq]
      exact h)
  unfold Surface.evaluate
  rw [fx, Res.bind_ok', this]
  rfl

/-- the denominator is positive -/
theorem surface_pos (c : Surface K d) (hc : c.WellFormed) (g : Garbage K) (u v : K) (sx sy : ℕ)
    (hx : SpanOf c.knotsX c.px sx) (hy : SpanOf c.knotsY c.py sy) (ux : knotFn c.knotsX sx ≤ u) (ux' : u < knotFn c.knotsX (sx + 1))
    (vy : knotFn c.knotsY sy ≤ v) (vy' : v < knotFn c.knotsY (sy + 1)) :
    0 < surfaceSum (basisTable g 0 u sx c.px (knotFn c.knotsX)) (basisTable g 0 v sy c.py (knotFn c.knotsY)) c.px c.py
      (fun i j => c.w (sy - c.py + i) (sx - c.px + j)) 0 0 := by
  have x1 := hx.left
  have x2 := hx.right
  have y1 := hy.left
  have y2 := hy.right
  obtain ⟨m, hm, msum, _, mnn⟩ := C46_partition g 0 u c.knotsX c.px sx hx
  rw [basisFunctions_eq g 0 u c.knotsX c.px sx hx] at hm
  obtain rfl := Res.ok.inj hm
  obtain ⟨n, hn, nsum, _, nnn⟩ := C46_partition g 0 v c.knotsY c.py sy hy
  rw [basisFunctions_eq g 0 v c.knotsY c.py sy hy] at hn
  obtain rfl := Res.ok.inj hn
  replace mnn := mnn ux ux'.le
  replace nnn := nnn vy vy'.le
  generalize basisTable g 0 u sx c.px (knotFn c.knotsX) = m at *
  generalize basisTable g 0 v sy c.py (knotFn c.knotsY) = n at *
  have hS := surfaceSum_range m n c.px c.py (fun i j => c.w (sy - c.py + i) (sx - c.px + j)) 0 0
  simp only [Nat.cast_zero] at hS
  have hw : ∀ i ≤ c.py, ∀ j ≤ c.px, 0 < c.w (sy - c.py + i) (sx - c.px + j) := by
    intro i hi j hj
    unfold Surface.w
    have hlt : sy - c.py + i < c.weights.length := by rw [hc.weights]; omega
    have hlt' : sx - c.px + j < (c.weights[sy - c.py + i]).length := by rw [hc.weightRows _ (List.getElem_mem hlt)]; omega
    rw [List.getD_eq_getElem _ _ hlt, List.getD_eq_getElem _ _ hlt']
    exact hc.pos _ (List.getElem_mem hlt) _ (List.getElem_mem hlt')
  have hx0 : ∃ j ≤ c.px, 0 < m 0 j := by
    by_contra hcon
    push Not at hcon
    have : ∑ j ∈ Finset.range (c.px + 1), m 0 j ≤ 0 := Finset.sum_nonpos fun j hj => hcon j (by have := Finset.mem_range.1 hj; omega)
    rw [msum] at this
    exact absurd this (not_le.2 one_pos)
  have hy0 : ∃ i ≤ c.py, 0 < n 0 i := by
    by_contra hcon
    push Not at hcon
    have : ∑ j ∈ Finset.range (c.py + 1), n 0 j ≤ 0 := Finset.sum_nonpos fun j hj => hcon j (by have := Finset.mem_range.1 hj; omega)
    rw [nsum] at this
    exact absurd this (not_le.2 one_pos)
  obtain ⟨j0, hj0, mj⟩ := hx0
  obtain ⟨i0, hi0, ni⟩ := hy0
  rw [hS]
  have nn : ∀ i ≤ c.py, ∀ j ≤ c.px, 0 ≤ m 0 j * n 0 i * c.w (sy - c.py + i) (sx - c.px + j) := fun i hi j hj =>
    mul_nonneg (mul_nonneg (mnn j hj) (nnn i hi)) (hw i hi j hj).le
  refine Finset.sum_pos' (fun i hi => Finset.sum_nonneg fun j hj => nn i (by have := Finset.mem_range.1 hi; omega) j
    (by have := Finset.mem_range.1 hj; omega)) ⟨i0, Finset.mem_range.2 (by omega), ?_⟩
  exact Finset.sum_pos' (fun j hj => nn i0 hi0 j (by have := Finset.mem_range.1 hj; omega)) ⟨j0, Finset.mem_range.2 (by omega),
    mul_pos (mul_pos mj ni) (hw i0 hi0 j0 hj0)⟩

/-- C94: the surface lies in the convex hull of its control points. -/
theorem C94_surface_hull (c : Surface K d) (hc : c.WellFormed) (g : Garbage K) (u v : K) (ul : knotFn c.knotsX c.px ≤ u)
    (ur : u < knotFn c.knotsX (c.knotsX.length - c.px - 1)) (vl : knotFn c.knotsY c.py ≤ v)
    (vr : v < knotFn c.knotsY (c.knotsY.length - c.py - 1)) (a : Fin d → K) (b : K) (hP : ∀ r ∈ c.points, ∀ P ∈ r, ∑ k, a k * P k ≤ b) :
    ∃ x, c.evaluate g u v 0 = .ok x ∧ ∑ k, a k * x k ≤ b := by
  obtain ⟨sx, fx, hx, ux, ux'⟩ := C46_span u c.px c.knotsX hc.vectorX ul ur
  obtain ⟨sy, fy, hy, vy, vy'⟩ := C46_span v c.py c.knotsY hc.vectorY vl vr
  have x1 := hx.left
  have x2 := hx.right
  have y1 := hy.left
  have y2 := hy.right
  refine ⟨_, surface_span c hc g 0 (by omega) u v sx sy hx hy fx fy, ?_⟩
  have hpos := surface_pos c hc g u v sx sy hx hy ux ux' vy vy'
  obtain ⟨m, hm, msum, _, mnn⟩ := C46_partition g 0 u c.knotsX c.px sx hx
  rw [basisFunctions_eq g 0 u c.knotsX c.px sx hx] at hm
  obtain rfl := Res.ok.inj hm
  obtain ⟨n, hn, nsum, _, nnn⟩ := C46_partition g 0 v c.knotsY c.py sy hy
  rw [basisFunctions_eq g 0 v c.knotsY c.py sy hy] at hn
  obtain rfl := Res.ok.inj hn
  replace mnn := mnn ux ux'.le
  replace nnn := nnn vy vy'.le
  generalize basisTable g 0 u sx c.px (knotFn c.knotsX) = m at *
  generalize basisTable g 0 v sy c.py (knotFn c.knotsY) = n at *
  have hS := surfaceSum_range m n c.px c.py (fun i j => c.w (sy - c.py + i) (sx - c.px + j)) 0 0
  simp only [Nat.cast_zero] at hS
  have hw : ∀ i ≤ c.py, ∀ j ≤ c.px, 0 < c.w (sy - c.py + i) (sx - c.px + j) := by
    intro i hi j hj
    unfold Surface.w
    have hlt : sy - c.py + i < c.weights.length := by rw [hc.weights]; omega
    have hlt' : sx - c.px + j < (c.weights[sy - c.py + i]).length := by rw [hc.weightRows _ (List.getElem_mem hlt)]; omega
    rw [List.getD_eq_getElem _ _ hlt, List.getD_eq_getElem _ _ hlt']
    exact hc.pos _ (List.getElem_mem hlt) _ (List.getElem_mem hlt')
  have hq : ∀ i ≤ c.py, ∀ j ≤ c.px, ∑ k, a k * c.P (sy - c.py + i) (sx - c.px + j) k ≤ b := by
    intro i hi j hj
    unfold Surface.P
    have hlt : sy - c.py + i < c.points.length := by rw [hc.points]; omega
    have hlt' : sx - c.px + j < (c.points[sy - c.py + i]).length := by rw [hc.rows _ (List.getElem_mem hlt)]; omega
    rw [List.getD_eq_getElem _ _ hlt, List.getD_eq_getElem _ _ hlt']
    exact hP _ (List.getElem_mem hlt) _ (List.getElem_mem hlt')
  unfold surfaceRow surfaceValue
  simp only [if_true, List.getD_cons_zero]
  generalize surfaceSum m n c.px c.py (fun i j => c.w (sy - c.py + i) (sx - c.px + j)) 0 0 = S at *
  have e : ∑ k, a k * ∑ i ∈ Finset.range (c.py + 1), ∑ j ∈ Finset.range (c.px + 1),
      m 0 j * n 0 i * c.w (sy - c.py + i) (sx - c.px + j) / S * c.P (sy - c.py + i) (sx - c.px + j) k =
      ∑ i ∈ Finset.range (c.py + 1), ∑ j ∈ Finset.range (c.px + 1), m 0 j * n 0 i * c.w (sy - c.py + i) (sx - c.px + j) / S *
        ∑ k, a k * c.P (sy - c.py + i) (sx - c.px + j) k := by
    simp only [Finset.mul_sum]
    rw [Finset.sum_comm]
    refine Finset.sum_congr rfl fun i _ => ?_
    rw [Finset.sum_comm]
    exact Finset.sum_congr rfl fun j _ => Finset.sum_congr rfl fun k _ => by ring
  rw [e]
  calc _ ≤ ∑ i ∈ Finset.range (c.py + 1), ∑ j ∈ Finset.range (c.px + 1), m 0 j * n 0 i * c.w (sy - c.py + i) (sx - c.px + j) / S * b :=
        Finset.sum_le_sum fun i hi => Finset.sum_le_sum fun j hj => by
          have hi' : i ≤ c.py := by have := Finset.mem_range.1 hi; omega
          have hj' : j ≤ c.px := by have := Finset.mem_range.1 hj; omega
          exact mul_le_mul_of_nonneg_left (hq i hi' j hj')
            (div_nonneg (mul_nonneg (mul_nonneg (mnn j hj') (nnn i hi')) (hw i hi' j hj').le) hpos.le)
    _ = b := by
      simp only [← Finset.sum_mul, ← Finset.sum_div]
      rw [← hS, div_self hpos.ne', one_mul]

end Surfaces

/-- C94: `Evaluate` of a surface with derivative order 1 returns the derivative in the first direction; there is no way to get the one in the
second. -/
theorem C94_surface_derivative_partial {d : ℕ} (c : Surface ℝ d) (hc : c.WellFormed) (g : Garbage ℝ) (u v : ℝ) (sx sy : ℕ)
    (hx : SpanOf c.knotsX c.px sx) (hy : SpanOf c.knotsY c.py sy) (ux : knotFn c.knotsX sx < u) (ux' : u < knotFn c.knotsX (sx + 1))
    (vy : knotFn c.knotsY sy ≤ v) (vy' : v < knotFn c.knotsY (sy + 1)) :
    ∃ x, c.evaluate g u v 1 = .ok x ∧ HasDerivAt (fun t => c.point t v) x u := by
  have x1 := hx.left
  have x2 := hx.right
  have y1 := hy.left
  have y2 := hy.right
  have fx := findSpan_eq_of u c.px c.knotsX sx hx ux.le ux'
  have fy := findSpan_eq_of v c.py c.knotsY sy hy vy vy'
  refine ⟨_, surface_span c hc g 1 (by omega) u v sx sy hx hy fx fy, ?_⟩
  have a1 := knotFn_mono c.knotsX c.px hx.vector c.px sx (by omega) (by omega) (by omega)
  have a2 := knotFn_mono c.knotsX c.px hx.vector (sx + 1) (c.knotsX.length - c.px - 1) (by omega) (by omega) (by omega)
  have b1 := knotFn_mono c.knotsY c.py hy.vector c.py sy (by omega) (by omega) (by omega)
  have b2 := knotFn_mono c.knotsY c.py hy.vector (sy + 1) (c.knotsY.length - c.py - 1) (by omega) (by omega) (by omega)
  have he : (fun t => c.point t v) =ᶠ[nhds u] fun t k => ∑ i ∈ Finset.range (c.py + 1), ∑ j ∈ Finset.range (c.px + 1),
      surfaceValue (basisTable g 0 t sx c.px (knotFn c.knotsX)) (basisTable g 0 v sy c.py (knotFn c.knotsY)) c.px c.py
        (fun i j => c.w (sy - c.py + i) (sx - c.px + j)) i j * c.P (sy - c.py + i) (sx - c.px + j) k := by
    filter_upwards [Ioo_mem_nhds ux ux'] with t ht
    have e1 := C94_surface c hc g t v (a1.trans ht.1.le) (lt_of_lt_of_le ht.2 a2) (b1.trans vy) (lt_of_lt_of_le vy' b2)
    have e2 := surface_span c hc g 0 (by omega) t v sx sy hx hy (findSpan_eq_of t c.px c.knotsX sx hx ht.1.le ht.2) fy
    rw [e1] at e2
    exact Res.ok.inj e2
  refine HasDerivAt.congr_of_eventuallyEq ?_ he
  let P : Patch := ⟨c.knotsX, c.knotsY, c.px, c.py, sx, sy, hx, hy⟩
  have hW : P.W (fun i j => c.w (sy - c.py + i) (sx - c.px + j)) 0 0 u v ≠ 0 := by
    have := P.sum_eq g g 0 u v (fun i j => c.w (sy - c.py + i) (sx - c.px + j)) 0 0 le_rfl le_rfl
    rw [← this]
    exact (surface_pos c hc g u v sx sy hx hy ux.le ux' vy vy').ne'
  refine hasDerivAt_pi.2 fun k => HasDerivAt.fun_sum fun i hi => HasDerivAt.fun_sum fun j hj => HasDerivAt.mul_const ?_ _
  have hi' := Finset.mem_range.1 hi
  have hj' := Finset.mem_range.1 hj
  exact (C67_surface_first P g g g g u v _ i j (Nat.lt_succ_iff.1 hi') (Nat.lt_succ_iff.1 hj') hW).1

/-! ### Examples -/

/-- a quadratic curve of two elements that meet at a knot of full multiplicity -/
def exampleCurve : Curve ℚ 2 := ⟨[0, 0, 0, 1, 1, 3, 3, 3], [![0, 0], ![1, 0], ![1, 1], ![2, 1], ![2, 4]], [1, 2, 1, 3, 1], 2⟩

example : exampleCurve.WellFormed ∧ SpanOf exampleCurve.knots 2 2 ∧ SpanOf exampleCurve.knots 2 4 ∧ exampleCurve.LastSpan ∧
    (∀ m : ℕ, m < 2 → knotFn exampleCurve.knots ((2 + 2 : ℕ) - m) = knotFn exampleCurve.knots (2 + 2 : ℕ)) ∧
    (∀ m : ℕ, m < 2 → knotFn exampleCurve.knots (exampleCurve.knots.length - 2 - 1 + m) = exampleCurve.last) := by
  have hv : KnotVector exampleCurve.knots 2 := pairwise_vector _ _ (by decide +kernel) (by decide)
  exact ⟨⟨hv, rfl, rfl, by decide +kernel⟩, ⟨hv, by decide, by decide, by decide +kernel⟩, ⟨hv, by decide, by decide, by decide +kernel⟩,
    by unfold Curve.LastSpan; decide +kernel, by decide +kernel, by decide +kernel⟩

/-- a bilinear surface of two elements -/
def exampleSurface : Surface ℚ 1 :=
  ⟨[0, 0, 1, 2, 2], [0, 0, 1, 1], [[![0], ![1], ![2]], [![3], ![4], ![7]]], [[1, 2, 1], [1, 1, 4]], 1, 1⟩

example : exampleSurface.WellFormed := by
  exact ⟨pairwise_vector _ _ (by decide +kernel) (by decide), pairwise_vector _ _ (by decide +kernel) (by decide), rfl, by decide +kernel, rfl,
    by decide +kernel, by decide +kernel⟩

end NuTo.Nurbs
