import Verif.Props.Completeness
import Mathlib.Algebra.Order.Field.Basic
import Mathlib.Algebra.Order.Group.MinMax
import Mathlib.Tactic.FieldSimp
import Mathlib.Tactic.Positivity

/-!
# C76: `IsWithinShape` accepts the reference element and only points close to it
-/

set_option linter.unusedSectionVars false
set_option linter.unusedSimpArgs false

namespace NuTo

namespace Shapes

open Interpolation

variable {K : Type} [Field K] [LinearOrder K] [IsStrictOrderedRing K]

/-- The corners of the reference element of a shape: the nodes of the interpolation of order one. -/
def corners (K : Type) [Field K] [DecidableEq K] (s : EShape) : List (List K) :=
  match Factory.createLagrange (K := K) s 1 with
  | .ok O => O.interp.coords
  | _ => []

/-- The reference element: the convex hull of the corners. -/
def Inside (s : EShape) (x : Nat → K) : Prop :=
  ∃ w : List K, w.length = (corners K s).length ∧ (∀ v ∈ w, 0 ≤ v) ∧ w.sum = 1 ∧
    ∀ d, d < s.dim → x d = (List.zipWith (· * ·) w ((corners K s).map fun c => vec c d)).sum

theorem two (w : List K) (h : w.length = 2) : ∃ a b, w = [a, b] := by
  match w, h with
  | [a, b], _ => exact ⟨a, b, rfl⟩

theorem three (w : List K) (h : w.length = 3) : ∃ a b c, w = [a, b, c] := by
  match w, h with
  | [a, b, c], _ => exact ⟨a, b, c, rfl⟩

theorem four (w : List K) (h : w.length = 4) : ∃ a b c d, w = [a, b, c, d] := by
  match w, h with
  | [a, b, c, d], _ => exact ⟨a, b, c, d, rfl⟩

theorem five (w : List K) (h : w.length = 5) : ∃ a b c d e, w = [a, b, c, d, e] := by
  match w, h with
  | [a, b, c, d, e], _ => exact ⟨a, b, c, d, e, rfl⟩

theorem six (w : List K) (h : w.length = 6) : ∃ a b c d e f, w = [a, b, c, d, e, f] := by
  match w, h with
  | [a, b, c, d, e, f], _ => exact ⟨a, b, c, d, e, f, rfl⟩

theorem eight (w : List K) (h : w.length = 8) : ∃ a b c d e f g i, w = [a, b, c, d, e, f, g, i] := by
  match w, h with
  | [a, b, c, d, e, f, g, i], _ => exact ⟨a, b, c, d, e, f, g, i, rfl⟩

/-- the inequalities of the reference elements -/
def Box (s : EShape) (x : Nat → K) : Prop :=
  match s with
  | .line => -1 ≤ x 0 ∧ x 0 ≤ 1
  | .triangle => 0 ≤ x 0 ∧ 0 ≤ x 1 ∧ x 0 + x 1 ≤ 1
  | .quadrilateral => (-1 ≤ x 0 ∧ x 0 ≤ 1) ∧ -1 ≤ x 1 ∧ x 1 ≤ 1
  | .tetrahedron => 0 ≤ x 0 ∧ 0 ≤ x 1 ∧ 0 ≤ x 2 ∧ x 0 + x 1 + x 2 ≤ 1
  | .hexahedron => (-1 ≤ x 0 ∧ x 0 ≤ 1) ∧ (-1 ≤ x 1 ∧ x 1 ≤ 1) ∧ -1 ≤ x 2 ∧ x 2 ≤ 1
  | .prism => (0 ≤ x 0 ∧ 0 ≤ x 1 ∧ x 0 + x 1 ≤ 1) ∧ -1 ≤ x 2 ∧ x 2 ≤ 1
  | .pyramid => 0 ≤ x 2 ∧ (-(1 - x 2) ≤ x 0 ∧ x 0 ≤ 1 - x 2) ∧ -(1 - x 2) ≤ x 1 ∧ x 1 ≤ 1 - x 2

theorem box_of_inside (s : EShape) (x : Nat → K) (h : Inside s x) : Box s x := by
  obtain ⟨w, hl, hp, hs, hx⟩ := h
  cases s
  case line =>
    obtain ⟨a, b, rfl⟩ := two w hl
    have h0 := hx 0 (by simp [EShape.dim])
    simp [corners, Factory.createLagrange, Factory.lagrangeLine, trussLinear, trussLinearCoords, vec] at h0 hs hp
    constructor <;> linarith
  case triangle =>
    obtain ⟨a, b, c, rfl⟩ := three w hl
    have h0 := hx 0 (by simp [EShape.dim])
    have h1 := hx 1 (by simp [EShape.dim])
    simp [corners, Factory.createLagrange, Factory.lagrangeTriangle, triangleLinear, triangleLinearCoords, vec] at h0 h1 hs hp
    refine ⟨?_, ?_, ?_⟩ <;> linarith
  case quadrilateral =>
    obtain ⟨a, b, c, d, rfl⟩ := four w hl
    have h0 := hx 0 (by simp [EShape.dim])
    have h1 := hx 1 (by simp [EShape.dim])
    simp [corners, Factory.createLagrange, Factory.lagrangeQuadrilateral, quadLinear, quadLinearCoords, vec] at h0 h1 hs hp
    refine ⟨⟨?_, ?_⟩, ?_, ?_⟩ <;> linarith
  case tetrahedron =>
    obtain ⟨a, b, c, d, rfl⟩ := four w hl
    have h0 := hx 0 (by simp [EShape.dim])
    have h1 := hx 1 (by simp [EShape.dim])
    have h2 := hx 2 (by simp [EShape.dim])
    simp [corners, Factory.createLagrange, Factory.lagrangeTetrahedron, tetrahedronLinear, tetrahedronLinearCoords, vec]
      at h0 h1 h2 hs hp
    refine ⟨?_, ?_, ?_, ?_⟩ <;> linarith
  case hexahedron =>
    obtain ⟨a, b, c, d, e, f, g, i, rfl⟩ := eight w hl
    have h0 := hx 0 (by simp [EShape.dim])
    have h1 := hx 1 (by simp [EShape.dim])
    have h2 := hx 2 (by simp [EShape.dim])
    simp [corners, Factory.createLagrange, Factory.lagrangeHex, brickLinear, brickLinearCoords, vec] at h0 h1 h2 hs hp
    refine ⟨⟨?_, ?_⟩, ⟨?_, ?_⟩, ?_, ?_⟩ <;> linarith
  case prism =>
    obtain ⟨a, b, c, d, e, f, rfl⟩ := six w hl
    have h0 := hx 0 (by simp [EShape.dim])
    have h1 := hx 1 (by simp [EShape.dim])
    have h2 := hx 2 (by simp [EShape.dim])
    simp [corners, Factory.createLagrange, Factory.lagrangePrism, prismLinear, prismLinearCoords, vec] at h0 h1 h2 hs hp
    refine ⟨⟨?_, ?_, ?_⟩, ?_, ?_⟩ <;> linarith
  case pyramid =>
    obtain ⟨a, b, c, d, e, rfl⟩ := five w hl
    have h0 := hx 0 (by simp [EShape.dim])
    have h1 := hx 1 (by simp [EShape.dim])
    have h2 := hx 2 (by simp [EShape.dim])
    simp [corners, Factory.createLagrange, Factory.lagrangePyramid, pyramidLinear, pyramidLinearCoords, vec] at h0 h1 h2 hs hp
    refine ⟨?_, ⟨?_, ?_⟩, ?_, ?_⟩ <;> linarith

theorem inside_of_box (s : EShape) (x : Nat → K) (h : Box s x) : Inside s x := by
  have lin : ∀ (I : Interpolation K), (I, 1) ∈ (Completeness.orders : List (Interpolation K × Nat)) →
      (I.shape x).sum = 1 ∧ ∀ d, d < I.dim → x d = (List.zipWith (· * ·) (I.shape x) (I.coords.map fun c => vec c d)).sum := by
    intro I hI
    constructor
    · simp only [Completeness.orders, List.mem_cons, List.not_mem_nil, or_false, Prod.mk.injEq] at hI
      rcases hI with ⟨rfl, _⟩ | ⟨_, h⟩ | ⟨_, h⟩ | ⟨rfl, _⟩ | ⟨_, h⟩ | ⟨_, h⟩ | ⟨rfl, _⟩ | ⟨_, h⟩ |
        ⟨rfl, _⟩ | ⟨_, h⟩ | ⟨rfl, _⟩ | ⟨_, h⟩ | ⟨rfl, _⟩ | ⟨_, h⟩ | ⟨rfl, _⟩
      all_goals first
        | exact absurd h (by decide)
        | (simp only [trussLinear, trussLinearShape, triangleLinear, triangleLinearShape, quadLinear, quadLinearShape,
            tetrahedronLinear, tetrahedronLinearShape, brickLinear, brickLinearShape, prismLinear, prismLinearShape, pyramidLinear,
            pyramidLinearShape, List.sum_cons, List.sum_nil]
           ring)
    · intro d hd
      have := Completeness.C75_complete I 1 hI (MvPolynomial.X ⟨d, hd⟩) (by simp) x
      simp only [Completeness.field, Completeness.nodal, Completeness.poly, MvPolynomial.eval_X] at this
      exact this.symm
  have nonneg : ∀ (I : Interpolation K), (I, 1) ∈ (Completeness.orders : List (Interpolation K × Nat)) → s.dim = I.dim →
      corners K s = I.coords → (I.shape x).length = I.coords.length → (∀ v ∈ I.shape x, 0 ≤ v) → Inside s x := by
    intro I hI hd hc hl hn
    obtain ⟨h1, h2⟩ := lin I hI
    exact ⟨I.shape x, by rw [hl, hc], hn, h1, fun d hd' => by rw [hc]; exact h2 d (hd ▸ hd')⟩
  cases s
  case line =>
    obtain ⟨a, b⟩ := h
    refine nonneg trussLinear (by simp [Completeness.orders]) rfl rfl rfl ?_
    simp only [trussLinear, trussLinearShape, List.forall_mem_cons, List.not_mem_nil, false_implies, implies_true, and_true]
    constructor <;> linarith
  case triangle =>
    obtain ⟨a, b, c⟩ := h
    refine nonneg triangleLinear (by simp [Completeness.orders]) rfl rfl rfl ?_
    simp only [triangleLinear, triangleLinearShape, List.forall_mem_cons, List.not_mem_nil, false_implies, implies_true, and_true]
    refine ⟨?_, ?_, ?_⟩ <;> linarith
  case quadrilateral =>
    obtain ⟨⟨a, b⟩, c, d⟩ := h
    refine nonneg quadLinear (by simp [Completeness.orders]) rfl rfl rfl ?_
    simp only [quadLinear, quadLinearShape, List.forall_mem_cons, List.not_mem_nil, false_implies, implies_true, and_true]
    have a' : 0 ≤ 1 + x 0 := by linarith
    have b' : 0 ≤ 1 - x 0 := by linarith
    have c' : 0 ≤ 1 + x 1 := by linarith
    have d' : 0 ≤ 1 - x 1 := by linarith
    refine ⟨?_, ?_, ?_, ?_⟩ <;> positivity
  case tetrahedron =>
    obtain ⟨a, b, c, d⟩ := h
    refine nonneg tetrahedronLinear (by simp [Completeness.orders]) rfl rfl rfl ?_
    simp only [tetrahedronLinear, tetrahedronLinearShape, List.forall_mem_cons, List.not_mem_nil, false_implies, implies_true, and_true]
    refine ⟨?_, ?_, ?_, ?_⟩ <;> linarith
  case hexahedron =>
    obtain ⟨⟨a, b⟩, ⟨c, d⟩, e, f⟩ := h
    refine nonneg brickLinear (by simp [Completeness.orders]) rfl rfl rfl ?_
    simp only [brickLinear, brickLinearShape, List.forall_mem_cons, List.not_mem_nil, false_implies, implies_true, and_true]
    have a' : 0 ≤ 1 + x 0 := by linarith
    have b' : 0 ≤ 1 - x 0 := by linarith
    have c' : 0 ≤ 1 + x 1 := by linarith
    have d' : 0 ≤ 1 - x 1 := by linarith
    have e' : 0 ≤ 1 + x 2 := by linarith
    have f' : 0 ≤ 1 - x 2 := by linarith
    refine ⟨?_, ?_, ?_, ?_, ?_, ?_, ?_, ?_⟩ <;> positivity
  case prism =>
    obtain ⟨⟨a, b, c⟩, d, e⟩ := h
    refine nonneg prismLinear (by simp [Completeness.orders]) rfl rfl rfl ?_
    simp only [prismLinear, prismLinearShape, List.forall_mem_cons, List.not_mem_nil, false_implies, implies_true, and_true]
    have c' : 0 ≤ 1 - x 0 - x 1 := by linarith
    have d' : 0 ≤ 1 + x 2 := by linarith
    have e' : 0 ≤ 1 - x 2 := by linarith
    refine ⟨?_, ?_, ?_, ?_, ?_, ?_⟩ <;> positivity
  case pyramid =>
    obtain ⟨a, ⟨b, c⟩, d, e⟩ := h
    refine nonneg pyramidLinear (by simp [Completeness.orders]) rfl rfl rfl ?_
    simp only [pyramidLinear, pyramidLinearShape, List.forall_mem_cons, List.not_mem_nil, false_implies, implies_true, and_true]
    by_cases ht : 1 - x 2 = 0
    · have hz : x 2 = 1 := by linarith
      have h0 : x 0 = 0 := by linarith
      have h1 : x 1 = 0 := by linarith
      norm_num [hz, h0, h1]
    · have htp : 0 < 1 - x 2 := lt_of_le_of_ne (by linarith) (Ne.symm ht)
      rw [if_pos ht]
      have b' : 0 ≤ (1 - x 2) + x 0 := by linarith
      have c' : 0 ≤ (1 - x 2) - x 0 := by linarith
      have d' : 0 ≤ (1 - x 2) + x 1 := by linarith
      have e' : 0 ≤ (1 - x 2) - x 1 := by linarith
      have key : ∀ u v : K, (1 + u) * (1 + v) - x 2 + u * v * x 2 / (1 - x 2) =
          ((1 - x 2) + u) * ((1 - x 2) + v) / (1 - x 2) := by
        intro u v; field_simp; ring
      have k1 := key (x 0) (x 1)
      have k2 := key (x 0) (-x 1)
      have k3 := key (-x 0) (-x 1)
      have k4 := key (-x 0) (x 1)
      have p1 := div_nonneg (mul_nonneg b' d') htp.le
      have p2 := div_nonneg (mul_nonneg b' e') htp.le
      have p3 := div_nonneg (mul_nonneg c' e') htp.le
      have p4 := div_nonneg (mul_nonneg c' d') htp.le
      have e2 : x 0 * -x 1 * x 2 / (1 - x 2) = -(x 0 * x 1 * x 2 / (1 - x 2)) := by ring
      have e3 : -x 0 * -x 1 * x 2 / (1 - x 2) = x 0 * x 1 * x 2 / (1 - x 2) := by ring
      have e4 : -x 0 * x 1 * x 2 / (1 - x 2) = -(x 0 * x 1 * x 2 / (1 - x 2)) := by ring
      rw [e2] at k2; rw [e3] at k3; rw [e4] at k4
      simp only [← sub_eq_add_neg] at k2 k3 k4
      refine ⟨?_, ?_, ?_, ?_, a⟩
      · rw [k1]; linarith
      · rw [k2]; linarith
      · rw [k3]; linarith
      · rw [k4]; linarith

/-- C76: with a positive tolerance `IsWithinShape` accepts every point of the reference element, corners and faces included. -/
theorem C76_accepts (s : EShape) (x : Nat → K) (e : K) (he : 0 < e) (h : Inside s x) : s.isWithinShape x e := by
  have := box_of_inside s x h
  cases s <;> simp only [Box] at this <;> simp only [EShape.isWithinShape] <;> (repeat' constructor) <;> linarith

/-- the nearest number of an interval -/
theorem clamp (lo hi e t : K) (hl : lo ≤ hi) (h1 : lo - e < t) (h2 : t < hi + e) (he : 0 ≤ e) :
    ∃ y, lo ≤ y ∧ y ≤ hi ∧ |t - y| ≤ e := by
  rcases le_total t lo with h | h
  · exact ⟨lo, le_refl _, hl, by rw [abs_le]; constructor <;> linarith⟩
  · rcases le_total t hi with h' | h'
    · exact ⟨t, h, h', by simpa using he⟩
    · exact ⟨hi, hl, le_refl _, by rw [abs_le]; constructor <;> linarith⟩

/-- the lowest number that is not negative and not too far away -/
theorem lower (e t : K) (h1 : 0 - e < t) (he : 0 ≤ e) : ∃ y, 0 ≤ y ∧ |t - y| ≤ e ∧ (y = 0 ∨ y = t - e) := by
  rcases le_total (t - e) 0 with h | h
  · exact ⟨0, le_refl _, by rw [abs_le]; constructor <;> linarith, Or.inl rfl⟩
  · exact ⟨t - e, h, by rw [abs_le]; constructor <;> linarith, Or.inr rfl⟩

/-- C76: every point `IsWithinShape` accepts is, in each coordinate, at most the tolerance away from a point of the reference
element.

Partial: for pyramids only with `0 ≤ z`, see `C76_pyramid_counterexample`. -/
theorem C76_close_partial (s : EShape) (x : Nat → K) (e : K) (he : 0 ≤ e) (h : s.isWithinShape x e)
    (hs : s = .pyramid → 0 ≤ x 2) : ∃ y : Nat → K, Inside s y ∧ ∀ d, d < s.dim → |x d - y d| ≤ e := by
  have mk : ∀ a b c : K, Box s (vec [a, b, c]) → (0 < s.dim → |x 0 - a| ≤ e) → (1 < s.dim → |x 1 - b| ≤ e) →
      (2 < s.dim → |x 2 - c| ≤ e) → ∃ y : Nat → K, Inside s y ∧ ∀ d, d < s.dim → |x d - y d| ≤ e := by
    intro a b c hb h0 h1 h2
    refine ⟨_, inside_of_box s _ hb, fun d hd => ?_⟩
    have : d < 3 := lt_of_lt_of_le hd (by cases s <;> decide)
    interval_cases d
    · exact h0 hd
    · exact h1 hd
    · exact h2 hd
  cases s
  case line =>
    obtain ⟨a, b⟩ := h
    obtain ⟨y, y1, y2, y3⟩ := clamp (-1) 1 e (x 0) (by norm_num) a b he
    exact mk y 0 0 ⟨y1, y2⟩ (fun _ => y3) (fun h => absurd h (by decide)) (fun h => absurd h (by decide))
  case triangle =>
    obtain ⟨h0, h1, h2, h3, h4⟩ := h
    obtain ⟨a, a1, a2, a3⟩ := lower e (x 0) h0 he
    obtain ⟨b, b1, b2, b3⟩ := lower e (x 1) h2 he
    refine mk a b 0 ⟨a1, b1, ?_⟩ (fun _ => a2) (fun _ => b2) (fun h => absurd h (by decide))
    show a + b ≤ 1
    rcases a3 with rfl | rfl <;> rcases b3 with rfl | rfl <;> linarith
  case quadrilateral =>
    obtain ⟨h0, h1, h2, h3⟩ := h
    obtain ⟨a, a1, a2, a3⟩ := clamp (-1) 1 e (x 0) (by norm_num) h0 h1 he
    obtain ⟨b, b1, b2, b3⟩ := clamp (-1) 1 e (x 1) (by norm_num) h2 h3 he
    exact mk a b 0 ⟨⟨a1, a2⟩, b1, b2⟩ (fun _ => a3) (fun _ => b3) (fun h => absurd h (by decide))
  case tetrahedron =>
    obtain ⟨h0, h1, h2, h3, h4, h5, h6⟩ := h
    obtain ⟨a, a1, a2, a3⟩ := lower e (x 0) h0 he
    obtain ⟨b, b1, b2, b3⟩ := lower e (x 1) h2 he
    obtain ⟨c, c1, c2, c3⟩ := lower e (x 2) h4 he
    refine mk a b c ⟨a1, b1, c1, ?_⟩ (fun _ => a2) (fun _ => b2) (fun _ => c2)
    show a + b + c ≤ 1
    rcases a3 with rfl | rfl <;> rcases b3 with rfl | rfl <;> rcases c3 with rfl | rfl <;> linarith
  case hexahedron =>
    obtain ⟨h0, h1, h2, h3, h4, h5⟩ := h
    obtain ⟨a, a1, a2, a3⟩ := clamp (-1) 1 e (x 0) (by norm_num) h0 h1 he
    obtain ⟨b, b1, b2, b3⟩ := clamp (-1) 1 e (x 1) (by norm_num) h2 h3 he
    obtain ⟨c, c1, c2, c3⟩ := clamp (-1) 1 e (x 2) (by norm_num) h4 h5 he
    exact mk a b c ⟨⟨a1, a2⟩, ⟨b1, b2⟩, c1, c2⟩ (fun _ => a3) (fun _ => b3) (fun _ => c3)
  case prism =>
    obtain ⟨h0, h1, h2, h3, h4, h5, h6⟩ := h
    obtain ⟨a, a1, a2, a3⟩ := lower e (x 0) h0 he
    obtain ⟨b, b1, b2, b3⟩ := lower e (x 1) h2 he
    obtain ⟨c, c1, c2, c3⟩ := clamp (-1) 1 e (x 2) (by norm_num) h4 h5 he
    refine mk a b c ⟨⟨a1, b1, ?_⟩, c1, c2⟩ (fun _ => a2) (fun _ => b2) (fun _ => c3)
    show a + b ≤ 1
    rcases a3 with rfl | rfl <;> rcases b3 with rfl | rfl <;> linarith
  case pyramid =>
    obtain ⟨h0, h1, h2, h3⟩ := h
    have hz := hs rfl
    rcases le_total (x 2) 1 with h | h
    · obtain ⟨a, a1, a2, a3⟩ := clamp (-(1 - x 2)) (1 - x 2) e (x 0) (by linarith) h0 h1 he
      obtain ⟨b, b1, b2, b3⟩ := clamp (-(1 - x 2)) (1 - x 2) e (x 1) (by linarith) h2 h3 he
      exact mk a b (x 2) ⟨hz, ⟨a1, a2⟩, b1, b2⟩ (fun _ => a3) (fun _ => b3) (fun _ => by simpa using he)
    · refine mk 0 0 1 ?_ (fun _ => ?_) (fun _ => ?_) (fun _ => ?_)
      · simp [Box, vec]
      all_goals rw [abs_le]; constructor <;> linarith

/-- The pyramid has no test for its base: points arbitrarily far below it are accepted, whatever the tolerance. -/
theorem C76_pyramid_counterexample (e : K) (he : 0 < e) (t : K) : ∃ x : Nat → K, EShape.pyramid.isWithinShape x e ∧
    ∀ y : Nat → K, Inside .pyramid y → t ≤ |x 2 - y 2| := by
  refine ⟨vec [0, 0, -|t|], ?_, fun y hy => ?_⟩
  · have := abs_nonneg t
    simp only [EShape.isWithinShape, vec, List.getD_cons_zero, List.getD_cons_succ]
    refine ⟨?_, ?_, ?_, ?_⟩ <;> linarith
  · have := box_of_inside _ _ hy
    have h2 : 0 ≤ y 2 := this.1
    have h3 := abs_nonneg t
    have h4 := le_abs_self t
    rw [show vec [0, 0, -|t|] 2 = -|t| from rfl, abs_of_nonpos (by linarith)]
    linarith

/-- C76: the tolerance has to be positive: without it no corner is accepted. -/
theorem C76_tolerance (s : EShape) (e : K) (he : e ≤ 0) (c : List K) (hc : c ∈ corners K s) : ¬ s.isWithinShape (vec c) e := by
  cases s <;>
    simp only [corners, Factory.createLagrange, Factory.lagrangeLine, Factory.lagrangeTriangle, Factory.lagrangeQuadrilateral,
      Factory.lagrangeTetrahedron, Factory.lagrangeHex, Factory.lagrangePrism, Factory.lagrangePyramid, if_true,
      trussLinear, triangleLinear, quadLinear, tetrahedronLinear, brickLinear, prismLinear, pyramidLinear, trussLinearCoords,
      triangleLinearCoords, quadLinearCoords, tetrahedronLinearCoords, brickLinearCoords, prismLinearCoords, pyramidLinearCoords,
      List.mem_cons, List.not_mem_nil, or_false] at hc
  case line => rcases hc with rfl | rfl <;> simp only [EShape.isWithinShape, vec, List.getD_cons_zero, List.getD_cons_succ] <;> rintro ⟨a, b⟩ <;> linarith
  case triangle =>
    rcases hc with rfl | rfl | rfl <;> simp only [EShape.isWithinShape, vec, List.getD_cons_zero, List.getD_cons_succ] <;>
      rintro ⟨a, b, c, d, f⟩ <;> linarith
  case quadrilateral =>
    rcases hc with rfl | rfl | rfl | rfl <;> simp only [EShape.isWithinShape, vec, List.getD_cons_zero, List.getD_cons_succ] <;>
      rintro ⟨a, b, c, d⟩ <;> linarith
  case tetrahedron =>
    rcases hc with rfl | rfl | rfl | rfl <;> simp only [EShape.isWithinShape, vec, List.getD_cons_zero, List.getD_cons_succ] <;>
      rintro ⟨a, b, c, d, f, g, h⟩ <;> linarith
  case hexahedron =>
    rcases hc with rfl | rfl | rfl | rfl | rfl | rfl | rfl | rfl <;>
      simp only [EShape.isWithinShape, vec, List.getD_cons_zero, List.getD_cons_succ] <;>
      rintro ⟨a, b, c, d, f, g⟩ <;> linarith
  case prism =>
    rcases hc with rfl | rfl | rfl | rfl | rfl | rfl <;>
      simp only [EShape.isWithinShape, vec, List.getD_cons_zero, List.getD_cons_succ] <;>
      rintro ⟨a, b, c, d, f, g, h⟩ <;> linarith
  case pyramid =>
    rcases hc with rfl | rfl | rfl | rfl | rfl <;>
      simp only [EShape.isWithinShape, vec, List.getD_cons_zero, List.getD_cons_succ] <;>
      rintro ⟨a, b, c, d⟩ <;> linarith

/-- the interpolation classes and the shape `GetShape` returns -/
def classes (K : Type) [Field K] [DecidableEq K] : List (Interpolation K × EShape) :=
  [(trussLinear, .line), (trussQuadratic, .line), (truss3rdOrder, .line), (truss4thOrder, .line),
   (triangleLinear, .triangle), (triangleQuadratic, .triangle), (triangle3rdOrder, .triangle), (triangle4thOrder, .triangle),
   (quadLinear, .quadrilateral), (quadSerendipity, .quadrilateral),
   (tetrahedronLinear, .tetrahedron), (tetrahedronQuadratic, .tetrahedron),
   (brickLinear, .hexahedron), (brickQuadratic, .hexahedron),
   (prismLinear, .prism), (prismQuadratic, .prism), (pyramidLinear, .pyramid)]

/-- C76: every node of every interpolation class lies in the reference element of the shape the class announces. -/
theorem C76_nodes (I : Interpolation K) (s : EShape) (h : (I, s) ∈ classes K) (c : List K) (hc : c ∈ I.coords) :
    Inside s (vec c) := by
  refine inside_of_box s _ ?_
  simp only [classes, List.mem_cons, List.not_mem_nil, or_false, Prod.mk.injEq] at h
  rcases h with ⟨rfl, rfl⟩ | ⟨rfl, rfl⟩ | ⟨rfl, rfl⟩ | ⟨rfl, rfl⟩ | ⟨rfl, rfl⟩ | ⟨rfl, rfl⟩ | ⟨rfl, rfl⟩ | ⟨rfl, rfl⟩ |
    ⟨rfl, rfl⟩ | ⟨rfl, rfl⟩ | ⟨rfl, rfl⟩ | ⟨rfl, rfl⟩ | ⟨rfl, rfl⟩ | ⟨rfl, rfl⟩ | ⟨rfl, rfl⟩ | ⟨rfl, rfl⟩ | ⟨rfl, rfl⟩
  all_goals
    revert c
    simp only [trussLinear, trussLinearCoords, trussQuadratic,
      trussQuadraticCoords, truss3rdOrder, truss3rdOrderCoords, truss4thOrder, truss4thOrderCoords, triangleLinear,
      triangleLinearCoords, triangleQuadratic, triangleQuadraticCoords, triangle3rdOrder, triangle4thOrder, triangle4thOrderCoords,
      triangle3rdOrderCoords, quadLinear, quadLinearCoords, quadSerendipity,
      quadSerendipityCoords, tetrahedronLinear, tetrahedronLinearCoords,
      tetrahedronQuadratic, tetrahedronQuadraticCoords, brickLinear, brickLinearCoords,
      brickQuadratic, brickQuadraticCoords, prismLinear, prismLinearCoords, prismQuadratic,
      prismQuadraticCoords, pyramidLinear, pyramidLinearCoords, List.forall_mem_cons, List.not_mem_nil, false_implies, implies_true,
      and_true, Box, vec, List.getD_cons_zero, List.getD_cons_succ]
    norm_num

/-- a point strictly inside a prism, and one outside of it by less than the tolerance -/
example : Inside .prism (vec [1 / 3, 1 / 3, (0 : ℚ)]) ∧ EShape.prism.isWithinShape (vec [1 / 3, 1 / 3, (1 + 1 / 10 ^ 9 : ℚ)]) (1 / 10 ^ 8) ∧
    ¬ Inside .prism (vec [1 / 3, 1 / 3, (1 + 1 / 10 ^ 9 : ℚ)]) := by
  refine ⟨inside_of_box _ _ ?_, ?_, fun h => ?_⟩
  · norm_num [Box, vec]
  · norm_num [EShape.isWithinShape, vec]
  · have := box_of_inside _ _ h
    norm_num [Box, vec] at this

end Shapes

end NuTo
