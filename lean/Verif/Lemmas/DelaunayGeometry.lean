import Mathlib.Tactic.Ring
import Mathlib.Tactic.Linarith
import Mathlib.Tactic.LinearCombination
import Mathlib.Tactic.FieldSimp
import Mathlib.Algebra.BigOperators.Group.List.Basic
import Verif.Model.Delaunay

/-! Geometry behind the triangulation of `Model/Delaunay.lean`: circles through two points, crossings of a ray. -/

namespace NuTo.Delaunay

variable {K : Type} [Field K] [LinearOrder K] [IsStrictOrderedRing K]

/-- Twice the signed area of a triangle -/
def orient (a b c : Pt K) : K := (b.x - a.x) * (c.y - a.y) - (b.y - a.y) * (c.x - a.x)

/-- Square of the distance -/
def dist2 (a b : Pt K) : K := (a.x - b.x) * (a.x - b.x) + (a.y - b.y) * (a.y - b.y)

/-- Product of the vectors from `z` to the ends of the edge -/
def through (u v z : Pt K) : K := (z.x - u.x) * (z.x - v.x) + (z.y - u.y) * (z.y - v.y)

omit [LinearOrder K] [IsStrictOrderedRing K] in
theorem orient_rot (a b c : Pt K) : orient b c a = orient a b c := by unfold orient; ring

omit [LinearOrder K] [IsStrictOrderedRing K] in
theorem orient_swap (a b c : Pt K) : orient b a c = - orient a b c := by unfold orient; ring

omit [LinearOrder K] [IsStrictOrderedRing K] in
theorem det_rot (a b c d : Pt K) : determinant b c a d = determinant a b c d := by unfold determinant; ring

omit [LinearOrder K] [IsStrictOrderedRing K] in
theorem det_swap (a b c d : Pt K) : determinant b a c d = - determinant a b c d := by unfold determinant; ring

omit [LinearOrder K] [IsStrictOrderedRing K] in
theorem det_eq (u v w d : Pt K) :
    determinant u v w d = through u v w * orient u v d - through u v d * orient u v w := by
  unfold determinant through orient; ring

omit [LinearOrder K] [IsStrictOrderedRing K] in
/-- The determinant measures the distance to the circle through the three points. -/
theorem det_circle (a b c d o : Pt K) (hb : dist2 o b = dist2 o a) (hc : dist2 o c = dist2 o a) :
    determinant a b c d = orient a b c * (dist2 o a - dist2 o d) := by
  unfold determinant orient dist2 at *
  linear_combination ((a.x - d.x) * (c.y - d.y) - (a.y - d.y) * (c.x - d.x)) * (-hb) +
    ((a.x - d.x) * (b.y - d.y) - (a.y - d.y) * (b.x - d.x)) * hc

theorem det_pos_iff {a b c d o : Pt K} (hT : 0 < orient a b c) (hb : dist2 o b = dist2 o a) (hc : dist2 o c = dist2 o a) :
    0 < determinant a b c d ↔ dist2 o d < dist2 o a := by
  rw [det_circle a b c d o hb hc, mul_pos_iff_of_pos_left hT, sub_pos]

/-- Two triangles share the edge `u v`; a point inside of the first circle and not inside of the second one is on the side
of the first triangle. -/
theorem star_inner {u v w z p : Pt K} (hw : 0 < orient u v w) (hz : orient u v z < 0)
    (hbad : 0 < determinant u v w p) (hgood : determinant v u z p ≤ 0) (hD : determinant u v w z ≤ 0) :
    0 < orient u v p := by
  rw [det_swap] at hgood
  rw [det_eq] at hbad hgood hD
  by_contra hn
  push Not at hn
  have h1 := mul_pos (neg_pos.2 hz) hbad
  have h2 := mul_nonneg hw.le (neg_nonneg.2 hgood)
  have h3 := mul_nonneg (neg_nonneg.2 hn) (neg_nonneg.2 hD)
  nlinarith

/-- The circle of the new triangle contains no other point: the part on the side of the removed triangle. -/
theorem empty_left {u v w p d : Pt K} (hw : 0 < orient u v w) (hp : 0 < orient u v p) (hd : 0 ≤ orient u v d)
    (hbad : 0 < determinant u v w p) (hD : determinant u v w d ≤ 0) : determinant u v p d ≤ 0 := by
  rw [det_eq] at *
  have h1 := mul_nonneg hd hbad.le
  have h2 := mul_nonneg hp.le (neg_nonneg.2 hD)
  by_contra hn
  push Not at hn
  have h3 := mul_pos hw hn
  nlinarith

/-- The part on the other side. -/
theorem empty_right {u v z p d : Pt K} (hz : orient u v z < 0) (hp : 0 < orient u v p) (hd : orient u v d ≤ 0)
    (hgood : determinant v u z p ≤ 0) (hD : determinant v u z d ≤ 0) : determinant u v p d ≤ 0 := by
  rw [det_swap] at hgood hD
  rw [det_eq] at *
  have h1 := mul_nonneg (neg_nonneg.2 hd) (neg_nonneg.2 hgood)
  have h2 := mul_nonneg hp.le (neg_nonneg.2 hD)
  by_contra hn
  push Not at hn
  have h3 := mul_pos (neg_pos.2 hz) hn
  nlinarith

/-! ### Crossings of a ray -/

/-- Side of `u` of the line through `x` in direction `d` -/
def side (x d u : Pt K) : K := d.x * (u.y - x.y) - d.y * (u.x - x.x)

/-- Crossings of the ray from `x` in direction `d` with the edge from `u` to `v`, with sign -/
def crossing (x d u v : Pt K) : K :=
  if side x d u < 0 ∧ 0 ≤ side x d v ∧ 0 < orient u v x then 1
  else if side x d v < 0 ∧ 0 ≤ side x d u ∧ 0 < orient v u x then -1 else 0

omit [IsStrictOrderedRing K] in
theorem crossing_swap (x d u v : Pt K) : crossing x d v u = - crossing x d u v := by
  unfold crossing
  by_cases h1 : side x d u < 0 ∧ 0 ≤ side x d v ∧ 0 < orient u v x
  · have h2 : ¬ (side x d v < 0 ∧ 0 ≤ side x d u ∧ 0 < orient v u x) := fun h => absurd h1.1 (not_lt.2 h.2.1)
    rw [if_neg h2, if_pos h1, if_pos h1]
  · rw [if_neg h1, if_neg h1]
    by_cases h2 : side x d v < 0 ∧ 0 ≤ side x d u ∧ 0 < orient v u x
    · rw [if_pos h2, if_pos h2]; simp
    · rw [if_neg h2, if_neg h2]; simp

omit [LinearOrder K] [IsStrictOrderedRing K] in
theorem side_sum (x d a b c : Pt K) :
    orient b c x * side x d a + orient c a x * side x d b + orient a b x * side x d c = 0 := by
  unfold orient side; ring

omit [LinearOrder K] [IsStrictOrderedRing K] in
theorem orient_sum (x a b c : Pt K) : orient b c x + orient c a x + orient a b x = orient a b c := by
  unfold orient; ring

omit [LinearOrder K] [IsStrictOrderedRing K] in
theorem side_flat_x (x d a b c : Pt K) : d.x * orient a b c =
    (b.x - a.x) * (side x d c - side x d a) - (c.x - a.x) * (side x d b - side x d a) := by
  unfold orient side; ring

omit [LinearOrder K] [IsStrictOrderedRing K] in
theorem side_flat_y (x d a b c : Pt K) : d.y * orient a b c =
    (b.y - a.y) * (side x d c - side x d a) - (c.y - a.y) * (side x d b - side x d a) := by
  unfold orient side; ring

/-- `x` lies on the closed segment from `u` to `v`. -/
def OnSegment (x u v : Pt K) : Prop :=
  ∃ t : K, 0 ≤ t ∧ t ≤ 1 ∧ x.x = u.x + t * (v.x - u.x) ∧ x.y = u.y + t * (v.y - u.y)

omit [LinearOrder K] [IsStrictOrderedRing K] in
theorem side_orient_x (x d u v : Pt K) : (x.x - u.x) * (side x d v - side x d u) =
    - side x d u * (v.x - u.x) - d.x * orient u v x := by
  unfold orient side; ring

omit [LinearOrder K] [IsStrictOrderedRing K] in
theorem side_orient_y (x d u v : Pt K) : (x.y - u.y) * (side x d v - side x d u) =
    - side x d u * (v.y - u.y) - d.y * orient u v x := by
  unfold orient side; ring

/-- A point on the line of an edge whose ends are on different sides of a line through the point is on the edge. -/
theorem onSegment_of_sides {x d u v : Pt K} (hu : side x d u < 0) (hv : 0 ≤ side x d v) (h : orient u v x = 0) :
    OnSegment x u v := by
  have hpos : 0 < side x d v - side x d u := by linarith
  have hx := side_orient_x x d u v
  have hy := side_orient_y x d u v
  rw [h, mul_zero, sub_zero] at hx hy
  refine ⟨- side x d u / (side x d v - side x d u), div_nonneg (by linarith) hpos.le,
    (div_le_one hpos).2 (by linarith), ?_, ?_⟩
  · field_simp
    linarith
  · field_simp
    linarith

theorem onSegment_symm {x u v : Pt K} (h : OnSegment x u v) : OnSegment x v u := by
  obtain ⟨t, h0, h1, hx, hy⟩ := h
  exact ⟨1 - t, by linarith, by linarith, by rw [hx]; ring, by rw [hy]; ring⟩

/-- `x` lies strictly inside of the triangle, counter clockwise. -/
def Inside (x a b c : Pt K) : Prop := 0 < orient a b x ∧ 0 < orient b c x ∧ 0 < orient c a x

omit [LinearOrder K] [IsStrictOrderedRing K] in
theorem bary_x (x a b c : Pt K) : orient b c x * a.x + orient c a x * b.x + orient a b x * c.x = orient a b c * x.x := by
  unfold orient; ring

omit [LinearOrder K] [IsStrictOrderedRing K] in
theorem bary_y (x a b c : Pt K) : orient b c x * a.y + orient c a x * b.y + orient a b x * c.y = orient a b c * x.y := by
  unfold orient; ring

/-- A point of the triangle on the line of an edge is on the edge. -/
theorem onSegment_of_bary {x a b c : Pt K} (hT : 0 < orient a b c) (h : orient b c x = 0) (h1 : 0 ≤ orient a b x)
    (h2 : 0 ≤ orient c a x) : OnSegment x b c := by
  have hx := bary_x x a b c
  have hy := bary_y x a b c
  have ho := orient_sum x a b c
  rw [h, zero_mul, zero_add] at hx hy
  rw [h, zero_add] at ho
  have e2 : orient c a x = orient a b c - orient a b x := by linarith
  rw [e2] at hx hy
  refine ⟨orient a b x / orient a b c, div_nonneg h1 hT.le, (div_le_one hT).2 (by linarith), ?_, ?_⟩
  · field_simp
    linarith
  · field_simp
    linarith

/-- Crossings of one corner: `a` is on the negative side, the others are not. -/
theorem corner_neg {x d a b c : Pt K} (hT : 0 < orient a b c) (ha : side x d a < 0) (hb : 0 ≤ side x d b)
    (hc : 0 ≤ side x d c) (hab : ¬ OnSegment x a b) (hbc : ¬ OnSegment x b c)
    (hca : ¬ OnSegment x c a) :
    (Inside x a b c → crossing x d a b + crossing x d b c + crossing x d c a = 1) ∧
    (¬ Inside x a b c → crossing x d a b + crossing x d b c + crossing x d c a = 0) := by
  have e1 : orient a b x ≠ 0 := fun h => hab (onSegment_of_sides ha hb h)
  have e2 : orient a c x ≠ 0 := fun h => hca (onSegment_symm (onSegment_of_sides ha hc h))
  have e3 : orient a c x = - orient c a x := orient_swap c a x
  have e4 : orient b a x = - orient a b x := orient_swap a b x
  have s := side_sum x d a b c
  have o := orient_sum x a b c
  have c1 : crossing x d a b = if 0 < orient a b x then 1 else 0 := by
    unfold crossing; simp [ha, hb, not_lt.2 hb]
  have c2 : crossing x d b c = 0 := by
    unfold crossing; simp [not_lt.2 hb, not_lt.2 hc]
  have c3 : crossing x d c a = if 0 < orient a c x then -1 else 0 := by
    unfold crossing; simp [ha, hc, not_lt.2 hc]
  rw [c1, c2, c3]
  rcases lt_or_gt_of_ne e1 with h1 | h1 <;> rcases lt_or_gt_of_ne e2 with h2 | h2
  · rw [if_neg (by linarith), if_neg (by linarith)]
    exact ⟨fun h => absurd h.1 (by linarith), fun _ => by ring⟩
  · exfalso
    have h3 : orient c a x < 0 := by linarith
    have h4 : 0 < orient b c x := by linarith
    nlinarith [mul_nonneg (neg_nonneg.2 h3.le) hb, mul_nonneg (neg_nonneg.2 h1.le) hc, mul_pos h4 (neg_pos.2 ha)]
  · rw [if_pos h1, if_neg (by linarith)]
    refine ⟨fun _ => by ring, fun h => absurd ⟨h1, ?_, by linarith⟩ h⟩
    by_contra hn
    push Not at hn
    have h3 : 0 < orient c a x := by linarith
    rcases hn.lt_or_eq with hn | hn
    · nlinarith [mul_nonneg h3.le hb, mul_nonneg h1.le hc, mul_pos (neg_pos.2 hn) (neg_pos.2 ha)]
    · exact hbc (onSegment_of_bary hT hn h1.le h3.le)
  · rw [if_pos h1, if_pos h2]
    exact ⟨fun h => absurd h.2.2 (by linarith), fun _ => by ring⟩

/-- Crossings of one corner: only `a` is not on the negative side. -/
theorem corner_pos {x d a b c : Pt K} (hT : 0 < orient a b c) (ha : 0 ≤ side x d a) (hb : side x d b < 0)
    (hc : side x d c < 0) (hab : ¬ OnSegment x a b) (hbc : ¬ OnSegment x b c) (hca : ¬ OnSegment x c a) :
    (Inside x a b c → crossing x d a b + crossing x d b c + crossing x d c a = 1) ∧
    (¬ Inside x a b c → crossing x d a b + crossing x d b c + crossing x d c a = 0) := by
  have e1 : orient b a x ≠ 0 := fun h => hab (onSegment_symm (onSegment_of_sides hb ha h))
  have e2 : orient c a x ≠ 0 := fun h => hca (onSegment_of_sides hc ha h)
  have e4 : orient b a x = - orient a b x := orient_swap a b x
  have s := side_sum x d a b c
  have o := orient_sum x a b c
  have c1 : crossing x d a b = if 0 < orient b a x then -1 else 0 := by
    unfold crossing; simp [ha, hb, not_lt.2 ha]
  have c2 : crossing x d b c = 0 := by
    unfold crossing; simp [not_le.2 hb, not_le.2 hc]
  have c3 : crossing x d c a = if 0 < orient c a x then 1 else 0 := by
    unfold crossing; simp [ha, hc, not_lt.2 ha]
  rw [c1, c2, c3]
  rcases lt_or_gt_of_ne e1 with h1 | h1 <;> rcases lt_or_gt_of_ne e2 with h2 | h2
  · rw [if_neg (by linarith), if_neg (by linarith)]
    exact ⟨fun h => absurd h.2.2 (by linarith), fun _ => by ring⟩
  · rw [if_neg (by linarith), if_pos h2]
    have h3 : 0 < orient a b x := by linarith
    refine ⟨fun _ => by ring, fun h => absurd ⟨h3, ?_, h2⟩ h⟩
    by_contra hn
    push Not at hn
    rcases hn.lt_or_eq with hn | hn
    · nlinarith [mul_pos h2 (neg_pos.2 hb), mul_pos h3 (neg_pos.2 hc), mul_nonneg (neg_nonneg.2 hn.le) ha]
    · exact hbc (onSegment_of_bary hT hn h3.le h2.le)
  · exfalso
    have h3 : orient a b x < 0 := by linarith
    have h4 : 0 < orient b c x := by linarith
    nlinarith [mul_pos (neg_pos.2 h2) (neg_pos.2 hb), mul_pos (neg_pos.2 h3) (neg_pos.2 hc), mul_nonneg h4.le ha]
  · rw [if_pos h1, if_pos h2]
    exact ⟨fun h => absurd h.1 (by linarith), fun _ => by ring⟩

theorem inside_rot {x a b c : Pt K} : Inside x b c a ↔ Inside x a b c := by
  unfold Inside; tauto

/-- The boundary of a triangle is crossed once by a ray from a point inside, and as often up as down from a point outside. -/
theorem triangle_crossing {x d a b c : Pt K} (hd : d.x ≠ 0 ∨ d.y ≠ 0) (hT : 0 < orient a b c)
    (hab : ¬ OnSegment x a b) (hbc : ¬ OnSegment x b c) (hca : ¬ OnSegment x c a) :
    (Inside x a b c → crossing x d a b + crossing x d b c + crossing x d c a = 1) ∧
    (¬ Inside x a b c → crossing x d a b + crossing x d b c + crossing x d c a = 0) := by
  have r1 : orient b c a = orient a b c := orient_rot a b c
  have r2 : orient c a b = orient a b c := (orient_rot b c a).trans r1
  have s := side_sum x d a b c
  rcases lt_or_ge (side x d a) 0 with ha | ha <;> rcases lt_or_ge (side x d b) 0 with hb | hb <;>
    rcases lt_or_ge (side x d c) 0 with hc | hc
  · refine ⟨fun h => ?_, fun _ => ?_⟩
    · exfalso
      nlinarith [mul_pos h.1 (neg_pos.2 hc), mul_pos h.2.1 (neg_pos.2 ha), mul_pos h.2.2 (neg_pos.2 hb)]
    · unfold crossing; simp [not_le.2 ha, not_le.2 hb, not_le.2 hc]
  · have := corner_pos (d := d) (r2 ▸ hT) hc ha hb hca hab hbc
    rw [← inside_rot, ← inside_rot]
    exact ⟨fun h => by rw [← this.1 h]; ring, fun h => by rw [← this.2 h]; ring⟩
  · have := corner_pos (d := d) (r1 ▸ hT) hb hc ha hbc hca hab
    rw [← inside_rot]
    exact ⟨fun h => by rw [← this.1 h]; ring, fun h => by rw [← this.2 h]; ring⟩
  · exact corner_neg hT ha hb hc hab hbc hca
  · exact corner_pos hT ha hb hc hab hbc hca
  · have := corner_neg (d := d) (r1 ▸ hT) hb hc ha hbc hca hab
    rw [← inside_rot]
    exact ⟨fun h => by rw [← this.1 h]; ring, fun h => by rw [← this.2 h]; ring⟩
  · have := corner_neg (d := d) (r2 ▸ hT) hc ha hb hca hab hbc
    rw [← inside_rot, ← inside_rot]
    exact ⟨fun h => by rw [← this.1 h]; ring, fun h => by rw [← this.2 h]; ring⟩
  · refine ⟨fun h => ?_, fun _ => ?_⟩
    · exfalso
      have m1 := mul_nonneg h.1.le hc
      have m2 := mul_nonneg h.2.1.le ha
      have m3 := mul_nonneg h.2.2.le hb
      have za : side x d a = 0 := (mul_eq_zero.1 (by linarith : orient b c x * side x d a = 0)).resolve_left h.2.1.ne'
      have zb : side x d b = 0 := (mul_eq_zero.1 (by linarith : orient c a x * side x d b = 0)).resolve_left h.2.2.ne'
      have zc : side x d c = 0 := (mul_eq_zero.1 (by linarith : orient a b x * side x d c = 0)).resolve_left h.1.ne'
      have f1 := side_flat_x x d a b c
      have f2 := side_flat_y x d a b c
      rw [za, zb, zc] at f1 f2
      simp only [sub_self, mul_zero, mul_eq_zero, hT.ne', or_false] at f1 f2
      tauto
    · unfold crossing; simp [not_lt.2 ha, not_lt.2 hb, not_lt.2 hc]

omit [LinearOrder K] [IsStrictOrderedRing K] in
theorem det_bary (x a b c : Pt K) : orient a b c * determinant a b c x =
    orient b c x * orient c a x * dist2 a b + orient c a x * orient a b x * dist2 b c +
      orient a b x * orient b c x * dist2 c a := by
  unfold orient determinant dist2; ring

theorem dist2_nonneg (a b : Pt K) : 0 ≤ dist2 a b := by
  unfold dist2; nlinarith [mul_self_nonneg (a.x - b.x), mul_self_nonneg (a.y - b.y)]

theorem dist2_pos {a b : Pt K} (h : a ≠ b) : 0 < dist2 a b := by
  refine lt_of_le_of_ne (dist2_nonneg a b) fun h0 => h ?_
  have h1 := mul_self_nonneg (a.x - b.x)
  have h2 := mul_self_nonneg (a.y - b.y)
  unfold dist2 at h0
  have e1 : a.x - b.x = 0 := mul_self_eq_zero.1 (by linarith)
  have e2 : a.y - b.y = 0 := mul_self_eq_zero.1 (by linarith)
  obtain ⟨ax, ay⟩ := a
  obtain ⟨bx, bz⟩ := b
  simp only [Pt.mk.injEq]
  exact ⟨sub_eq_zero.1 e1, sub_eq_zero.1 e2⟩

omit [IsStrictOrderedRing K] in
theorem corners_ne {a b c : Pt K} (hT : 0 < orient a b c) : a ≠ b ∧ b ≠ c ∧ c ≠ a := by
  refine ⟨?_, ?_, ?_⟩ <;> rintro rfl <;> unfold orient at hT <;> ring_nf at hT <;> exact lt_irrefl _ hT

theorem eq_of_zero {x a b c : Pt K} (hT : 0 < orient a b c) (h1 : orient a b x = 0) (h2 : orient c a x = 0) : x = a := by
  have hx := bary_x x a b c
  have hy := bary_y x a b c
  have ho := orient_sum x a b c
  rw [h1, h2] at hx hy ho
  rw [zero_mul, zero_mul, add_zero, add_zero] at hx hy
  rw [add_zero, add_zero] at ho
  rw [ho] at hx hy
  obtain ⟨ax, ay⟩ := a
  obtain ⟨xx, xy⟩ := x
  simp only [Pt.mk.injEq]
  exact ⟨(mul_left_cancel₀ hT.ne' hx).symm, (mul_left_cancel₀ hT.ne' hy).symm⟩

/-- A point in the closed triangle that is not one of its corners is strictly inside of the circle. -/
theorem det_pos_of_mem {x a b c : Pt K} (hT : 0 < orient a b c) (h1 : 0 ≤ orient a b x) (h2 : 0 ≤ orient b c x)
    (h3 : 0 ≤ orient c a x) (ha : x ≠ a) (hb : x ≠ b) (hc : x ≠ c) : 0 < determinant a b c x := by
  have r1 : orient b c a = orient a b c := orient_rot a b c
  have r2 : orient c a b = orient a b c := (orient_rot b c a).trans r1
  obtain ⟨n1, n2, n3⟩ := corners_ne hT
  have key : 0 < orient a b c * determinant a b c x := by
    rw [det_bary]
    have p1 := mul_nonneg (mul_nonneg h2 h3) (dist2_nonneg a b)
    have p2 := mul_nonneg (mul_nonneg h3 h1) (dist2_nonneg b c)
    have p3 := mul_nonneg (mul_nonneg h1 h2) (dist2_nonneg c a)
    rcases h1.lt_or_eq with g1 | g1
    · rcases h2.lt_or_eq with g2 | g2
      · have := mul_pos (mul_pos g1 g2) (dist2_pos n3)
        linarith
      · rcases h3.lt_or_eq with g3 | g3
        · have := mul_pos (mul_pos g3 g1) (dist2_pos n2)
          linarith
        · exact absurd (eq_of_zero (r2 ▸ hT) g3.symm g2.symm) hc
    · rcases h2.lt_or_eq with g2 | g2
      · rcases h3.lt_or_eq with g3 | g3
        · have := mul_pos (mul_pos g2 g3) (dist2_pos n1)
          linarith
        · exact absurd (eq_of_zero hT g1.symm g3.symm) ha
      · exact absurd (eq_of_zero (r1 ▸ hT) g2.symm g1.symm) hb
  exact (mul_pos_iff_of_pos_left hT).1 key

/-- A point of an edge that is not one of its ends is strictly inside of the circle. -/
theorem det_pos_of_onSegment {x a b c : Pt K} (hT : 0 < orient a b c) (h : OnSegment x a b) (ha : x ≠ a) (hb : x ≠ b) :
    0 < determinant a b c x := by
  obtain ⟨t, t0, t1, hx, hy⟩ := h
  have e1 : orient a b x = 0 := by unfold orient; rw [hx, hy]; ring
  have e2 : orient b c x = (1 - t) * orient a b c := by unfold orient; rw [hx, hy]; ring
  have e3 : orient c a x = t * orient a b c := by unfold orient; rw [hx, hy]; ring
  refine det_pos_of_mem hT e1.ge (by rw [e2]; exact mul_nonneg (by linarith) hT.le) (by rw [e3]; exact mul_nonneg t0 hT.le)
    ha hb ?_
  rintro rfl
  linarith

/-- The part of a triangle at the corner `v`, for a point `p`: summed over the triangles around `v`, the first part
vanishes. -/
theorem corner_split {v a b p : Pt K} (hT : 0 < orient v a b) :
    determinant v a b p / (dist2 a v * dist2 b v) =
      ((p.x - v.x) * ((b.y - v.y) / dist2 b v - (a.y - v.y) / dist2 a v) -
        (p.y - v.y) * ((b.x - v.x) / dist2 b v - (a.x - v.x) / dist2 a v)) -
      dist2 p v * (orient v a b / (dist2 a v * dist2 b v)) := by
  obtain ⟨n1, n2, n3⟩ := corners_ne hT
  have ha := (dist2_pos n1.symm).ne'
  have hb := (dist2_pos n3).ne'
  field_simp
  unfold determinant orient dist2
  ring

end NuTo.Delaunay
