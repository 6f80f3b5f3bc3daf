/-
C102: what `Polygon` of the Delaunay/Voronoi code answers.
-/
import Verif.Model.Polygon
import Verif.Lemmas.OMap
import Mathlib.Tactic.Linarith
import Mathlib.Tactic.Ring
import Mathlib.Tactic.FieldSimp
import Mathlib.Tactic.Positivity
import Mathlib.Data.Finset.Card
import Mathlib.Algebra.Order.BigOperators.Group.Finset
import Mathlib.Order.Preorder.Finite
import Mathlib.Data.Finset.Max
import Mathlib.Tactic.LinearCombination
import Mathlib.Tactic.IntervalCases

namespace NuTo.Delaunay

variable {K : Type} [Field K] [LinearOrder K]

/-! ### Specification -/

/-- twice the signed area of the triangle `a b p`: negative if `p` is to the right of the line from `a` to `b` -/
def area2 (a b p : Pt K) : K := (b.x - a.x) * (p.y - a.y) - (b.y - a.y) * (p.x - a.x)

/-- corner `i` of a polygon, counted cyclically -/
def corner (pts : List (Pt K)) (i : Nat) : Pt K := pts.getD (i % pts.length) ⟨0, 0⟩

/-- The corners are those of a strictly convex polygon in clockwise order: for every edge all other corners lie to its
right. -/
def Convex (pts : List (Pt K)) : Prop :=
  3 ≤ pts.length ∧ ∀ i < pts.length, ∀ j < pts.length, j ≠ i → j ≠ (i + 1) % pts.length →
    area2 (corner pts i) (corner pts (i + 1)) (corner pts j) < 0

/-- The point is inside: to the right of all edges. -/
def InPolygon (pts : List (Pt K)) (p : Pt K) : Prop :=
  ∀ i < pts.length, area2 (corner pts i) (corner pts (i + 1)) p < 0

/-- The point lies on the edge from `a` to `b`. -/
def OnEdge (a b p : Pt K) : Prop :=
  ∃ t, 0 ≤ t ∧ t ≤ 1 ∧ p.x = a.x + t * (b.x - a.x) ∧ p.y = a.y + t * (b.y - a.y)

/-! ### The line parameter -/

variable [IsStrictOrderedRing K]

/-- C102: the parameter is that of the intersection: if the direction is not parallel to the edge and `l ≥ 0`, then `l` is
returned exactly if `p + l n` is on the edge. -/
theorem C102_lineParameter (q : Edge K) (p n : Pt K) (l : K) (hl : 0 ≤ l) :
    q.lineParameter p n = some l ↔
      (q.p1.x - q.p0.x) * n.y - (q.p1.y - q.p0.y) * n.x ≠ 0 ∧
        OnEdge q.p0 q.p1 ⟨p.x + l * n.x, p.y + l * n.y⟩ := by
  unfold Edge.lineParameter
  simp only
  obtain ⟨ex, hex⟩ : ∃ ex, ex = q.p1.x - q.p0.x := ⟨_, rfl⟩
  obtain ⟨ey, hey⟩ : ∃ ey, ey = q.p1.y - q.p0.y := ⟨_, rfl⟩
  simp only [OnEdge, ← hex, ← hey]
  by_cases h0 : ex * n.y - ey * n.x = 0
  · simp [h0]
  rw [if_neg h0]
  constructor
  · intro h
    refine ⟨h0, ?_⟩
    split at h
    · have : l = -1 := (Option.some.inj h).symm
      linarith
    · rename_i hr
      push Not at hr
      have hl' := Option.some.inj h
      refine ⟨((p.x - q.p0.x) * n.y - (p.y - q.p0.y) * n.x) / (ex * n.y - ey * n.x), hr.1, hr.2, ?_, ?_⟩
      · rw [← hl', div_neg]
        field_simp
        ring
      · rw [← hl', div_neg]
        field_simp
        ring
  · rintro ⟨_, t, t0, t1, h1, h2⟩
    have e1 : p.x - q.p0.x = t * ex - l * n.x := by linarith
    have e2 : p.y - q.p0.y = t * ey - l * n.y := by linarith
    have e3 : ((p.x - q.p0.x) * n.y - (p.y - q.p0.y) * n.x) / (ex * n.y - ey * n.x) = t := by
      rw [e1, e2, div_eq_iff h0]
      ring
    rw [e3, if_neg (by push Not; exact ⟨t0, t1⟩), e1, e2]
    congr 1
    rw [div_eq_iff (neg_ne_zero.2 h0)]
    ring

/-- C102: a segment intersects the polygon exactly if an interior point of the segment is on an edge that is not parallel to
it. -/
theorem C102_segmentIntersects (g : Polygon K) (p0 p1 : Pt K) :
    g.segmentIntersects p0 p1 = true ↔ ∃ e ∈ g.edges,
      (e.p1.x - e.p0.x) * (p1.y - p0.y) - (e.p1.y - e.p0.y) * (p1.x - p0.x) ≠ 0 ∧
      ∃ l, 0 < l ∧ l < 1 ∧ OnEdge e.p0 e.p1 ⟨p0.x + l * (p1.x - p0.x), p0.y + l * (p1.y - p0.y)⟩ := by
  rw [Polygon.segmentIntersects, List.any_eq_true]
  refine exists_congr fun e => and_congr_right fun _ => ?_
  constructor
  · intro h
    cases hl : e.lineParameter p0 ⟨p1.x - p0.x, p1.y - p0.y⟩ with
    | none => simp [hl] at h
    | some l =>
      simp only [hl, decide_eq_true_eq] at h
      obtain ⟨h1, h2⟩ := (C102_lineParameter e p0 _ l h.1.le).1 hl
      exact ⟨h1, l, h.1, h.2, h2⟩
  · rintro ⟨h1, l, l0, l1, h2⟩
    rw [(C102_lineParameter e p0 ⟨p1.x - p0.x, p1.y - p0.y⟩ l l0.le).2 ⟨h1, h2⟩]
    simp [l0, l1]

/-- C102: the closest intersection.  If the ray meets the polygon at a parameter `l` between `1e-10` and `1e10` (on an edge that
is not parallel), the result is on an edge, and at no greater parameter. -/
theorem C102_closest (g : Polygon K) (p n : Pt K) : ∃ best,
    g.closestIntersection p n = ⟨p.x + n.x * best, p.y + n.y * best⟩ ∧
    (best = 10000000000 ∨ (1 / 10000000000 < best ∧ best < 10000000000 ∧ ∃ e ∈ g.edges, OnEdge e.p0 e.p1 (g.closestIntersection p n))) ∧
    ∀ e ∈ g.edges, (e.p1.x - e.p0.x) * n.y - (e.p1.y - e.p0.y) * n.x ≠ 0 → ∀ l, 1 / 10000000000 < l →
      OnEdge e.p0 e.p1 ⟨p.x + l * n.x, p.y + l * n.y⟩ → best ≤ l := by
  have key : ∀ (es : List (Edge K)) (b0 : K), b0 ≤ 10000000000 →
      let best := es.foldl (closestStep p n) b0
      best ≤ b0 ∧ (best = b0 ∨ (1 / 10000000000 < best ∧ best < 10000000000 ∧ ∃ e ∈ es, e.lineParameter p n = some best)) ∧
      ∀ e ∈ es, ∀ l, 1 / 10000000000 < l → e.lineParameter p n = some l → best ≤ l := by
    intro es
    induction es with
    | nil => intro b0 _; simp
    | cons e es ih =>
      intro b0 hb0
      have hstep : closestStep p n b0 e ≤ b0 := by
        unfold closestStep
        split
        · split
          · exact min_le_left _ _
          · exact le_rfl
        · exact le_rfl
      obtain ⟨h1, h2, h3⟩ := ih (closestStep p n b0 e) (hstep.trans hb0)
      simp only [List.foldl_cons] at h1 h2 h3 ⊢
      refine ⟨h1.trans hstep, ?_, ?_⟩
      · rcases h2 with h2 | ⟨k1, k2, f, hf, hl⟩
        · rw [h2]
          cases hl : e.lineParameter p n with
          | none => left; simp [closestStep, hl]
          | some l =>
            by_cases hpos : l > 1 / 10000000000
            · rcases le_total b0 l with hle | hle
              · left; simp [closestStep, hl, hle]
              · by_cases heq : l = b0
                · left; simp [closestStep, hl, heq]
                · right
                  have : closestStep p n b0 e = l := by
                    simp only [closestStep, hl, if_pos hpos, min_eq_right hle]
                  rw [this]
                  exact ⟨hpos, lt_of_lt_of_le (lt_of_le_of_ne hle heq) hb0, e, List.mem_cons_self, hl⟩
            · left
              simp only [closestStep, hl, if_neg hpos]
        · right
          exact ⟨k1, k2, f, List.mem_cons_of_mem _ hf, hl⟩
      · intro f hf l hpos hl
        rcases List.mem_cons.1 hf with rfl | hf
        · refine h1.trans ?_
          simp only [closestStep, hl, if_pos (show l > 1 / 10000000000 from hpos)]
          exact min_le_right _ _
        · exact h3 f hf l hpos hl
  obtain ⟨_, h2, h3⟩ := key g.edges 10000000000 le_rfl
  refine ⟨_, rfl, ?_, ?_⟩
  · rcases h2 with h2 | ⟨k1, k2, e, he, hl⟩
    · exact .inl h2
    · have hpos : (0 : K) ≤ g.edges.foldl (closestStep p n) 10000000000 :=
        le_trans (by positivity) k1.le
      have := ((C102_lineParameter e p n _ hpos).1 hl).2
      refine .inr ⟨k1, k2, e, he, ?_⟩
      simp only [Polygon.closestIntersection]
      simpa only [mul_comm] using this
  · intro e he hne l hpos hs
    have h0 : (0 : K) ≤ l := le_trans (by positivity) hpos.le
    exact h3 e he l hpos ((C102_lineParameter e p n l h0).2 ⟨hne, hs⟩)

/-! ### Point in polygon -/

omit [IsStrictOrderedRing K] in
theorem corner_mod (pts : List (Pt K)) (i : Nat) : corner pts (i % pts.length) = corner pts i := by
  rw [corner, corner, Nat.mod_mod]

omit [IsStrictOrderedRing K] in
theorem updateEdges_eq (pts : List (Pt K)) :
    updateEdges pts = (List.range pts.length).map fun i => (⟨corner pts i, corner pts (i + 1)⟩ : Edge K) := by
  refine List.map_congr_left fun i hi => ?_
  rw [corner, corner, Nat.mod_eq_of_lt (List.mem_range.1 hi)]

/-- the edge goes up through the height `h` -/
def Rises (h : K) (a b : Pt K) : Prop := a.y < h ∧ h < b.y

/-- the edge is counted -/
theorem hit_iff (a b p : Pt K) (ha : a.y ≠ p.y) (hb : b.y ≠ p.y) :
    above ((⟨a, b⟩ : Edge K).lineParameter p ⟨1, 0⟩) 0 = true ↔
      (Rises p.y a b ∧ 0 < area2 a b p) ∨ (Rises p.y b a ∧ area2 a b p < 0) := by
  unfold Edge.lineParameter above
  simp only [mul_zero, mul_one, zero_sub, neg_eq_zero]
  unfold area2 Rises
  by_cases h0 : b.y - a.y = 0
  · rw [if_pos h0]
    simp only [Bool.false_eq_true, false_iff]
    rintro (⟨⟨h1, h2⟩, _⟩ | ⟨⟨h1, h2⟩, _⟩) <;> linarith
  rw [if_neg h0, neg_div_neg_eq, neg_neg]
  obtain ⟨t, ht⟩ : ∃ t, t = (p.y - a.y) / (b.y - a.y) := ⟨_, rfl⟩
  have ht' : p.y - a.y = t * (b.y - a.y) := by rw [ht, div_mul_cancel₀ _ h0]
  rw [← ht]
  rcases lt_or_gt_of_ne h0 with hneg | hpos
  · -- downwards
    by_cases hr : t < 0 ∨ t > 1
    · rw [if_pos hr]
      simp only [gt_iff_lt, decide_eq_true_eq]
      constructor
      · intro h; exact absurd h (by norm_num)
      · rintro (⟨⟨h1, h2⟩, _⟩ | ⟨⟨h1, h2⟩, _⟩)
        · linarith
        · rcases hr with hr | hr
          · nlinarith [mul_pos_of_neg_of_neg hr hneg]
          · nlinarith [mul_neg_of_pos_of_neg (sub_pos.2 hr) hneg]
    · rw [if_neg hr]
      push Not at hr
      simp only [gt_iff_lt, decide_eq_true_eq]
      have e : (p.y - a.y) * (b.x - a.x) - (p.x - a.x) * (b.y - a.y) =
        (b.x - a.x) * (p.y - a.y) - (b.y - a.y) * (p.x - a.x) := by ring
      rw [e, div_pos_iff]
      have h1 : b.y < p.y := by
        refine lt_of_le_of_ne ?_ hb
        have := mul_nonpos_of_nonneg_of_nonpos (sub_nonneg.2 hr.2) hneg.le
        nlinarith
      have h2 : p.y < a.y := by
        refine lt_of_le_of_ne ?_ ha.symm
        have := mul_nonpos_of_nonneg_of_nonpos hr.1 hneg.le
        linarith
      constructor
      · rintro (⟨_, h⟩ | ⟨h, _⟩)
        · linarith
        · exact .inr ⟨⟨h1, h2⟩, h⟩
      · rintro (⟨⟨h3, h4⟩, _⟩ | ⟨_, h⟩)
        · linarith
        · exact .inr ⟨h, hneg⟩
  · by_cases hr : t < 0 ∨ t > 1
    · rw [if_pos hr]
      simp only [gt_iff_lt, decide_eq_true_eq]
      constructor
      · intro h; exact absurd h (by norm_num)
      · rintro (⟨⟨h1, h2⟩, _⟩ | ⟨⟨h1, h2⟩, _⟩)
        · rcases hr with hr | hr
          · nlinarith [mul_neg_of_neg_of_pos hr hpos]
          · nlinarith [mul_pos (sub_pos.2 hr) hpos]
        · linarith
    · rw [if_neg hr]
      push Not at hr
      simp only [gt_iff_lt, decide_eq_true_eq]
      have e : (p.y - a.y) * (b.x - a.x) - (p.x - a.x) * (b.y - a.y) =
        (b.x - a.x) * (p.y - a.y) - (b.y - a.y) * (p.x - a.x) := by ring
      rw [e, div_pos_iff]
      have h1 : p.y < b.y := by
        refine lt_of_le_of_ne ?_ hb.symm
        have := mul_nonneg (sub_nonneg.2 hr.2) hpos.le
        nlinarith
      have h2 : a.y < p.y := by
        refine lt_of_le_of_ne ?_ ha
        have := mul_nonneg hr.1 hpos.le
        linarith
      constructor
      · rintro (⟨h, _⟩ | ⟨_, h⟩)
        · exact .inl ⟨⟨h2, h1⟩, h⟩
        · linarith
      · rintro (⟨_, h⟩ | ⟨⟨h3, h4⟩, _⟩)
        · exact .inl ⟨h, hpos⟩
        · linarith

/-- where the line through `a` and `b` has the height `h` -/
def passing (h : K) (a b : Pt K) : Pt K := ⟨a.x + (h - a.y) * (b.x - a.x) / (b.y - a.y), h⟩

omit [LinearOrder K] [IsStrictOrderedRing K] in
theorem side_crossing (h : K) (a b : Pt K) (hne : b.y - a.y ≠ 0) (X : K) :
    area2 a b ⟨X, h⟩ = (b.y - a.y) * ((passing h a b).x - X) := by
  unfold area2 passing
  field_simp
  ring

omit [LinearOrder K] [IsStrictOrderedRing K] in
theorem side_of_crossing (h : K) (a b c d : Pt K) (hne : d.y - c.y ≠ 0) :
    (d.y - c.y) * area2 a b (passing h c d) = (d.y - h) * area2 a b c + (h - c.y) * area2 a b d := by
  unfold area2 passing
  field_simp
  ring

omit [LinearOrder K] [IsStrictOrderedRing K] in
theorem side_self (a b : Pt K) : area2 a b a = 0 ∧ area2 a b b = 0 := by
  unfold area2
  constructor <;> ring

section
variable {pts : List (Pt K)} (hc : Convex pts)
include hc

theorem Convex.side_le (i j : Nat) (hi : i < pts.length) (hj : j < pts.length) :
    area2 (corner pts i) (corner pts (i + 1)) (corner pts j) ≤ 0 := by
  by_cases h1 : j = i
  · rw [h1, (side_self _ _).1]
  · by_cases h2 : j = (i + 1) % pts.length
    · rw [h2, corner_mod, (side_self _ _).2]
    · exact (hc.2 i hi j hj h1 h2).le

theorem Convex.side_succ_le (i j : Nat) (hi : i < pts.length) :
    area2 (corner pts i) (corner pts (i + 1)) (corner pts j) ≤ 0 := by
  rw [← corner_mod pts j]
  exact hc.side_le i _ hi (Nat.mod_lt _ (by have := hc.1; omega))

/-- of the two ends of another edge at least one lies strictly to the right -/
theorem Convex.side_edge (i j : Nat) (hi : i < pts.length) (hj : j < pts.length) (hne : j ≠ i) :
    area2 (corner pts i) (corner pts (i + 1)) (corner pts j) < 0 ∨
      area2 (corner pts i) (corner pts (i + 1)) (corner pts (j + 1)) < 0 := by
  have hn := hc.1
  by_cases h : j = (i + 1) % pts.length
  · right
    rw [← corner_mod pts (j + 1)]
    refine hc.2 i hi _ (Nat.mod_lt _ (by omega)) ?_ ?_
    · intro h2
      rw [h] at h2
      rcases Nat.lt_or_ge (i + 1) pts.length with h3 | h3
      · rw [Nat.mod_eq_of_lt h3] at h2
        rcases Nat.lt_or_ge (i + 1 + 1) pts.length with h4 | h4
        · rw [Nat.mod_eq_of_lt h4] at h2; omega
        · have : i + 1 + 1 = pts.length := by omega
          rw [this, Nat.mod_self] at h2; omega
      · have : i + 1 = pts.length := by omega
        rw [this, Nat.mod_self, Nat.mod_eq_of_lt (by omega)] at h2; omega
    · intro h2
      rw [← h] at h2
      rcases Nat.lt_or_ge (j + 1) pts.length with h3 | h3
      · rw [Nat.mod_eq_of_lt h3] at h2; omega
      · have : j + 1 = pts.length := by omega
        rw [this, Nat.mod_self] at h2; omega
  · exact .inl (hc.2 i hi j hj hne h)

/-- the passing of an edge (up or down) lies to the right of all other edges -/
theorem Convex.crossing_lt (h : K) (i j : Nat) (hi : i < pts.length) (hj : j < pts.length) (hne : j ≠ i)
    (hcr : Rises h (corner pts j) (corner pts (j + 1)) ∨ Rises h (corner pts (j + 1)) (corner pts j)) :
    area2 (corner pts i) (corner pts (i + 1)) (passing h (corner pts j) (corner pts (j + 1))) < 0 := by
  have l1 := hc.side_succ_le i j hi
  have l2 := hc.side_succ_le i (j + 1) hi
  have l3 := hc.side_edge i j hi hj hne
  rcases hcr with ⟨u1, u2⟩ | ⟨u1, u2⟩
  · have hpos : 0 < (corner pts (j + 1)).y - (corner pts j).y := by linarith
    have := side_of_crossing h (corner pts i) (corner pts (i + 1)) (corner pts j) (corner pts (j + 1)) hpos.ne'
    have hneg : (corner pts (j + 1)).y - (corner pts j).y ≠ 0 := hpos.ne'
    have : ((corner pts (j + 1)).y - (corner pts j).y) *
        area2 (corner pts i) (corner pts (i + 1)) (passing h (corner pts j) (corner pts (j + 1))) < 0 := by
      rw [this]
      rcases l3 with l3 | l3
      · have := mul_neg_of_pos_of_neg (sub_pos.2 u2) l3
        have := mul_nonpos_of_nonneg_of_nonpos (sub_pos.2 u1).le l2
        linarith
      · have := mul_neg_of_pos_of_neg (sub_pos.2 u1) l3
        have := mul_nonpos_of_nonneg_of_nonpos (sub_pos.2 u2).le l1
        linarith
    exact neg_of_mul_neg_right this hpos.le
  · have hneg : (corner pts (j + 1)).y - (corner pts j).y < 0 := by linarith
    have := side_of_crossing h (corner pts i) (corner pts (i + 1)) (corner pts j) (corner pts (j + 1)) hneg.ne
    have : 0 < ((corner pts (j + 1)).y - (corner pts j).y) *
        area2 (corner pts i) (corner pts (i + 1)) (passing h (corner pts j) (corner pts (j + 1))) := by
      rw [this]
      rcases l3 with l3 | l3
      · have := mul_pos_of_neg_of_neg (sub_neg.2 u1) l3
        have := mul_nonneg_of_nonpos_of_nonpos (sub_neg.2 u2).le l2
        linarith
      · have := mul_pos_of_neg_of_neg (sub_neg.2 u2) l3
        have := mul_nonneg_of_nonpos_of_nonpos (sub_neg.2 u1).le l1
        linarith
    exact (neg_iff_neg_of_mul_pos this).1 hneg

theorem Convex.up_unique (h : K) (i j : Nat) (hi : i < pts.length) (hj : j < pts.length)
    (ui : Rises h (corner pts i) (corner pts (i + 1))) (uj : Rises h (corner pts j) (corner pts (j + 1))) : i = j := by
  by_contra hne
  have h1 := hc.crossing_lt h i j hi hj (Ne.symm hne) (.inl uj)
  have h2 := hc.crossing_lt h j i hj hi hne (.inl ui)
  have p1 : 0 < (corner pts (i + 1)).y - (corner pts i).y := by linarith [ui.1, ui.2]
  have p2 : 0 < (corner pts (j + 1)).y - (corner pts j).y := by linarith [uj.1, uj.2]
  have e1 := side_crossing h (corner pts i) (corner pts (i + 1)) p1.ne' (passing h (corner pts j) (corner pts (j + 1))).x
  have e2 := side_crossing h (corner pts j) (corner pts (j + 1)) p2.ne' (passing h (corner pts i) (corner pts (i + 1))).x
  change area2 (corner pts i) (corner pts (i + 1)) (passing h (corner pts j) (corner pts (j + 1))) = _ at e1
  change area2 (corner pts j) (corner pts (j + 1)) (passing h (corner pts i) (corner pts (i + 1))) = _ at e2
  rw [e1] at h1
  rw [e2] at h2
  have := neg_of_mul_neg_right h1 p1.le
  have := neg_of_mul_neg_right h2 p2.le
  linarith

theorem Convex.down_unique (h : K) (i j : Nat) (hi : i < pts.length) (hj : j < pts.length)
    (ui : Rises h (corner pts (i + 1)) (corner pts i)) (uj : Rises h (corner pts (j + 1)) (corner pts j)) : i = j := by
  by_contra hne
  have h1 := hc.crossing_lt h i j hi hj (Ne.symm hne) (.inr uj)
  have h2 := hc.crossing_lt h j i hj hi hne (.inr ui)
  have p1 : (corner pts (i + 1)).y - (corner pts i).y < 0 := by linarith [ui.1, ui.2]
  have p2 : (corner pts (j + 1)).y - (corner pts j).y < 0 := by linarith [uj.1, uj.2]
  have e1 := side_crossing h (corner pts i) (corner pts (i + 1)) p1.ne (passing h (corner pts j) (corner pts (j + 1))).x
  have e2 := side_crossing h (corner pts j) (corner pts (j + 1)) p2.ne (passing h (corner pts i) (corner pts (i + 1))).x
  change area2 (corner pts i) (corner pts (i + 1)) (passing h (corner pts j) (corner pts (j + 1))) = _ at e1
  change area2 (corner pts j) (corner pts (j + 1)) (passing h (corner pts i) (corner pts (i + 1))) = _ at e2
  rw [e1] at h1
  rw [e2] at h2
  have := pos_of_mul_neg_right h1 p1.le
  have := pos_of_mul_neg_right h2 p2.le
  linarith

end

omit [Field K] [LinearOrder K] [IsStrictOrderedRing K] in
/-- walking around a cycle: a property that is passed on to the next position and holds somewhere holds everywhere -/
theorem around (P : Nat → Prop) (n i : Nat) (hmod : ∀ k, P (k % n) ↔ P k) (hstep : ∀ k < n, P k → P (k + 1)) (hn : 0 < n)
    (h : P i) : ∀ k, P k := by
  have h1 : ∀ m, P (i + m) := by
    intro m
    induction m with
    | zero => exact h
    | succ m ih =>
      have := hstep ((i + m) % n) (Nat.mod_lt _ hn) ((hmod _).2 ih)
      rw [← hmod] at this ⊢
      rwa [Nat.mod_add_mod] at this
  intro k
  have h2 := h1 ((n - i % n) + k)
  rw [← hmod] at h2 ⊢
  have : (i + ((n - i % n) + k)) % n = k % n := by
    have h3 : i % n < n := Nat.mod_lt _ hn
    have h4 : i + (n - i % n + k) = k + n * (i / n + 1) := by
      have := Nat.div_add_mod i n
      rw [mul_add, mul_one]
      omega
    rw [h4, Nat.add_mul_mod_self_left]
  rwa [this] at h2

/-- the corner before `j` -/
theorem prev_corner (pts : List (Pt K)) (j : Nat) (hn : 3 ≤ pts.length) (hj : j < pts.length) :
    ∃ m < pts.length, m ≠ j ∧ m ≠ (j + 1) % pts.length ∧ corner pts (m + 1) = corner pts j := by
  rcases Nat.eq_zero_or_pos j with h0 | h0
  · subst h0
    refine ⟨pts.length - 1, by omega, by omega, ?_, ?_⟩
    · rw [Nat.mod_eq_of_lt (by omega)]; omega
    · rw [Nat.sub_add_cancel (by omega), ← corner_mod pts pts.length, Nat.mod_self]
  · refine ⟨j - 1, by omega, by omega, ?_, ?_⟩
    · rcases Nat.lt_or_ge (j + 1) pts.length with h | h
      · rw [Nat.mod_eq_of_lt h]; omega
      · have : j + 1 = pts.length := by omega
        rw [this, Nat.mod_self]; omega
    · rw [Nat.sub_add_cancel h0]

/-- A point below all corners, or above all of them, is not to the right of all edges. -/
theorem Convex.not_all_right {pts : List (Pt K)} (hc : Convex pts) (p : Pt K)
    (h : (∀ k, p.y < (corner pts k).y) ∨ (∀ k, (corner pts k).y < p.y)) : ¬ InPolygon pts p := by
  intro hin
  have hn := hc.1
  have hne : (Finset.range pts.length).Nonempty := ⟨0, Finset.mem_range.2 (by omega)⟩
  have key : ∀ j < pts.length, (∀ k < pts.length, (corner pts j).y ≤ (corner pts k).y) → p.y < (corner pts j).y → False := by
    intro j hj hmin hp
    obtain ⟨m, hm, m1, m2, m3⟩ := prev_corner pts j hn hj
    have c1 := hc.2 j hj m hm m1 m2
    have c2 := hin j hj
    have c3 := hin m hm
    have d1 := hmin m hm
    have d2 := hmin ((j + 1) % pts.length) (Nat.mod_lt _ (by omega))
    rw [corner_mod] at d2
    rw [m3] at c3
    revert c1 c2 c3 d1 d2 hp
    generalize corner pts j = v
    generalize corner pts (j + 1) = w
    generalize corner pts m = u
    unfold area2
    intro hp c1 c2 c3 d1 d2
    have e1 : 0 ≤ (u.y - v.y) * -((w.x - v.x) * (p.y - v.y) - (w.y - v.y) * (p.x - v.x)) :=
      mul_nonneg (sub_nonneg.2 d1) (by linarith)
    have e2 : 0 ≤ (w.y - v.y) * -((v.x - u.x) * (p.y - u.y) - (v.y - u.y) * (p.x - u.x)) :=
      mul_nonneg (sub_nonneg.2 d2) (by linarith)
    have e3 : 0 < (v.y - p.y) * -((w.x - v.x) * (u.y - v.y) - (w.y - v.y) * (u.x - v.x)) :=
      mul_pos (by linarith) (by linarith)
    have e4 : (u.y - v.y) * -((w.x - v.x) * (p.y - v.y) - (w.y - v.y) * (p.x - v.x)) +
        (w.y - v.y) * -((v.x - u.x) * (p.y - u.y) - (v.y - u.y) * (p.x - u.x)) +
        (v.y - p.y) * -((w.x - v.x) * (u.y - v.y) - (w.y - v.y) * (u.x - v.x)) = 0 := by ring
    linarith
  have key' : ∀ j < pts.length, (∀ k < pts.length, (corner pts k).y ≤ (corner pts j).y) → (corner pts j).y < p.y → False := by
    intro j hj hmin hp
    obtain ⟨m, hm, m1, m2, m3⟩ := prev_corner pts j hn hj
    have c1 := hc.2 j hj m hm m1 m2
    have c2 := hin j hj
    have c3 := hin m hm
    have d1 := hmin m hm
    have d2 := hmin ((j + 1) % pts.length) (Nat.mod_lt _ (by omega))
    rw [corner_mod] at d2
    rw [m3] at c3
    revert c1 c2 c3 d1 d2 hp
    generalize corner pts j = v
    generalize corner pts (j + 1) = w
    generalize corner pts m = u
    unfold area2
    intro hp c1 c2 c3 d1 d2
    have e1 : 0 ≤ (v.y - u.y) * -((w.x - v.x) * (p.y - v.y) - (w.y - v.y) * (p.x - v.x)) :=
      mul_nonneg (sub_nonneg.2 d1) (by linarith)
    have e2 : 0 ≤ (v.y - w.y) * -((v.x - u.x) * (p.y - u.y) - (v.y - u.y) * (p.x - u.x)) :=
      mul_nonneg (sub_nonneg.2 d2) (by linarith)
    have e3 : 0 < (p.y - v.y) * -((w.x - v.x) * (u.y - v.y) - (w.y - v.y) * (u.x - v.x)) :=
      mul_pos (by linarith) (by linarith)
    have e4 : (v.y - u.y) * -((w.x - v.x) * (p.y - v.y) - (w.y - v.y) * (p.x - v.x)) +
        (v.y - w.y) * -((v.x - u.x) * (p.y - u.y) - (v.y - u.y) * (p.x - u.x)) +
        (p.y - v.y) * -((w.x - v.x) * (u.y - v.y) - (w.y - v.y) * (u.x - v.x)) = 0 := by ring
    linarith
  rcases h with h | h
  · obtain ⟨j, hj, hmin⟩ := Finset.exists_min_image (Finset.range pts.length) (fun k => (corner pts k).y) hne
    exact key j (Finset.mem_range.1 hj) (fun k hk => hmin k (Finset.mem_range.2 hk)) (h j)
  · obtain ⟨j, hj, hmin⟩ := Finset.exists_max_image (Finset.range pts.length) (fun k => (corner pts k).y) hne
    exact key' j (Finset.mem_range.1 hj) (fun k hk => hmin k (Finset.mem_range.2 hk)) (h j)

/-- counting two positions -/
theorem count_two (n i j : Nat) (hi : i < n) (hj : j < n) (hij : i ≠ j) (A B : Prop) (f : Nat → Bool)
    (hf : ∀ k < n, f k = true ↔ (k = i ∧ A) ∨ (k = j ∧ B)) :
    (((List.range n).filter f).length % 2 == 1) = true ↔ ¬ (A ↔ B) := by
  have hlen : ((List.range n).filter f).length = ((Finset.range n).filter fun k => f k = true).card := by
    rw [← List.toFinset_card_of_nodup (List.nodup_range.filter _)]
    congr 1
    ext k
    simp
  rw [hlen]
  by_cases hA : A <;> by_cases hB : B
  · have : ((Finset.range n).filter fun k => f k = true) = {i, j} := by
      ext k
      simp only [Finset.mem_filter, Finset.mem_range, Finset.mem_insert, Finset.mem_singleton]
      constructor
      · rintro ⟨hk, h⟩
        rcases (hf k hk).1 h with h | h
        · exact .inl h.1
        · exact .inr h.1
      · rintro (rfl | rfl)
        · exact ⟨hi, (hf _ hi).2 (.inl ⟨rfl, hA⟩)⟩
        · exact ⟨hj, (hf _ hj).2 (.inr ⟨rfl, hB⟩)⟩
    rw [this, Finset.card_pair hij]
    simp [hA, hB]
  · have : ((Finset.range n).filter fun k => f k = true) = {i} := by
      ext k
      simp only [Finset.mem_filter, Finset.mem_range, Finset.mem_singleton]
      constructor
      · rintro ⟨hk, h⟩
        rcases (hf k hk).1 h with h | h
        · exact h.1
        · exact absurd h.2 hB
      · rintro rfl
        exact ⟨hi, (hf _ hi).2 (.inl ⟨rfl, hA⟩)⟩
    rw [this, Finset.card_singleton]
    simp [hA, hB]
  · have : ((Finset.range n).filter fun k => f k = true) = {j} := by
      ext k
      simp only [Finset.mem_filter, Finset.mem_range, Finset.mem_singleton]
      constructor
      · rintro ⟨hk, h⟩
        rcases (hf k hk).1 h with h | h
        · exact absurd h.2 hA
        · exact h.1
      · rintro rfl
        exact ⟨hj, (hf _ hj).2 (.inr ⟨rfl, hB⟩)⟩
    rw [this, Finset.card_singleton]
    simp [hA, hB]
  · have : ((Finset.range n).filter fun k => f k = true) = ∅ := by
      ext k
      simp only [Finset.mem_filter, Finset.mem_range, Finset.notMem_empty, iff_false]
      rintro ⟨hk, h⟩
      rcases (hf k hk).1 h with h | h
      · exact absurd h.2 hA
      · exact absurd h.2 hB
    rw [this, Finset.card_empty]
    simp [hA, hB]

/-- C102, ray casting: for a convex polygon with clockwise corners of which none has the height of the point, a point is
reported inside exactly if it is to the right of all edges, or on an edge that goes up. -/
theorem C102_inside_edges {pts : List (Pt K)} (hc : Convex pts) (p : Pt K) (hp : ∀ k < pts.length, (corner pts k).y ≠ p.y) :
    (⟨pts, updateEdges pts⟩ : Polygon K).pointIsInside p = true ↔
      ∀ k < pts.length, area2 (corner pts k) (corner pts (k + 1)) p < 0 ∨
        (Rises p.y (corner pts k) (corner pts (k + 1)) ∧ area2 (corner pts k) (corner pts (k + 1)) p = 0) := by
  have hn := hc.1
  have hp' : ∀ k, (corner pts k).y ≠ p.y := fun k => by
    rw [← corner_mod]
    exact hp _ (Nat.mod_lt _ (by omega))
  have hcount : (⟨pts, updateEdges pts⟩ : Polygon K).pointIsInside p =
      (((List.range pts.length).filter fun k =>
        above ((⟨corner pts k, corner pts (k + 1)⟩ : Edge K).lineParameter p ⟨1, 0⟩) 0).length % 2 == 1) := by
    rw [Polygon.pointIsInside]
    simp only
    rw [updateEdges_eq, List.filter_map, List.length_map]
    rfl
  rw [hcount]
  have hmodP : ∀ k, p.y < (corner pts (k % pts.length)).y ↔ p.y < (corner pts k).y := fun k => by rw [corner_mod]
  have hmodN : ∀ k, (corner pts (k % pts.length)).y < p.y ↔ (corner pts k).y < p.y := fun k => by rw [corner_mod]
  have hlt : ∀ k, ¬ p.y < (corner pts k).y → (corner pts k).y < p.y := fun k h => lt_of_le_of_ne (not_lt.1 h) (hp' k)
  have hgt : ∀ k, ¬ (corner pts k).y < p.y → p.y < (corner pts k).y := fun k h => lt_of_le_of_ne (not_lt.1 h) (hp' k).symm
  by_cases hup : ∃ i < pts.length, Rises p.y (corner pts i) (corner pts (i + 1))
  · obtain ⟨i, hi, ui⟩ := hup
    have hdown : ∃ j < pts.length, Rises p.y (corner pts (j + 1)) (corner pts j) := by
      by_contra hno
      push Not at hno
      have := around (fun k => p.y < (corner pts k).y) pts.length (i + 1) hmodP
        (fun k hk h => by
          by_contra h2
          exact hno k hk ⟨hlt _ h2, h⟩) (by omega) ui.2 i
      exact lt_asymm this ui.1
    obtain ⟨j, hj, dj⟩ := hdown
    have hij : i ≠ j := by
      rintro rfl
      exact lt_asymm ui.1 dj.2
    have pi : 0 < (corner pts (i + 1)).y - (corner pts i).y := by linarith [ui.1, ui.2]
    have pj : (corner pts (j + 1)).y - (corner pts j).y < 0 := by linarith [dj.1, dj.2]
    have si := side_crossing p.y (corner pts i) (corner pts (i + 1)) pi.ne'
    have sj := side_crossing p.y (corner pts j) (corner pts (j + 1)) pj.ne
    obtain ⟨ai, hai⟩ : ∃ a, a = passing p.y (corner pts i) (corner pts (i + 1)) := ⟨_, rfl⟩
    obtain ⟨aj, haj⟩ : ∃ a, a = passing p.y (corner pts j) (corner pts (j + 1)) := ⟨_, rfl⟩
    rw [← hai] at si
    rw [← haj] at sj
    have hai' : ai = ⟨ai.x, p.y⟩ := by rw [hai]; rfl
    have haj' : aj = ⟨aj.x, p.y⟩ := by rw [haj]; rfl
    have li : ∀ k < pts.length, k ≠ i → area2 (corner pts k) (corner pts (k + 1)) ai < 0 := fun k hk hne => by
      rw [hai]; exact hc.crossing_lt p.y k i hk hi (Ne.symm hne) (.inl ui)
    have lj : ∀ k < pts.length, k ≠ j → area2 (corner pts k) (corner pts (k + 1)) aj < 0 := fun k hk hne => by
      rw [haj]; exact hc.crossing_lt p.y k j hk hj (Ne.symm hne) (.inr dj)
    have hlt' : ai.x < aj.x := by
      have := lj i hi hij
      rw [haj', si] at this
      have := neg_of_mul_neg_right this pi.le
      linarith
    have e0 : p = ⟨p.x, p.y⟩ := rfl
    rw [count_two pts.length i j hi hj hij (p.x < ai.x) (p.x < aj.x)]
    · have hcomb : ∀ a b : Pt K, (aj.x - ai.x) * area2 a b p = (aj.x - p.x) * area2 a b ai + (p.x - ai.x) * area2 a b aj := by
        intro a b
        rw [hai', haj']
        unfold area2
        ring
      constructor
      · intro h k hk
        have h1 : ai.x ≤ p.x := by
          by_contra h1
          exact h ⟨fun _ => by linarith [not_le.1 h1], fun _ => not_le.1 h1⟩
        have h2 : p.x < aj.x := by
          by_contra h2
          exact h ⟨fun h3 => absurd h3 (by linarith), fun h3 => absurd h3 h2⟩
        have hk' := hcomb (corner pts k) (corner pts (k + 1))
        by_cases hki : k = i
        · subst hki
          rw [e0, si]
          rcases eq_or_lt_of_le h1 with h1 | h1
          · right
            exact ⟨ui, by rw [h1, sub_self, mul_zero]⟩
          · left
            exact mul_neg_of_pos_of_neg pi (by linarith)
        · left
          have l1 := mul_neg_of_pos_of_neg (sub_pos.2 h2) (li k hk hki)
          have l2 : (p.x - ai.x) * area2 (corner pts k) (corner pts (k + 1)) aj ≤ 0 := by
            refine mul_nonpos_of_nonneg_of_nonpos (by linarith) ?_
            by_cases hkj : k = j
            · subst hkj
              rw [haj', sj, sub_self, mul_zero]
            · exact (lj k hk hkj).le
          have : (aj.x - ai.x) * area2 (corner pts k) (corner pts (k + 1)) p < 0 := by linarith
          exact neg_of_mul_neg_right this (by linarith)
      · intro h hiff
        have h1 : ai.x ≤ p.x := by
          by_contra h1
          have := mul_pos pi (sub_pos.2 (not_le.1 h1))
          rw [← si] at this
          rcases h i hi with h2 | ⟨_, h2⟩
          · exact lt_asymm this h2
          · exact this.ne' h2
        have h2 : p.x < aj.x := by
          rcases h j hj with h2 | ⟨h2, _⟩
          · rw [e0, sj] at h2
            have := pos_of_mul_neg_right h2 pj.le
            linarith
          · exact absurd h2.1 (lt_asymm dj.2)
        exact absurd (hiff.2 h2) (not_lt.2 h1)
    · intro k hk
      rw [hit_iff _ _ _ (hp' k) (hp' (k + 1))]
      constructor
      · rintro (⟨u, h⟩ | ⟨u, h⟩)
        · have := hc.up_unique p.y k i hk hi u ui
          subst this
          rw [e0, si] at h
          exact .inl ⟨rfl, sub_pos.1 (pos_of_mul_pos_right h pi.le)⟩
        · have := hc.down_unique p.y k j hk hj u dj
          subst this
          rw [e0, sj] at h
          exact .inr ⟨rfl, sub_pos.1 (pos_of_mul_neg_right h pj.le)⟩
      · rintro (⟨rfl, h⟩ | ⟨rfl, h⟩)
        · refine .inl ⟨ui, ?_⟩
          rw [e0, si]
          exact mul_pos pi (sub_pos.2 h)
        · refine .inr ⟨dj, ?_⟩
          rw [e0, sj]
          exact mul_neg_of_neg_of_pos pj (sub_pos.2 h)
  · push Not at hup
    have hdown : ∀ j < pts.length, ¬ Rises p.y (corner pts (j + 1)) (corner pts j) := by
      intro j hj dj
      have := around (fun k => (corner pts k).y < p.y) pts.length (j + 1) hmodN
        (fun k hk h => by
          by_contra h2
          exact hup k hk ⟨h, hgt _ h2⟩) (by omega) dj.1 j
      exact lt_asymm this dj.2
    have hnone : ((List.range pts.length).filter fun k =>
        above ((⟨corner pts k, corner pts (k + 1)⟩ : Edge K).lineParameter p ⟨1, 0⟩) 0) = [] := by
      rw [List.filter_eq_nil_iff]
      intro k hk
      rw [hit_iff _ _ _ (hp' k) (hp' (k + 1))]
      rintro (⟨u, _⟩ | ⟨u, _⟩)
      · exact hup k (List.mem_range.1 hk) u
      · exact hdown k (List.mem_range.1 hk) u
    rw [hnone]
    constructor
    · intro h
      simp at h
    · intro h
      refine absurd ?_ (hc.not_all_right p ?_)
      · intro k hk
        rcases h k hk with h | ⟨h, _⟩
        · exact h
        · exact absurd h (hup k hk)
      · by_cases h0 : p.y < (corner pts 0).y
        · left
          exact around (fun k => p.y < (corner pts k).y) pts.length 0 hmodP
            (fun k hk h => by
              by_contra h2
              exact hdown k hk ⟨hlt _ h2, h⟩) (by omega) h0
        · right
          exact around (fun k => (corner pts k).y < p.y) pts.length 0 hmodN
            (fun k hk h => by
              by_contra h2
              exact hup k hk ⟨h, hgt _ h2⟩) (by omega) (hlt _ h0)

/-- C102 (partial: not for points at the height of a corner or on an edge, for which it fails, see below): for a convex
polygon with clockwise corners a point is reported inside exactly if it is inside. -/
theorem C102_pointIsInside_partial {pts : List (Pt K)} (hc : Convex pts) (p : Pt K)
    (hp : ∀ k < pts.length, (corner pts k).y ≠ p.y)
    (hq : ∀ k < pts.length, ¬ OnEdge (corner pts k) (corner pts (k + 1)) p) :
    (⟨pts, updateEdges pts⟩ : Polygon K).pointIsInside p = true ↔ InPolygon pts p := by
  rw [C102_inside_edges hc p hp]
  constructor
  · intro h k hk
    rcases h k hk with h | ⟨u, h⟩
    · exact h
    · exfalso
      refine hq k hk ?_
      have pos : 0 < (corner pts (k + 1)).y - (corner pts k).y := by linarith [u.1, u.2]
      refine ⟨(p.y - (corner pts k).y) / ((corner pts (k + 1)).y - (corner pts k).y), ?_, ?_, ?_, ?_⟩
      · exact div_nonneg (by linarith [u.1]) pos.le
      · rw [div_le_one pos]
        linarith [u.2]
      · unfold area2 at h
        field_simp
        linarith
      · field_simp
        ring
  · intro h k hk
    exact .inl (h k hk)

/-! ### Sorting the corners and removing duplicates -/

omit [IsStrictOrderedRing K] in
theorem anglesPoints_spec (ang : Pt K → K) (pts : List (Pt K)) :
    (anglesPoints ang pts).Sorted ∧ (∀ e ∈ anglesPoints ang pts, e.2 ∈ pts ∧ e.1 = ang e.2) ∧
      ∀ p ∈ pts, ∃ q, (ang p, q) ∈ anglesPoints ang pts := by
  have key : ∀ (l : List (Pt K)) (m : OMap K (Pt K)) (seen : List (Pt K)), m.Sorted →
      (∀ e ∈ m, e.2 ∈ seen ∧ e.1 = ang e.2) → (∀ p ∈ seen, ∃ q, m.find? (ang p) = some q) →
      (l.foldl (fun m p => OMap.set m (ang p) p) m).Sorted ∧
      (∀ e ∈ l.foldl (fun m p => OMap.set m (ang p) p) m, e.2 ∈ seen ++ l ∧ e.1 = ang e.2) ∧
      ∀ p ∈ seen ++ l, ∃ q, (l.foldl (fun m p => OMap.set m (ang p) p) m).find? (ang p) = some q := by
    intro l
    induction l with
    | nil =>
      intro m seen h1 h2 h3
      simpa only [List.foldl_nil, List.append_nil] using ⟨h1, h2, h3⟩
    | cons x t ih =>
      intro m seen h1 h2 h3
      have := ih (m.set (ang x) x) (seen ++ [x]) (OMap.sorted_set h1 _ _)
        (fun e he => by
          rcases OMap.mem_set he with rfl | he
          · exact ⟨by simp, rfl⟩
          · exact ⟨List.mem_append_left _ (h2 e he).1, (h2 e he).2⟩)
        (fun p hp => by
          rw [OMap.find?_set]
          by_cases h : ang p = ang x
          · exact ⟨x, by rw [if_pos h]⟩
          · rw [if_neg h]
            rcases List.mem_append.1 hp with hp | hp
            · exact h3 p hp
            · rw [List.mem_singleton.1 hp] at h; exact absurd rfl h)
      simpa [List.append_assoc] using this
  obtain ⟨h1, h2, h3⟩ := key pts [] [] List.Pairwise.nil (by simp) (by simp)
  refine ⟨h1, fun e he => by simpa using h2 e he, fun p hp => ?_⟩
  obtain ⟨q, hq⟩ := h3 p (by simpa using hp)
  exact ⟨q, OMap.mem_of_find? hq⟩

theorem keep_spec (ang : Pt K → K) : ∀ (L : List (K × Pt K)) (s : K) (acc : List (Pt K)), (∀ e ∈ L, e.1 = ang e.2) →
    L.Pairwise (fun a b => a.1 < b.1) → (∀ e ∈ L, s < e.1) → ∃ R, (L.foldl keepStep (s, acc)).2 = acc ++ R ∧
      (∀ r ∈ R, (ang r, r) ∈ L ∧ s + 1 / 1000000 < ang r) ∧
      R.Pairwise (fun a b => ang a + 1 / 1000000 < ang b) ∧
      ∀ e ∈ L, e.1 ≤ s + 1 / 1000000 ∨ ∃ r ∈ R, ang r ≤ e.1 ∧ e.1 ≤ ang r + 1 / 1000000 := by
  intro L
  induction L with
  | nil => intro s acc _ _ _; exact ⟨[], by simp⟩
  | cons x t ih =>
    intro s acc h1 h2 h3
    have h2' := List.pairwise_cons.1 h2
    have hx := h1 x List.mem_cons_self
    rw [List.foldl_cons]
    by_cases hg : x.1 - s > 1 / 1000000
    · have hk : keepStep (s, acc) x = (x.1, acc ++ [x.2]) := by rw [keepStep, if_pos hg]
      rw [hk]
      obtain ⟨R, e, r1, r2, r3⟩ := ih x.1 (acc ++ [x.2]) (fun e he => h1 e (List.mem_cons_of_mem _ he)) h2'.2
        (fun e he => h2'.1 e he)
      refine ⟨x.2 :: R, by rw [e]; simp, ?_, ?_, ?_⟩
      · intro r hr
        rcases List.mem_cons.1 hr with rfl | hr
        · rw [← hx]
          exact ⟨List.mem_cons_self, by linarith⟩
        · exact ⟨List.mem_cons_of_mem _ (r1 r hr).1, by linarith [(r1 r hr).2, h3 x List.mem_cons_self]⟩
      · refine List.pairwise_cons.2 ⟨fun b hb => ?_, r2⟩
        rw [← hx]
        exact (r1 b hb).2
      · intro e' he'
        rcases List.mem_cons.1 he' with rfl | he'
        · right
          exact ⟨e'.2, List.mem_cons_self, by rw [hx], by rw [hx]; simp⟩
        · right
          rcases r3 e' he' with h | ⟨r, hr, h⟩
          · exact ⟨x.2, List.mem_cons_self, by rw [← hx]; exact (h2'.1 e' he').le, by rw [← hx]; exact h⟩
          · exact ⟨r, List.mem_cons_of_mem _ hr, h⟩
    · have hk : keepStep (s, acc) x = (s, acc) := by rw [keepStep, if_neg hg]
      rw [hk]
      obtain ⟨R, e, r1, r2, r3⟩ := ih s acc (fun e he => h1 e (List.mem_cons_of_mem _ he)) h2'.2
        (fun e he => h3 e (List.mem_cons_of_mem _ he))
      refine ⟨R, e, fun r hr => ⟨List.mem_cons_of_mem _ (r1 r hr).1, (r1 r hr).2⟩, r2, ?_⟩
      intro e' he'
      rcases List.mem_cons.1 he' with rfl | he'
      · left
        linarith [not_lt.1 hg]
      · exact r3 e' he'

/-- C102, corners: for all points and all functions `angle` with values above `-10 + 10⁻⁶` (`atan2` is above `-4`), the
corners of a polygon are among the given points, their angles about the centre increase by more than `10⁻⁶` from one to the
next, and every given point has a corner whose angle differs by `10⁻⁶` at most. -/
theorem C102_corners (angle : Pt K → Pt K → K) (h10 : ∀ c p, -10 + 1 / 1000000 < angle c p) (pts : List (Pt K)) :
    (∀ r ∈ (Polygon.make angle pts).points, r ∈ pts) ∧
      (Polygon.make angle pts).points.Pairwise
        (fun a b => angle (center pts) a + 1 / 1000000 < angle (center pts) b) ∧
      ∀ p ∈ pts, ∃ r ∈ (Polygon.make angle pts).points, angle (center pts) r ≤ angle (center pts) p ∧
        angle (center pts) p ≤ angle (center pts) r + 1 / 1000000 := by
  obtain ⟨a1, a2, a3⟩ := anglesPoints_spec (angle (center pts)) pts
  obtain ⟨R, e, r1, r2, r3⟩ := keep_spec (angle (center pts)) (anglesPoints (angle (center pts)) pts) (-10) []
    (fun e he => (a2 e he).2) a1
    (fun e he => by rw [(a2 e he).2]; linarith [h10 (center pts) e.2])
  have hR : (Polygon.make angle pts).points = R := by
    rw [Polygon.make, sortUnique, e, List.nil_append]
  rw [hR]
  refine ⟨fun r hr => (a2 _ (r1 r hr).1).1, r2, fun p hp => ?_⟩
  obtain ⟨q, hq⟩ := a3 p hp
  rcases r3 _ hq with h | h
  · exact absurd h (not_le.2 (h10 _ _))
  · exact h

/-- no two different points have the same angle up to the tolerance -/
def Separated (ang : Pt K → K) (pts : List (Pt K)) : Prop :=
  ∀ p ∈ pts, ∀ q ∈ pts, ang p ≤ ang q → ang q ≤ ang p + 1 / 1000000 → p = q

/-- C102, corners: if no two different points have the same angle up to `10⁻⁶`, the corners are exactly the given points,
each once, ... -/
theorem C102_corners_exact (angle : Pt K → Pt K → K) (h10 : ∀ c p, -10 + 1 / 1000000 < angle c p) (pts : List (Pt K))
    (hs : Separated (angle (center pts)) pts) :
    (Polygon.make angle pts).points.Nodup ∧ ∀ p, p ∈ (Polygon.make angle pts).points ↔ p ∈ pts := by
  obtain ⟨h1, h2, h3⟩ := C102_corners angle h10 pts
  refine ⟨h2.imp fun {a b} h hab => ?_, fun p => ⟨h1 p, fun hp => ?_⟩⟩
  · rw [hab] at h
    have : (0 : K) < 1 / 1000000 := by norm_num
    linarith
  · obtain ⟨r, hr, r1, r2⟩ := h3 p hp
    rw [hs r (h1 r hr) p hp r1 r2] at hr
    exact hr

omit [LinearOrder K] [IsStrictOrderedRing K] in
theorem center_perm {pts pts' : List (Pt K)} (h : pts.Perm pts') : center pts = center pts' := by
  rw [center, center, h.length_eq, (h.map _).sum_eq, (h.map _).sum_eq]

/-- ... and the polygon does not depend on the order in which they are given. -/
theorem C102_order (angle : Pt K → Pt K → K) (h10 : ∀ c p, -10 + 1 / 1000000 < angle c p) (pts pts' : List (Pt K))
    (hp : pts.Perm pts') (hs : Separated (angle (center pts)) pts) :
    Polygon.make angle pts = Polygon.make angle pts' := by
  have hs' : Separated (angle (center pts')) pts' := by
    rw [← center_perm hp]
    exact fun p h q h' => hs p (hp.mem_iff.2 h) q (hp.mem_iff.2 h')
  obtain ⟨n1, m1⟩ := C102_corners_exact angle h10 pts hs
  obtain ⟨n2, m2⟩ := C102_corners_exact angle h10 pts' hs'
  have hperm : (Polygon.make angle pts).points.Perm (Polygon.make angle pts').points := by
    rw [List.perm_ext_iff_of_nodup n1 n2]
    intro a
    rw [m1, m2, hp.mem_iff]
  have p1 := (C102_corners angle h10 pts).2.1
  have p2 := (C102_corners angle h10 pts').2.1
  rw [← center_perm hp] at p2
  have heq : (Polygon.make angle pts).points = (Polygon.make angle pts').points := by
    refine hperm.eq_of_pairwise (fun a b _ _ h1 h2 => ?_) p1 p2
    have : (0 : K) < 1 / 1000000 := by norm_num
    linarith
  have e1 : Polygon.make angle pts = ⟨(Polygon.make angle pts).points, updateEdges (Polygon.make angle pts).points⟩ := rfl
  have e2 : Polygon.make angle pts' = ⟨(Polygon.make angle pts').points, updateEdges (Polygon.make angle pts').points⟩ := rfl
  rw [e1, e2, heq]

/-! ### Edges -/

/-- C102: `near` is the distance from the straight line through the edge. -/
theorem C102_near (q : Edge K) (p : Pt K) : q.near p = true ↔ q.p0 ≠ q.p1 ∧
    ∃ s, (p.x - (q.p0.x + s * (q.p1.x - q.p0.x))) ^ 2 + (p.y - (q.p0.y + s * (q.p1.y - q.p0.y))) ^ 2 <
      (1 / 100000000) ^ 2 := by
  have hne : q.p0 ≠ q.p1 ↔
      (q.p1.x - q.p0.x) * (q.p1.x - q.p0.x) + (q.p1.y - q.p0.y) * (q.p1.y - q.p0.y) ≠ 0 := by
    constructor
    · intro h h0
      have h1 : (q.p1.x - q.p0.x) * (q.p1.x - q.p0.x) = 0 := by
        nlinarith [mul_self_nonneg (q.p1.x - q.p0.x), mul_self_nonneg (q.p1.y - q.p0.y)]
      have h2 : (q.p1.y - q.p0.y) * (q.p1.y - q.p0.y) = 0 := by
        nlinarith [mul_self_nonneg (q.p1.x - q.p0.x), mul_self_nonneg (q.p1.y - q.p0.y)]
      apply h
      have h1' := mul_self_eq_zero.1 h1
      have h2' := mul_self_eq_zero.1 h2
      obtain ⟨⟨ax, ay⟩, ⟨bx, bY⟩⟩ := q
      simp only at h1' h2' ⊢
      rw [sub_eq_zero.1 h1', sub_eq_zero.1 h2']
    · rintro h h0
      apply h
      rw [h0]
      ring
  rw [hne]
  unfold Edge.near
  simp only
  by_cases h0 : (q.p1.x - q.p0.x) * (q.p1.x - q.p0.x) + (q.p1.y - q.p0.y) * (q.p1.y - q.p0.y) = 0
  · simp [h0]
  rw [if_neg h0]
  simp only [decide_eq_true_eq, h0, ne_eq, not_false_eq_true, true_and]
  have hpos : 0 < (q.p1.x - q.p0.x) * (q.p1.x - q.p0.x) + (q.p1.y - q.p0.y) * (q.p1.y - q.p0.y) :=
    lt_of_le_of_ne (add_nonneg (mul_self_nonneg _) (mul_self_nonneg _)) (Ne.symm h0)
  have hc : ((1 : K) / 100000000) ^ 2 = 1 / 10000000000000000 := by norm_num
  rw [hc]
  constructor
  · intro h
    refine ⟨((p.x - q.p0.x) * (q.p1.x - q.p0.x) + (p.y - q.p0.y) * (q.p1.y - q.p0.y)) /
      ((q.p1.x - q.p0.x) * (q.p1.x - q.p0.x) + (q.p1.y - q.p0.y) * (q.p1.y - q.p0.y)), lt_of_eq_of_lt ?_ h⟩
    ring
  · rintro ⟨s, hs⟩
    refine lt_of_le_of_lt ?_ hs
    obtain ⟨t, ht⟩ : ∃ t, t = ((p.x - q.p0.x) * (q.p1.x - q.p0.x) + (p.y - q.p0.y) * (q.p1.y - q.p0.y)) /
      ((q.p1.x - q.p0.x) * (q.p1.x - q.p0.x) + (q.p1.y - q.p0.y) * (q.p1.y - q.p0.y)) := ⟨_, rfl⟩
    rw [← ht]
    rw [eq_div_iff h0] at ht
    have : (p.x - (q.p0.x + s * (q.p1.x - q.p0.x))) ^ 2 + (p.y - (q.p0.y + s * (q.p1.y - q.p0.y))) ^ 2 =
      ((p.x - q.p0.x - t * (q.p1.x - q.p0.x)) * (p.x - q.p0.x - t * (q.p1.x - q.p0.x)) +
        (p.y - q.p0.y - t * (q.p1.y - q.p0.y)) * (p.y - q.p0.y - t * (q.p1.y - q.p0.y))) +
      (s - t) ^ 2 * ((q.p1.x - q.p0.x) * (q.p1.x - q.p0.x) + (q.p1.y - q.p0.y) * (q.p1.y - q.p0.y)) := by
      linear_combination (2 * (s - t)) * ht
    rw [this]
    have := mul_nonneg (sq_nonneg (s - t)) hpos.le
    linarith

/-- C102, `GetEdgeIndex`: -1 is returned exactly if no (non-degenerate) edge has a straight line closer than `10⁻⁸` to the
point; otherwise the index of the first edge that has. -/
theorem C102_edgeIndex (g : Polygon K) (p : Pt K) :
    (g.edgeIndex p = -1 ∧ ∀ e ∈ g.edges, e.near p = false) ∨
      ∃ i : Nat, ∃ h : i < g.edges.length, g.edgeIndex p = i ∧ g.edges[i].near p = true ∧
        ∀ j, ∀ hj : j < i, (g.edges[j]'(lt_trans hj h)).near p = false := by
  unfold Polygon.edgeIndex
  cases hf : g.edges.findIdx? fun e => e.near p with
  | none =>
    left
    exact ⟨rfl, fun e he => by simpa using List.findIdx?_eq_none_iff.1 hf e he⟩
  | some i =>
    right
    obtain ⟨h, h1, h2⟩ := List.findIdx?_eq_some_iff_getElem.1 hf
    exact ⟨i, h, rfl, h1, fun j hj => by simpa using h2 j hj⟩

/-- C102, `GetPointOnBothEdges`: for the indices of two edges a common corner is returned if they have one, otherwise an
exception is thrown. -/
theorem C102_pointOnBothEdges (g : Polygon K) (i j : Nat) (hi : i < g.edges.length) (hj : j < g.edges.length) :
    (∃ p, g.pointOnBothEdges i j = .ok p ∧ (p = g.edges[i].p0 ∨ p = g.edges[i].p1) ∧
        (p = g.edges[j].p0 ∨ p = g.edges[j].p1)) ∨
      (g.pointOnBothEdges i j = .throw ∧ ∀ p, ¬ ((p = g.edges[i].p0 ∨ p = g.edges[i].p1) ∧
        (p = g.edges[j].p0 ∨ p = g.edges[j].p1))) := by
  unfold Polygon.pointOnBothEdges
  rw [if_neg (by omega)]
  simp only [Int.toNat_natCast, List.getElem?_eq_getElem hi, List.getElem?_eq_getElem hj]
  unfold Edge.contains
  by_cases h1 : g.edges[j].p0 = g.edges[i].p0 ∨ g.edges[j].p1 = g.edges[i].p0
  · left
    refine ⟨g.edges[i].p0, by simp [h1], .inl rfl, ?_⟩
    rcases h1 with h | h
    · exact .inl h.symm
    · exact .inr h.symm
  · by_cases h2 : g.edges[j].p0 = g.edges[i].p1 ∨ g.edges[j].p1 = g.edges[i].p1
    · left
      refine ⟨g.edges[i].p1, by simp [h1, h2], .inr rfl, ?_⟩
      rcases h2 with h | h
      · exact .inl h.symm
      · exact .inr h.symm
    · right
      refine ⟨by simp [h1, h2], ?_⟩
      rintro p ⟨rfl | rfl, h | h⟩
      · exact h1 (.inl h.symm)
      · exact h1 (.inr h.symm)
      · exact h2 (.inl h.symm)
      · exact h2 (.inr h.symm)

/-! ### Counterexamples and examples -/

/-- a square, clockwise -/
def boxPoints : List (Pt ℚ) := [⟨0, 0⟩, ⟨0, 2⟩, ⟨2, 2⟩, ⟨2, 0⟩]

/-- a square standing on a corner, clockwise -/
def diamond : List (Pt ℚ) := [⟨-1, 0⟩, ⟨0, 1⟩, ⟨1, 0⟩, ⟨0, -1⟩]

theorem square_convex : Convex boxPoints := by
  refine ⟨by decide, ?_⟩
  intro i hi j hj h1 h2
  change i < 4 at hi
  change j < 4 at hj
  interval_cases i <;> interval_cases j <;> first | exact absurd rfl h1 | exact absurd rfl h2 |
    simp [area2, corner, boxPoints]

theorem diamond_convex : Convex diamond := by
  refine ⟨by decide, ?_⟩
  intro i hi j hj h1 h2
  change i < 4 at hi
  change j < 4 at hj
  interval_cases i <;> interval_cases j <;> first | exact absurd rfl h1 | exact absurd rfl h2 |
    simp [area2, corner, diamond]

/-- Fails: the centre of a square standing on a corner is inside but reported outside: the ray to the right passes through a
corner, which is counted for both edges that end there. -/
theorem C102_inside_counterexample : Convex diamond ∧ InPolygon diamond ⟨0, 0⟩ ∧
    (⟨diamond, updateEdges diamond⟩ : Polygon ℚ).pointIsInside ⟨0, 0⟩ = false := by
  refine ⟨diamond_convex, ?_, by decide +kernel⟩
  intro i hi
  change i < 4 at hi
  interval_cases i <;> norm_num [area2, corner, diamond]

/-- Fails: boundary points are treated differently: on the left edge of a square inside, on the right edge outside. -/
theorem C102_boundary_counterexample :
    (⟨boxPoints, updateEdges boxPoints⟩ : Polygon ℚ).pointIsInside ⟨0, 1⟩ = true ∧
      (⟨boxPoints, updateEdges boxPoints⟩ : Polygon ℚ).pointIsInside ⟨2, 1⟩ = false := by
  decide +kernel

/-- Fails: a segment along an edge, that lies in the boundary altogether, does not intersect the polygon. -/
theorem C102_segment_counterexample :
    (⟨boxPoints, updateEdges boxPoints⟩ : Polygon ℚ).segmentIntersects ⟨0, 1/2⟩ ⟨0, 1⟩ = false := by
  decide +kernel

/-- Fails: without an intersection a point far away is returned, no error. -/
theorem C102_closest_counterexample :
    (⟨boxPoints, updateEdges boxPoints⟩ : Polygon ℚ).closestIntersection ⟨3, 1⟩ ⟨1, 0⟩ = ⟨10000000003, 1⟩ := by
  decide +kernel

/-- Fails: the "edge that contains the point" is found for a point far away on the extension of an edge. -/
theorem C102_edgeIndex_counterexample :
    (⟨boxPoints, updateEdges boxPoints⟩ : Polygon ℚ).edgeIndex ⟨0, 50⟩ = 0 ∧ ¬ OnEdge (corner boxPoints 0) (corner boxPoints 1) ⟨0, 50⟩ := by
  refine ⟨by decide +kernel, ?_⟩
  rintro ⟨t, _, h1, _, h2⟩
  simp only [corner, boxPoints, List.length_cons, List.length_nil] at h2
  norm_num at h2
  linarith

/-- Of two points in the same direction from the centre at most one is a corner, even if they are far apart. -/
theorem C102_merge (angle : Pt ℚ → Pt ℚ → ℚ) (h : ∀ c p, -10 + 1 / 1000000 < angle c p) (c : Pt ℚ)
    (pts : List (Pt ℚ)) (hc : center pts = c) (p q : Pt ℚ) (hne : p ≠ q)
    (hsame : angle c p = angle c q) : ¬ (p ∈ (Polygon.make angle pts).points ∧ q ∈ (Polygon.make angle pts).points) := by
  rintro ⟨h1, h2⟩
  have := (C102_corners angle h pts).2.1
  rw [hc] at this
  have key : ∀ l : List (Pt ℚ), l.Pairwise (fun a b => angle c a + 1 / 1000000 < angle c b) → p ∈ l → q ∈ l → False := by
    intro l
    induction l with
    | nil => simp
    | cons x t ih =>
      intro hl m1 m2
      obtain ⟨l1, l2⟩ := List.pairwise_cons.1 hl
      rcases List.mem_cons.1 m1 with e1 | m1 <;> rcases List.mem_cons.1 m2 with e2 | m2
      · exact hne (e1.trans e2.symm)
      · have := l1 q m2
        rw [← e1, hsame] at this
        linarith
      · have := l1 p m1
        rw [← e2, hsame] at this
        linarith
      · exact ih l2 m1 m2
  exact key _ this h1 h2

/-- Hypotheses are met: a point inside the square, not at the height of a corner and not on an edge, is inside; one outside
is not. -/
example : (⟨boxPoints, updateEdges boxPoints⟩ : Polygon ℚ).pointIsInside ⟨1, 1⟩ = true ∧ InPolygon boxPoints ⟨1, 1⟩ ∧
    (⟨boxPoints, updateEdges boxPoints⟩ : Polygon ℚ).pointIsInside ⟨-1, 1⟩ = false := by
  have h1 : ∀ k < boxPoints.length, (corner boxPoints k).y ≠ 1 := by
    intro k hk
    change k < 4 at hk
    interval_cases k <;> norm_num [corner, boxPoints]
  have h2 : ∀ k < boxPoints.length, ¬ OnEdge (corner boxPoints k) (corner boxPoints (k + 1)) ⟨1, 1⟩ := by
    intro k hk
    change k < 4 at hk
    rintro ⟨t, t0, t1, e1, e2⟩
    interval_cases k <;> simp only [corner, boxPoints, List.length_cons, List.length_nil] at e1 e2 <;>
      first | (norm_num at e1; done) | norm_num at e2
  have h3 : (⟨boxPoints, updateEdges boxPoints⟩ : Polygon ℚ).pointIsInside ⟨1, 1⟩ = true := by decide +kernel
  exact ⟨h3, (C102_pointIsInside_partial square_convex ⟨1, 1⟩ h1 h2).1 h3, by decide +kernel⟩

/-- Hypotheses are met: an angle-like function (here increasing with the direction for the points used) sorts the corners of
a square clockwise, whatever their order. -/
example : (Polygon.make (fun c p : Pt ℚ => if p.x < c.x then (if p.y < c.y then 0 else 1) else if p.y < c.y then 3 else 2)
    [⟨2, 0⟩, ⟨0, 2⟩, ⟨0, 0⟩, ⟨2, 2⟩]).points = boxPoints := by
  decide +kernel

example : Separated ((fun c p : Pt ℚ => if p.x < c.x then (if p.y < c.y then 0 else 1) else if p.y < c.y then 3 else (2 : ℚ)) ⟨1, 1⟩)
    boxPoints := by
  unfold Separated boxPoints
  decide +kernel

example : (⟨boxPoints, updateEdges boxPoints⟩ : Polygon ℚ).pointOnBothEdges 0 1 = .ok ⟨0, 2⟩ ∧
    (⟨boxPoints, updateEdges boxPoints⟩ : Polygon ℚ).pointOnBothEdges 0 2 = .throw := by
  decide +kernel

end NuTo.Delaunay
