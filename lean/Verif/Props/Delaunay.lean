import Mathlib.Data.Rat.Defs
import Mathlib.Algebra.Order.Field.Rat
import Mathlib.Tactic.NormNum
import Verif.Lemmas.Delaunay

/-!
C91: the triangulation of `nuto/math/DelaunayVoronoi.h`.
-/

namespace NuTo.Delaunay

variable {K : Type} [Field K] [LinearOrder K] [IsStrictOrderedRing K]

/-- `x` is strictly inside of the triangle: a mean of the corners with positive weights. -/
def Interior (x a b c : Pt K) : Prop :=
  ∃ α β γ : K, 0 < α ∧ 0 < β ∧ 0 < γ ∧ α + β + γ = 1 ∧ x.x = α * a.x + β * b.x + γ * c.x ∧ x.y = α * a.y + β * b.y + γ * c.y

/-- `o` has the same distance from all three points. -/
def Centre (o a b c : Pt K) : Prop := dist2 o a = dist2 o b ∧ dist2 o b = dist2 o c

/-- The points are not on one line parallel to an axis. -/
def Extent (pts : List (Pt K)) : Prop := (∃ a ∈ pts, ∃ b ∈ pts, a.x < b.x) ∧ ∃ a ∈ pts, ∃ b ∈ pts, a.y < b.y

theorem interior_swap {x a b c : Pt K} : Interior x a b c ↔ Interior x b a c := by
  constructor
  · rintro ⟨α, β, γ, h1, h2, h3, h4, h5, h6⟩
    exact ⟨β, α, γ, h2, h1, h3, by linarith, by linarith, by linarith⟩
  · rintro ⟨α, β, γ, h1, h2, h3, h4, h5, h6⟩
    exact ⟨β, α, γ, h2, h1, h3, by linarith, by linarith, by linarith⟩

theorem interior_iff {x a b c : Pt K} (ho : 0 < orient a b c) : Interior x a b c ↔ Inside x a b c := by
  constructor
  · rintro ⟨α, β, γ, h1, h2, h3, h4, hx, hy⟩
    have hα : α = 1 - β - γ := by linarith
    subst hα
    have e1 : orient a b x = γ * orient a b c := by unfold orient; rw [hx, hy]; ring
    have e2 : orient b c x = (1 - β - γ) * orient a b c := by unfold orient; rw [hx, hy]; ring
    have e3 : orient c a x = β * orient a b c := by unfold orient; rw [hx, hy]; ring
    exact ⟨by rw [e1]; exact mul_pos h3 ho, by rw [e2]; exact mul_pos h1 ho, by rw [e3]; exact mul_pos h2 ho⟩
  · rintro ⟨h1, h2, h3⟩
    have bx := bary_x x a b c
    have bz := bary_y x a b c
    have bs := orient_sum x a b c
    refine ⟨orient b c x / orient a b c, orient c a x / orient a b c, orient a b x / orient a b c, div_pos h2 ho,
      div_pos h3 ho, div_pos h1 ho, ?_, ?_, ?_⟩
    · field_simp; linarith
    · field_simp; linarith
    · field_simp; linarith

/-! ### The bounds -/

theorem bounds_spec (p : Pt K) (ps : List (Pt K)) :
    (bounds p ps).1.x ≤ p.x ∧ p.x ≤ (bounds p ps).2.x ∧ (bounds p ps).1.y ≤ p.y ∧ p.y ≤ (bounds p ps).2.y ∧
    ∀ q ∈ ps, (bounds p ps).1.x ≤ q.x ∧ q.x ≤ (bounds p ps).2.x ∧ (bounds p ps).1.y ≤ q.y ∧ q.y ≤ (bounds p ps).2.y := by
  have key : ∀ (ps : List (Pt K)) (b : Pt K × Pt K),
      let r := ps.foldl (fun b q => ((⟨min b.1.x q.x, min b.1.y q.y⟩ : Pt K), (⟨max b.2.x q.x, max b.2.y q.y⟩ : Pt K))) b
      r.1.x ≤ b.1.x ∧ b.2.x ≤ r.2.x ∧ r.1.y ≤ b.1.y ∧ b.2.y ≤ r.2.y ∧
      ∀ q ∈ ps, r.1.x ≤ q.x ∧ q.x ≤ r.2.x ∧ r.1.y ≤ q.y ∧ q.y ≤ r.2.y := by
    intro ps
    induction ps with
    | nil => intro b; simp
    | cons q ps ih =>
      intro b
      obtain ⟨h1, h2, h3, h4, h5⟩ := ih (⟨min b.1.x q.x, min b.1.y q.y⟩, ⟨max b.2.x q.x, max b.2.y q.y⟩)
      simp only at h1 h2 h3 h4
      refine ⟨h1.trans (min_le_left _ _), (le_max_left _ _).trans h2, h3.trans (min_le_left _ _),
        (le_max_left _ _).trans h4, ?_⟩
      intro r hr
      rcases List.mem_cons.1 hr with rfl | hr
      · exact ⟨h1.trans (min_le_right _ _), (le_max_right _ _).trans h2, h3.trans (min_le_right _ _),
          (le_max_right _ _).trans h4⟩
      · exact h5 r hr
  exact key ps (p, p)

theorem superBounds_spec {p : Pt K} {ps : List (Pt K)} (he : Extent (p :: ps)) :
    let b := superBounds (bounds p (p :: ps))
    (b.1.x < b.2.x ∧ b.1.y < b.2.y) ∧ ∀ q ∈ p :: ps, InBox b.1 b.2 q := by
  obtain ⟨-, -, -, -, h⟩ := bounds_spec p (p :: ps)
  generalize bounds p (p :: ps) = b at *
  obtain ⟨⟨a1, m1, a2, m2, hx⟩, ⟨b1, n1, b2, n2, hy⟩⟩ := he
  have x1 := (h a1 m1).1
  have x2 := (h a2 m2).2.1
  have y1 := (h b1 n1).2.2.1
  have y2 := (h b2 n2).2.2.2
  have hbx : b.1.x < b.2.x := by linarith
  have hby : b.1.y < b.2.y := by linarith
  simp only [superBounds, InBox]
  refine ⟨⟨by linarith, by linarith⟩, fun q hq => ?_⟩
  obtain ⟨q1, q2, q3, q4⟩ := h q hq
  exact ⟨by linarith, by linarith, by linarith, by linarith⟩

theorem withSuperPoints_good {pts : List (Pt K)} (he : Extent pts) :
    ∃ p ps s, pts = p :: ps ∧ withSuperPoints pts = .ok s ∧
      (superBounds (bounds p pts)).1.x < (superBounds (bounds p pts)).2.x ∧
      (superBounds (bounds p pts)).1.y < (superBounds (bounds p pts)).2.y ∧
      Good (superBounds (bounds p pts)).1 (superBounds (bounds p pts)).2
        (pts.reverse ++ superPoints (superBounds (bounds p pts))) s := by
  rcases pts with _ | ⟨p, ps⟩
  · obtain ⟨⟨a, ha, -⟩, -⟩ := he
    cases ha
  · obtain ⟨hb, hin⟩ := superBounds_spec he
    obtain ⟨s, h1, h2⟩ := insertAll_good hb (p :: ps) hin _ _ (superState_good hb)
    exact ⟨p, ps, s, rfl, h1, hb.1, hb.2, h2⟩

/-- The triangle contains `x` strictly inside. -/
def Triangle.Interior (t : Triangle K) (x : Pt K) : Prop :=
  ∃ a b c, t.uniquePoints = .ok (a, b, c) ∧ Delaunay.Interior x a b c

theorem interior_rep {t : Triangle K} {s : Tri K} (h : Rep t s) (ho : 0 < orient s.1 s.2.1 s.2.2) (x : Pt K) :
    t.Interior x ↔ Inside x s.1 s.2.1 s.2.2 := by
  rw [← interior_iff ho]
  rcases uniquePoints_rep h ho with hu | hu
  · constructor
    · rintro ⟨a, b, c, h1, h2⟩
      rw [hu] at h1
      rw [Res.ok.injEq, Prod.mk.injEq, Prod.mk.injEq] at h1
      obtain ⟨rfl, rfl, rfl⟩ := h1
      exact h2
    · intro hi
      exact ⟨_, _, _, hu, hi⟩
  · constructor
    · rintro ⟨a, b, c, h1, h2⟩
      rw [hu] at h1
      obtain ⟨rfl, rfl, rfl⟩ : s.2.1 = a ∧ s.1 = b ∧ s.2.2 = c := by simpa using h1
      exact interior_swap.1 h2
    · intro hi
      exact ⟨_, _, _, hu, interior_swap.1 hi⟩

/-- A point of the box on no edge is inside of exactly one triangle. -/
theorem Good.cover {lo hi : Pt K} {V : List (Pt K)} {st : State K} (h : Good lo hi V st) {x : Pt K} (hx : InBox lo hi x)
    (hedge : ∀ n ∈ st.nodes, ∀ e ∈ n.tri.edges, ¬ OnSegment x e.p0 e.p1) : ∃! n, n ∈ st.nodes ∧ n.tri.Interior x := by
  classical
  have hseg : ∀ n ∈ st.nodes, ¬ OnSegment x (triOf n.tri).1 (triOf n.tri).2.1 ∧
      ¬ OnSegment x (triOf n.tri).2.1 (triOf n.tri).2.2 ∧ ¬ OnSegment x (triOf n.tri).2.2 (triOf n.tri).1 := by
    intro n hn
    have he := hedge n hn
    have hr := h.rep n hn
    generalize triOf n.tri = s at hr
    obtain ⟨a, b, c⟩ := s
    simp only [Triangle.edges, List.mem_cons, List.not_mem_nil, or_false, forall_eq_or_imp, forall_eq] at he
    obtain ⟨e0, e1, e2⟩ := he
    rcases hr with hr | hr | hr <;> rw [hr] at e0 e1 e2 <;> simp only at e0 e1 e2
    · exact ⟨e0, e1, e2⟩
    · exact ⟨e0, fun h => e2 (onSegment_symm h), e1⟩
    · exact ⟨fun h => e0 (onSegment_symm h), fun h => e1 (onSegment_symm h), e2⟩
  have hval : ∀ n ∈ st.nodes, crossing x ⟨1, 0⟩ (triOf n.tri).1 (triOf n.tri).2.1 +
      crossing x ⟨1, 0⟩ (triOf n.tri).2.1 (triOf n.tri).2.2 + crossing x ⟨1, 0⟩ (triOf n.tri).2.2 (triOf n.tri).1 =
      if n.tri.Interior x then 1 else 0 := by
    intro n hn
    obtain ⟨s1, s2, s3⟩ := hseg n hn
    have ht := triangle_crossing (d := ⟨1, 0⟩) (by simp) (h.ccw hn) s1 s2 s3
    have hi := interior_rep (h.rep n hn) (h.ccw hn) x
    by_cases hI : n.tri.Interior x
    · rw [if_pos hI, ht.1 (hi.1 hI)]
    · rw [if_neg hI, ht.2 (fun h => hI (hi.2 h))]
  have hsum : (st.nodes.map fun n => if n.tri.Interior x then (1 : K) else 0).sum = 1 := by
    have e := quad_crossing (d := ⟨1, 0⟩) (by simp) hx
    rw [← h.inv.chain _ (crossing_anti x _), total_allDarts, List.map_map] at e
    refine Eq.trans (congrArg List.sum ?_) e
    exact (List.map_congr_left hval).symm
  by_cases hex : ∃ n ∈ st.nodes, n.tri.Interior x
  · obtain ⟨n, hn, hI⟩ := hex
    refine ⟨n, ⟨hn, hI⟩, ?_⟩
    rintro m ⟨hm, hJ⟩
    by_contra hne
    have := two_le_sum (fun n : Node K => if n.tri.Interior x then (1 : K) else 0) (fun a _ => by split_ifs <;> simp) hm hn hne
      (by simp [hJ]) (by simp [hI])
    rw [hsum] at this
    linarith
  · exfalso
    push Not at hex
    have : (st.nodes.map fun n => if n.tri.Interior x then (1 : K) else 0).sum = 0 := by
      generalize st.nodes = l at hex
      induction l with
      | nil => rfl
      | cons n l ih =>
        rw [List.map_cons, List.sum_cons, if_neg (hex n (by simp)), zero_add]
        exact ih fun m hm => hex m (by simp [hm])
    rw [hsum] at this
    exact one_ne_zero this

/-- C91: for points that are not on a line parallel to an axis, the loop over the points makes triangles with corners among
the points and the super points, that are not flat, whose circles contain no point, that cover the box of the super points
without overlap; every point is a corner.  Missing: the removal of the super points (see below). -/
theorem C91_triangulation_partial (pts : List (Pt K)) (he : Extent pts) :
    ∃ p ∈ pts, ∃ s, withSuperPoints pts = .ok s ∧
      (∀ n ∈ s.nodes, ∃ a b c, n.tri.uniquePoints = .ok (a, b, c) ∧ orient a b c ≠ 0 ∧
        (∀ v ∈ [a, b, c], v ∈ pts ∨ v ∈ superPoints (superBounds (bounds p pts))) ∧
        ∀ o, Centre o a b c → ∀ q, q ∈ pts ∨ q ∈ superPoints (superBounds (bounds p pts)) → dist2 o a ≤ dist2 o q) ∧
      (∀ q ∈ pts, ∃ n ∈ s.nodes, n.tri.contains q = true) ∧
      (∀ q ∈ pts, InBox (superBounds (bounds p pts)).1 (superBounds (bounds p pts)).2 q) ∧
      ∀ x, InBox (superBounds (bounds p pts)).1 (superBounds (bounds p pts)).2 x →
        (∀ n ∈ s.nodes, ∀ e ∈ n.tri.edges, ¬ OnSegment x e.p0 e.p1) → ∃! n, n ∈ s.nodes ∧ n.tri.Interior x := by
  obtain ⟨p, ps, s, hpts, hs, hbx, hby, hg⟩ := withSuperPoints_good he
  have hmemV : ∀ v, v ∈ pts.reverse ++ superPoints (superBounds (bounds p pts)) ↔
      v ∈ pts ∨ v ∈ superPoints (superBounds (bounds p pts)) := by
    intro v; rw [List.mem_append, List.mem_reverse]
  refine ⟨p, by rw [hpts]; simp, s, hs, ?_, ?_, ?_, fun x hx hedge => hg.cover hx hedge⟩
  · intro n hn
    have ho := hg.ccw hn
    have hr := hg.rep n hn
    have hc := hg.inv.corners _ (List.mem_map.2 ⟨n, hn, rfl⟩)
    have hem := hg.inv.empty _ (List.mem_map.2 ⟨n, hn, rfl⟩)
    generalize triOf n.tri = t at ho hr hc hem
    obtain ⟨a, b, c⟩ := t
    simp only at ho hc hem
    obtain ⟨c1, c2, c3⟩ := hc
    rw [hmemV] at c1 c2 c3
    have hfar : ∀ o, dist2 o b = dist2 o a → dist2 o c = dist2 o a → ∀ q,
        q ∈ pts ∨ q ∈ superPoints (superBounds (bounds p pts)) → dist2 o a ≤ dist2 o q := by
      intro o h1 h2 q hq
      have := hem q ((hmemV q).2 hq)
      by_contra hn
      push Not at hn
      have := (det_pos_iff (d := q) ho h1 h2).2 hn
      linarith
    rcases uniquePoints_rep hr ho with hu | hu
    · refine ⟨a, b, c, hu, ho.ne', by simp [c1, c2, c3], ?_⟩
      rintro o ⟨h1, h2⟩ q hq
      exact hfar o h1.symm (h1.trans h2).symm q hq
    · refine ⟨b, a, c, hu, by rw [orient_swap]; exact (neg_neg_iff_pos.2 ho).ne, by simp [c1, c2, c3], ?_⟩
      rintro o ⟨h1, h2⟩ q hq
      rw [h1]
      exact hfar o h1 h2.symm q hq
  · intro q hq
    obtain ⟨t, ht, hc⟩ := hg.inv.used q ((hmemV q).2 (Or.inl hq))
    obtain ⟨n, hn, rfl⟩ := List.mem_map.1 ht
    exact ⟨n, hn, (contains_rep (hg.rep n hn) q).2 hc⟩
  · subst hpts
    exact (superBounds_spec he).2

/-- Removing an address twice, or one that is not there, is undefined. -/
theorem Good.remove_ub {lo hi : Pt K} {V : List (Pt K)} {st : State K} (h : Good lo hi V st) (ids : List Nat) (l : List (Node K))
    (hl : l.Sublist st.nodes) (hids : (∃ i ∈ ids, i ∉ l.map Node.id) ∨ ¬ ids.Nodup) :
    Res.foldlM removePointer l ids = .ub := by
  induction ids generalizing l with
  | nil =>
    rcases hids with ⟨i, hi, -⟩ | hn
    · cases hi
    · exact absurd List.nodup_nil hn
  | cons i ids ih =>
    rw [Res.foldlM_cons]
    by_cases hi : i ∈ l.map Node.id
    · obtain ⟨n, hn, rfl⟩ := List.mem_map.1 hi
      rw [removePointer_eq h hl hn, Res.bind_ok']
      refine ih _ (List.filter_sublist.trans hl) ?_
      have hgone : n.id ∉ (l.filter fun m => decide (m ≠ n)).map Node.id := by
        intro hm
        obtain ⟨m, hm, he⟩ := List.mem_map.1 hm
        obtain ⟨hm1, hm2⟩ := List.mem_filter.1 hm
        have hnd := h.ids.sublist (hl.map Node.id)
        have : m = n := List.inj_on_of_nodup_map hnd hm1 hn he
        simp [this] at hm2
      rcases hids with ⟨j, hj, hjl⟩ | hnd
      · rcases List.mem_cons.1 hj with rfl | hj
        · exact absurd hi hjl
        · refine Or.inl ⟨j, hj, fun hm => hjl ?_⟩
          exact (List.filter_sublist.map Node.id).subset hm
      · rw [List.nodup_cons] at hnd
        by_cases hin : n.id ∈ ids
        · exact Or.inl ⟨n.id, hin, hgone⟩
        · exact Or.inr fun h => hnd ⟨hin, h⟩
    · have : l.find? (fun n => n.id == i) = none := by
        rw [List.find?_eq_none]
        intro n hn he
        exact hi (List.mem_map.2 ⟨n, hn, by simpa using he⟩)
      rw [removePointer, this]
      rfl

/-- C91 is false: a triangle with two super points is removed through two pointers, and the second one points to freed
memory.  There always is such a triangle, so the result is undefined for all points. -/
theorem C91_removal_counterexample (pts : List (Pt K)) (he : Extent pts) : calculate pts = .ub := by
  obtain ⟨p, ps, s, hpts, hs, hbx, hby, hg⟩ := withSuperPoints_good he
  subst hpts
  rw [calculate, hs, Res.bind_ok']
  set b := superBounds (bounds p (p :: ps)) with hb
  refine hg.remove_ub _ _ (List.Sublist.refl _) (Or.inr fun hnd => ?_)
  obtain ⟨hm, -⟩ := hg.inv.side_mem ⟨hbx, hby⟩ (d := (b.1, ⟨b.2.x, b.1.y⟩)) (by simp [quad])
  obtain ⟨t, ht, hdt⟩ := mem_allDarts.1 hm
  obtain ⟨n, hn, rfl⟩ := List.mem_map.1 ht
  obtain ⟨c1, c2⟩ := dart_corners hdt
  have k1 := (contains_rep (hg.rep n hn) b.1).2 c1
  have k2 := (contains_rep (hg.rep n hn) ⟨b.2.x, b.1.y⟩).2 c2
  have := (List.nodup_flatMap.1 hnd).1 n hn
  simp [superPoints, List.filter_cons, k1, k2] at this

/-- C91 is false for points on a horizontal line: the super triangles are flat. -/
theorem C91_line_counterexample (p : Pt K) (ps : List (Pt K)) (h : ∀ q ∈ ps, q.y = p.y) : calculate (p :: ps) = .ub := by
  have hb : (bounds p (p :: ps)).1.y = p.y ∧ (bounds p (p :: ps)).2.y = p.y := by
    have key : ∀ (l : List (Pt K)) (b : Pt K × Pt K), (∀ q ∈ l, q.y = p.y) → b.1.y = p.y → b.2.y = p.y →
        (l.foldl (fun b q => ((⟨min b.1.x q.x, min b.1.y q.y⟩ : Pt K), (⟨max b.2.x q.x, max b.2.y q.y⟩ : Pt K))) b).1.y = p.y ∧
        (l.foldl (fun b q => ((⟨min b.1.x q.x, min b.1.y q.y⟩ : Pt K), (⟨max b.2.x q.x, max b.2.y q.y⟩ : Pt K))) b).2.y =
          p.y := by
      intro l
      induction l with
      | nil => intro b _ h1 h2; exact ⟨h1, h2⟩
      | cons q l ih =>
        intro b hl h1 h2
        have hq := hl q (by simp)
        exact ih _ (fun r hr => hl r (by simp [hr])) (by simp [h1, hq]) (by simp [h2, hq])
    exact key (p :: ps) (p, p) (by intro q hq; rcases List.mem_cons.1 hq with rfl | hq; exacts [rfl, h q hq]) rfl rfl
  generalize hB : bounds p (p :: ps) = b at hb
  obtain ⟨⟨ax, ay⟩, ⟨bx, bz⟩⟩ := b
  simp only at hb
  obtain ⟨rfl, rfl⟩ := hb
  simp [calculate, withSuperPoints, hB, insertPoint, superState, superBounds, badTriangles, Triangle.circumcircleContains,
    Triangle.uniquePoints, Edge.contains]

/-- C91 is false without points: `mPoints[0]` is read. -/
theorem C91_empty_counterexample : calculate ([] : List (Pt K)) = .ub := rfl

/-- C91: the circumcentre has the same distance from the three points. -/
theorem C91_circumcentre (t : Triangle K) (a b c : Pt K) (hu : t.uniquePoints = .ok (a, b, c)) (ho : orient a b c ≠ 0) :
    ∃ o, t.circumcenter = .ok o ∧ Centre o a b c := by
  refine ⟨_, by rw [Triangle.circumcenter, hu, Res.bind_ok'], ?_⟩
  have hd : a.x * (b.y - c.y) + b.x * (c.y - a.y) + c.x * (a.y - b.y) = orient a b c := by unfold orient; ring
  simp only [hd]
  constructor
  · unfold dist2
    field_simp
    unfold orient
    ring
  · unfold dist2
    field_simp
    unfold orient
    ring

/-- C91: the test of the circle is true exactly for the points closer to the centre than the corners. -/
theorem C91_circle (t : Triangle K) (a b c o p : Pt K) (hu : t.uniquePoints = .ok (a, b, c)) (ho : orient a b c ≠ 0)
    (hc : Centre o a b c) : t.circumcircleContains p = .ok (decide (dist2 o p < dist2 o a)) := by
  obtain ⟨h1, h2⟩ := hc
  have key : ∀ b c : Pt K, 0 < orient a b c → dist2 o a = dist2 o b → dist2 o b = dist2 o c →
      (if a = p ∨ b = p ∨ c = p then Res.ok false else Res.ok (decide (determinant a b c p > 0))) =
        Res.ok (decide (dist2 o p < dist2 o a)) := by
    intro b c ho h1 h2
    split_ifs with hp
    · rw [Res.ok.injEq, eq_comm, decide_eq_false_iff_not]
      rcases hp with rfl | rfl | rfl <;> linarith
    · rw [Res.ok.injEq, decide_eq_decide]
      exact det_pos_iff ho h1.symm (h1.trans h2).symm
  have hdir : (b.x - a.x) * (c.y - a.y) - (b.y - a.y) * (c.x - a.x) = orient a b c := rfl
  rw [Triangle.circumcircleContains, hu, Res.bind_ok']
  simp only [hdir]
  by_cases hn : orient a b c < 0
  · simp only [if_pos hn]
    have ho' : 0 < orient a c b := by
      have : orient a c b = - orient a b c := by unfold orient; ring
      linarith
    exact key c b ho' (h1.trans h2) h2.symm
  · simp only [if_neg hn]
    exact key b c (lt_of_le_of_ne (not_lt.1 hn) ho.symm) h1 h2

/-- Four points that meet the hypotheses. -/
def kite : List (Pt ℚ) := [⟨0, 0⟩, ⟨1, 0⟩, ⟨1 / 2, 1 / 100⟩, ⟨1 / 2, 1⟩]

example : Extent kite := by
  refine ⟨⟨⟨0, 0⟩, by simp [kite], ⟨1, 0⟩, by simp [kite], by norm_num⟩, ⟨⟨0, 0⟩, by simp [kite], ⟨1 / 2, 1⟩, by simp [kite], by norm_num⟩⟩

/-- A triangle that meets the hypotheses of `C91_circumcentre` and `C91_circle`. -/
example : ∃ (t : Triangle ℚ) (a b c o : Pt ℚ), t.uniquePoints = .ok (a, b, c) ∧ orient a b c ≠ 0 ∧ Centre o a b c :=
  ⟨⟨⟨⟨0, 0⟩, ⟨1, 0⟩⟩, ⟨⟨1, 0⟩, ⟨0, 1⟩⟩, ⟨⟨0, 1⟩, ⟨0, 0⟩⟩⟩, ⟨0, 0⟩, ⟨1, 0⟩, ⟨0, 1⟩, ⟨1 / 2, 1 / 2⟩, by decide +kernel,
    by norm_num [orient], by norm_num [Centre, dist2]⟩

/-- The triangles without super points -/
def kept (sP : List (Pt K)) (l : List (Node K)) : List (Node K) := l.filter fun n => ! sP.any fun s => n.tri.contains s

/-- Some edge of the triangle has the point on its outer side. -/
def outside (x : Pt ℚ) (t : Triangle ℚ) : Bool :=
  match t.uniquePoints with
  | .ok (a, b, c) => decide (orient a b c * orient a b x < 0 ∨ orient a b c * orient b c x < 0 ∨ orient a b c * orient c a x < 0)
  | _ => false

theorem outside_interior {x : Pt ℚ} {t : Triangle ℚ} (h : outside x t = true) : ¬ t.Interior x := by
  rintro ⟨a, b, c, hu, α, β, γ, h1, h2, h3, h4, hx, hy⟩
  simp only [outside, hu, decide_eq_true_eq] at h
  have hα : α = 1 - β - γ := by linarith
  subst hα
  have e1 : orient a b x = γ * orient a b c := by unfold orient; rw [hx, hy]; ring
  have e2 : orient b c x = (1 - β - γ) * orient a b c := by unfold orient; rw [hx, hy]; ring
  have e3 : orient c a x = β * orient a b c := by unfold orient; rw [hx, hy]; ring
  rw [e1, e2, e3] at h
  have hsq := mul_self_nonneg (orient a b c)
  rcases h with h | h | h <;> nlinarith

/-- C91 is false for the hull: the triangles without super points need not cover the hull of the points, because the super
points are not far enough.  Here the triangle of the first three points is missing. -/
theorem C91_hull_counterexample : ∃ s x, withSuperPoints kite = .ok s ∧
    Interior x (⟨0, 0⟩ : Pt ℚ) ⟨1, 0⟩ ⟨1 / 2, 1 / 100⟩ ∧
    ∀ n ∈ kept (superPoints (superBounds (bounds ⟨0, 0⟩ kite))) s.nodes, ¬ n.tri.Interior x := by
  have hx : ∀ n ∈ (match withSuperPoints kite with
      | .ok s => kept (superPoints (superBounds (bounds ⟨0, 0⟩ kite))) s.nodes
      | _ => []), outside ⟨1 / 2, 1 / 300⟩ n.tri = true := by decide +kernel
  obtain ⟨p, -, s, hs, -⟩ := C91_triangulation_partial kite
    ⟨⟨⟨0, 0⟩, by simp [kite], ⟨1, 0⟩, by simp [kite], by norm_num⟩,
      ⟨⟨0, 0⟩, by simp [kite], ⟨1 / 2, 1⟩, by simp [kite], by norm_num⟩⟩
  rw [hs] at hx
  refine ⟨s, ⟨1 / 2, 1 / 300⟩, hs, ⟨1 / 3, 1 / 3, 1 / 3, by norm_num, by norm_num, by norm_num, by norm_num, by norm_num,
    by norm_num⟩, fun n hn => outside_interior (hx n hn)⟩

end NuTo.Delaunay
