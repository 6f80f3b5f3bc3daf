/-
C106: Voronoi cells of `DelaunayVoronoi` and the cells for the visualisation.
-/
import Verif.Model.VoronoiCells
import Verif.Props.Delaunay
import Verif.Props.Polygon
import Verif.Lemmas.MatrixAssembler
import Mathlib.Data.List.Nodup
import Mathlib.Data.List.GetD
import Mathlib.Data.Rat.Defs

namespace NuTo.Delaunay

variable {K : Type} [Field K] [LinearOrder K] [IsStrictOrderedRing K]

/-! ### Specification -/

/-- The edges of the triangle join three corners that are not on one line; the corners are the given ones. -/
def Proper (t : Triangle K) (a b c : Pt K) : Prop :=
  t.uniquePoints = .ok (a, b, c) ∧ orient a b c ≠ 0 ∧
    ∀ e ∈ t.edges, e.p0 ≠ e.p1 ∧ (e.p0 = a ∨ e.p0 = b ∨ e.p0 = c) ∧ (e.p1 = a ∨ e.p1 = b ∨ e.p1 = c)

/-- Twice the signed area of a polygon (shoelace formula) -/
def shoelace (pts : List (Pt K)) : K :=
  ((List.range pts.length).map fun k =>
    (corner pts k).x * (corner pts (k + 1)).y - (corner pts (k + 1)).x * (corner pts k).y).sum

/-! ### Corners of the cells -/

omit [LinearOrder K] [IsStrictOrderedRing K] in
theorem move_bisector {c n u v : Pt K} (l : K) (h : dist2 c u = dist2 c v)
    (hn : (v.x - u.x) * n.x + (v.y - u.y) * n.y = 0) :
    dist2 ⟨c.x + n.x * l, c.y + n.y * l⟩ u = dist2 ⟨c.x + n.x * l, c.y + n.y * l⟩ v := by
  unfold dist2 at *
  simp only
  linear_combination h + 2 * l * hn

omit [LinearOrder K] [IsStrictOrderedRing K] in
theorem diff_bisector {c d u v : Pt K} (h : dist2 c u = dist2 c v) (h' : dist2 d u = dist2 d v) :
    2 * ((v.x - u.x) * (d.x - c.x) + (v.y - u.y) * (d.y - c.y)) = 0 := by
  unfold dist2 at *
  linear_combination h' - h

theorem closest_bisector (b : Polygon K) {c n u v : Pt K} (h : dist2 c u = dist2 c v)
    (hn : (v.x - u.x) * n.x + (v.y - u.y) * n.y = 0) :
    dist2 (b.closestIntersection c n) u = dist2 (b.closestIntersection c n) v := move_bisector _ h hn

theorem bisectorDir_perp (q : Edge K) (hq : q.p0 ≠ q.p1) (c : Pt K) :
    (q.p1.x - q.p0.x) * (bisectorDir q c).x + (q.p1.y - q.p0.y) * (bisectorDir q c).y = 0 := by
  unfold bisectorDir
  simp only
  split_ifs
  · simp only; ring
  · simp only
    have hne : (q.p1.x - q.p0.x) * (q.p1.x - q.p0.x) + (q.p1.y - q.p0.y) * (q.p1.y - q.p0.y) ≠ 0 := by
      intro h0
      have h1 : (q.p1.x - q.p0.x) * (q.p1.x - q.p0.x) = 0 := by
        nlinarith [mul_self_nonneg (q.p1.x - q.p0.x), mul_self_nonneg (q.p1.y - q.p0.y)]
      have h2 : (q.p1.y - q.p0.y) * (q.p1.y - q.p0.y) = 0 := by
        nlinarith [mul_self_nonneg (q.p1.x - q.p0.x), mul_self_nonneg (q.p1.y - q.p0.y)]
      have h1' := mul_self_eq_zero.1 h1
      have h2' := mul_self_eq_zero.1 h2
      apply hq
      obtain ⟨⟨ax, ay⟩, ⟨bx, bY⟩⟩ := q
      simp only at h1' h2'
      rw [Pt.mk.injEq]
      exact ⟨by linarith, by linarith⟩
    have hs : ((q.p1.x - q.p0.x) * (c.x - q.p0.x) + (q.p1.y - q.p0.y) * (c.y - q.p0.y)) /
        ((q.p1.x - q.p0.x) * (q.p1.x - q.p0.x) + (q.p1.y - q.p0.y) * (q.p1.y - q.p0.y)) *
        ((q.p1.x - q.p0.x) * (q.p1.x - q.p0.x) + (q.p1.y - q.p0.y) * (q.p1.y - q.p0.y)) =
        (q.p1.x - q.p0.x) * (c.x - q.p0.x) + (q.p1.y - q.p0.y) * (c.y - q.p0.y) := div_mul_cancel₀ _ hne
    linear_combination hs

theorem pointsOne_bisector (b : Polygon K) (t : Triangle K) (q : Edge K) (hq : q.p0 ≠ q.p1) (c : Pt K)
    (hc : dist2 c q.p0 = dist2 c q.p1) : ∀ r ∈ pointsOne b t q c, dist2 r q.p0 = dist2 r q.p1 := by
  obtain ⟨n, hn⟩ : ∃ n : Pt K, n = if intersectsAgain t q c (bisectorDir q c) then
      ⟨-(bisectorDir q c).x, -(bisectorDir q c).y⟩ else bisectorDir q c := ⟨_, rfl⟩
  have hp : (q.p1.x - q.p0.x) * n.x + (q.p1.y - q.p0.y) * n.y = 0 := by
    have := bisectorDir_perp q hq c
    rw [hn]
    split_ifs
    · simp only; linear_combination -this
    · exact this
  have h1 := closest_bisector b hc hp
  have h2 := closest_bisector b h1 hp
  intro r hr
  unfold pointsOne at hr
  simp only [← hn] at hr
  split_ifs at hr with a1 a2
  · simp only [List.mem_cons, List.not_mem_nil, or_false] at hr
    rcases hr with rfl | rfl
    exacts [hc, h1]
  · simp at hr
  · simp only [List.mem_cons, List.not_mem_nil, or_false] at hr
    rcases hr with rfl | rfl
    exacts [h1, h2]

theorem pointsTwoEnd_bisector (b : Polygon K) {c d u v : Pt K} (h : dist2 c u = dist2 c v) (h' : dist2 d u = dist2 d v) :
    ∀ r ∈ pointsTwoEnd b c d, dist2 r u = dist2 r v := by
  have hd : (v.x - u.x) * (c.x - d.x) + (v.y - u.y) * (c.y - d.y) = 0 := by
    have := diff_bisector h' h
    linarith
  intro r hr
  unfold pointsTwoEnd at hr
  split_ifs at hr
  · simp only [List.mem_cons, List.not_mem_nil, or_false] at hr
    rcases hr with rfl | rfl
    exacts [h, h']
  · simp only [List.mem_cons, List.not_mem_nil, or_false] at hr
    rcases hr with rfl | rfl
    exacts [h, closest_bisector b h' hd]

theorem pointsTwo_bisector (b : Polygon K) {c d u v : Pt K} (h : dist2 c u = dist2 c v) (h' : dist2 d u = dist2 d v) :
    ∀ r ∈ pointsTwo b c d, dist2 r u = dist2 r v := by
  have hd : (v.x - u.x) * (d.x - c.x) + (v.y - u.y) * (d.y - c.y) = 0 := by
    have := diff_bisector h h'
    linarith
  intro r hr
  unfold pointsTwo at hr
  split_ifs at hr
  · exact pointsTwoEnd_bisector b h h' r hr
  · exact pointsTwoEnd_bisector b (closest_bisector b h hd) h' r hr
  · simp at hr

omit [Field K] [IsStrictOrderedRing K] in
theorem mem_trianglesOf {tris : List (Triangle K)} {q : Edge K} {t : Triangle K} (h : t ∈ trianglesOf tris q) :
    t ∈ tris ∧ ∃ f ∈ t.edges, f.same q = true := by
  rw [trianglesOf, List.mem_flatMap] at h
  obtain ⟨s, hs, h⟩ := h
  rw [List.mem_map] at h
  obtain ⟨f, hf, rfl⟩ := h
  rw [List.mem_filter] at hf
  exact ⟨hs, f, hf⟩

/-- the ends of an edge of the triangle -/
theorem proper_edge {t : Triangle K} {a b c : Pt K} (ht : Proper t a b c) {f q : Edge K} (hf : f ∈ t.edges)
    (hs : f.same q = true) : q.p0 ≠ q.p1 ∧ (q.p0 = a ∨ q.p0 = b ∨ q.p0 = c) ∧ (q.p1 = a ∨ q.p1 = b ∨ q.p1 = c) := by
  obtain ⟨h1, h2, h3⟩ := ht.2.2 f hf
  simp only [Edge.same, decide_eq_true_eq] at hs
  rcases hs with ⟨e0, e1⟩ | ⟨e0, e1⟩
  · rw [← e0, ← e1]; exact ⟨h1, h2, h3⟩
  · rw [← e0, ← e1]; exact ⟨h1.symm, h3, h2⟩

theorem circumcentre_edge {t : Triangle K} {a b c o : Pt K} (ht : Proper t a b c) (ho : t.circumcenter = .ok o) {q : Edge K}
    (h0 : q.p0 = a ∨ q.p0 = b ∨ q.p0 = c) (h1 : q.p1 = a ∨ q.p1 = b ∨ q.p1 = c) : dist2 o q.p0 = dist2 o q.p1 := by
  obtain ⟨o', e, h⟩ := C91_circumcentre t a b c ht.1 ht.2.1
  rw [ho, Res.ok.injEq] at e
  subst e
  obtain ⟨h2, h3⟩ := h
  rcases h0 with h0 | h0 | h0 <;> rcases h1 with h1 | h1 | h1 <;> rw [h0, h1] <;> linarith

theorem edgePoints_bisector {b : Polygon K} {tris : List (Triangle K)} (ht : ∀ t ∈ tris, ∃ a b c, Proper t a b c)
    {q : Edge K} {l : List (Pt K)} (h : edgePoints b tris q = .ok l) :
    q.p0 ≠ q.p1 ∧ (∃ t ∈ tris, t.contains q.p0 = true ∧ t.contains q.p1 = true) ∧
      ∀ r ∈ l, dist2 r q.p0 = dist2 r q.p1 := by
  have key : ∀ t ∈ trianglesOf tris q, q.p0 ≠ q.p1 ∧ (t ∈ tris ∧ t.contains q.p0 = true ∧ t.contains q.p1 = true) ∧
      ∀ o, t.circumcenter = .ok o → dist2 o q.p0 = dist2 o q.p1 := by
    intro t h
    obtain ⟨m, f, hf, hs⟩ := mem_trianglesOf h
    obtain ⟨a, b, c, hp⟩ := ht t m
    obtain ⟨h1, h2, h3⟩ := proper_edge hp hf hs
    refine ⟨h1, ⟨m, ?_, ?_⟩, fun o ho => circumcentre_edge hp ho h2 h3⟩
    · rw [Triangle.contains, List.any_eq_true]
      refine ⟨f, hf, ?_⟩
      simp only [Edge.same, decide_eq_true_eq] at hs
      simp only [Edge.contains, decide_eq_true_eq]
      rcases hs with hs | hs
      exacts [.inl hs.1, .inr hs.2]
    · rw [Triangle.contains, List.any_eq_true]
      refine ⟨f, hf, ?_⟩
      simp only [Edge.same, decide_eq_true_eq] at hs
      simp only [Edge.contains, decide_eq_true_eq]
      rcases hs with hs | hs
      exacts [.inr hs.2, .inl hs.1]
  unfold edgePoints at h
  split at h
  · rename_i t e
    rw [e] at key
    obtain ⟨k1, k2, k3⟩ := key t (by simp)
    obtain ⟨o, ho, h⟩ := Res.bind_eq_ok h
    rw [Res.ok.injEq] at h
    subst h
    exact ⟨k1, ⟨t, k2⟩, pointsOne_bisector b t q k1 o (k3 o ho)⟩
  · rename_i t u e
    rw [e] at key
    obtain ⟨k1, k2, k3⟩ := key t (by simp)
    obtain ⟨-, -, k4⟩ := key u (by simp)
    obtain ⟨o, ho, h⟩ := Res.bind_eq_ok h
    obtain ⟨o', ho', h⟩ := Res.bind_eq_ok h
    rw [Res.ok.injEq] at h
    subst h
    exact ⟨k1, ⟨t, k2⟩, pointsTwo_bisector b (k3 o ho) (k4 o' ho')⟩
  · exact absurd h (by simp)

theorem voronoiPoints_mem {b : Polygon K} {tris : List (Triangle K)} :
    ∀ {qs : List (Edge K)} {l : List (Pt K)}, voronoiPoints b tris qs = .ok l →
      ∀ r ∈ l, ∃ q ∈ qs, ∃ l', edgePoints b tris q = .ok l' ∧ r ∈ l'
  | [], l, h, r, hr => by
    rw [voronoiPoints, Res.ok.injEq] at h
    subst h
    simp at hr
  | q :: qs, l, h, r, hr => by
    rw [voronoiPoints] at h
    obtain ⟨l1, h1, h⟩ := Res.bind_eq_ok h
    obtain ⟨l2, h2, h⟩ := Res.bind_eq_ok h
    rw [Res.ok.injEq] at h
    subst h
    rcases List.mem_append.1 hr with hr | hr
    · exact ⟨q, by simp, l1, h1, hr⟩
    · obtain ⟨q', m, l', e⟩ := voronoiPoints_mem h2 r hr
      exact ⟨q', by simp [m], l', e⟩

theorem pointOnBothEdges_mem {angle : Pt K → Pt K → K} {pts : List (Pt K)} {i j : Int} {w : Pt K}
    (h : (Polygon.make angle pts).pointOnBothEdges i j = .ok w) : w ∈ (Polygon.make angle pts).points := by
  have hedge : ∀ e ∈ (Polygon.make angle pts).edges, e.p0 ∈ (Polygon.make angle pts).points ∧
      e.p1 ∈ (Polygon.make angle pts).points := by
    intro e he
    simp only [Polygon.make, updateEdges, List.mem_map, List.mem_range] at he ⊢
    obtain ⟨k, hk, rfl⟩ := he
    have : (k + 1) % (sortUnique angle pts).length < (sortUnique angle pts).length := Nat.mod_lt _ (by omega)
    constructor
    · simp only [List.getD_eq_getElem _ _ hk]; exact List.getElem_mem _
    · simp only [List.getD_eq_getElem _ _ this]; exact List.getElem_mem _
  unfold Polygon.pointOnBothEdges at h
  split_ifs at h
  split at h
  · rename_i e1 e2 h1 h2
    have := hedge e1 (List.mem_of_getElem? h1)
    split_ifs at h
    · rw [Res.ok.injEq] at h; rw [← h]; exact this.1
    · rw [Res.ok.injEq] at h; rw [← h]; exact this.2
  · exact absurd h (by simp)

theorem addStep_mem {angle : Pt K → Pt K → K} (h10 : ∀ c p, -10 + 1 / 1000000 < angle c p) {bp : List (Pt K)} {ip : Pt K}
    {num i : Nat} {g : Polygon K} {r : Polygon K × Bool} (h : addStep angle (Polygon.make angle bp) ip num g i = .ok r) :
    ∀ p ∈ r.1.points, p ∈ g.points ∨ p ∈ (Polygon.make angle bp).points := by
  unfold addStep at h
  split at h
  · rename_i u v hu hv
    simp only at h
    by_cases h1 : (Polygon.make angle bp).edgeIndex u = -1 ∨ (Polygon.make angle bp).edgeIndex v = -1 ∨
        (Polygon.make angle bp).edgeIndex u = (Polygon.make angle bp).edgeIndex v
    · rw [if_pos h1, Res.ok.injEq] at h; rw [← h]; exact fun p hp => .inl hp
    · rw [if_neg h1] at h
      obtain ⟨w, hw, h⟩ := Res.bind_eq_ok h
      have hwm := pointOnBothEdges_mem hw
      by_cases h2 : (Polygon.make angle (g.points ++ [w])).pointIsInside ip = true
      · rw [if_pos h2, Res.ok.injEq] at h
        rw [← h]
        intro p hp
        rcases List.mem_append.1 ((C102_corners angle h10 _).1 p hp) with hp | hp
        · exact .inl hp
        · rw [List.mem_singleton] at hp; rw [hp]; exact .inr hwm
      · rw [if_neg h2] at h
        obtain ⟨others, ho, h⟩ := Res.bind_eq_ok h
        rw [Res.ok.injEq] at h
        rw [← h]
        intro p hp
        rcases List.mem_append.1 ((C102_corners angle h10 _).1 p hp) with hp | hp
        · exact .inl hp
        · unfold Polygon.otherPoints at ho
          split_ifs at ho
          rw [Res.ok.injEq] at ho
          rw [← ho] at hp
          exact .inr (List.mem_of_mem_erase hp)
  · exact absurd h (by simp)

theorem addLoop_mem {angle : Pt K → Pt K → K} (h10 : ∀ c p, -10 + 1 / 1000000 < angle c p) {bp : List (Pt K)} {ip : Pt K}
    {num : Nat} : ∀ (is : List Nat) {g r : Polygon K}, addLoop angle (Polygon.make angle bp) ip num is g = .ok r →
      ∀ p ∈ r.points, p ∈ g.points ∨ p ∈ (Polygon.make angle bp).points
  | [], g, r, h, p, hp => by
    rw [addLoop, Res.ok.injEq] at h
    rw [h]; exact .inl hp
  | i :: is, g, r, h, p, hp => by
    rw [addLoop] at h
    obtain ⟨s, hs, h⟩ := Res.bind_eq_ok h
    have k := addStep_mem h10 hs
    by_cases hb : s.2 = true
    · rw [if_pos hb, Res.ok.injEq] at h
      rw [← h] at hp
      exact k p hp
    · rw [if_neg hb] at h
      rcases addLoop_mem h10 is h p hp with hp | hp
      · exact k p hp
      · exact .inr hp

theorem addIntersection_mem {angle : Pt K → Pt K → K} (h10 : ∀ c p, -10 + 1 / 1000000 < angle c p) {bp : List (Pt K)}
    {ip : Pt K} {g r : Polygon K} (h : addIntersection angle (Polygon.make angle bp) ip g = .ok r) :
    ∀ p ∈ r.points, p ∈ g.points ∨ p ∈ (Polygon.make angle bp).points := by
  unfold addIntersection at h
  split_ifs at h
  · rw [Res.ok.injEq] at h; rw [← h]; exact fun p hp => .inl hp
  · exact addLoop_mem h10 _ h

/-- C106, cells: every corner of the cell of the point `p` is a corner of the boundary or has the same distance to `p` and
to another corner of a triangle that has `p`. -/
theorem C106_corner (E : Env K) (h10 : ∀ c p, -10 + 1 / 1000000 < E.angle c p) (hord : ∀ l e, e ∈ E.order l → e ∈ l)
    (bp : List (Pt K)) (tris : List (Triangle K)) (ht : ∀ t ∈ tris, ∃ a b c, Proper t a b c) (p : Pt K) (g : Polygon K)
    (h : cell E (Polygon.make E.angle bp) tris p = .ok g) :
    ∀ r ∈ g.points, r ∈ bp ∨
      ∃ q, q ≠ p ∧ (∃ t ∈ tris, t.contains p = true ∧ t.contains q = true) ∧ dist2 r p = dist2 r q := by
  unfold cell at h
  obtain ⟨l, hl, h⟩ := Res.bind_eq_ok h
  intro r hr
  rcases addIntersection_mem h10 h r hr with hr | hr
  · right
    obtain ⟨q, hq, l', he, hm⟩ := voronoiPoints_mem hl r ((C102_corners E.angle h10 _).1 r hr)
    obtain ⟨h1, ⟨t, mt, t0, t1⟩, h3⟩ := edgePoints_bisector ht he
    have hc := (List.mem_filter.1 hq).2
    simp only [Edge.contains, decide_eq_true_eq] at hc
    rcases hc with hc | hc
    · subst hc
      exact ⟨q.p1, h1.symm, ⟨t, mt, t0, t1⟩, h3 r hm⟩
    · subst hc
      exact ⟨q.p0, h1, ⟨t, mt, t1, t0⟩, (h3 r hm).symm⟩
  · exact .inl ((C102_corners E.angle h10 _).1 r hr)

/-- C106, inner cells: if every edge of the point `p` belongs to two triangles, the circumcentres of its triangles are inside
of the boundary and the circumcircles of the triangles contain no points, then no point is nearer to a corner of the cell of `p`
than `p`.  (Corners of the boundary can be added to the cell.) -/
theorem C106_nearest_partial (E : Env K) (h10 : ∀ c p, -10 + 1 / 1000000 < E.angle c p)
    (bp : List (Pt K)) (pts : List (Pt K)) (tris : List (Triangle K)) (ht : ∀ t ∈ tris, ∃ a b c, Proper t a b c)
    (hempty : ∀ t ∈ tris, ∀ o, t.circumcenter = .ok o → ∀ v, t.contains v = true → ∀ s ∈ pts, dist2 o v ≤ dist2 o s)
    (p : Pt K)
    (htwo : ∀ e ∈ E.order (edgeKeys tris), e.contains p = true → (trianglesOf tris e).length = 2)
    (hin : ∀ t ∈ tris, t.contains p = true → ∀ o, t.circumcenter = .ok o →
      (Polygon.make E.angle bp).pointIsInside o = true)
    (g : Polygon K) (h : cell E (Polygon.make E.angle bp) tris p = .ok g) :
    ∀ r ∈ g.points, r ∈ bp ∨ ∀ s ∈ pts, dist2 r p ≤ dist2 r s := by
  unfold cell at h
  obtain ⟨l, hl, h⟩ := Res.bind_eq_ok h
  intro r hr
  rcases addIntersection_mem h10 h r hr with hr | hr
  · right
    obtain ⟨q, hq, l', he, hm⟩ := voronoiPoints_mem hl r ((C102_corners E.angle h10 _).1 r hr)
    obtain ⟨hq, hc⟩ := List.mem_filter.1 hq
    have h2 := htwo q hq hc
    have key : ∀ t ∈ trianglesOf tris q, t ∈ tris ∧ t.contains p = true := by
      intro t h
      obtain ⟨m, f, hf, hs⟩ := mem_trianglesOf h
      refine ⟨m, ?_⟩
      rw [Triangle.contains, List.any_eq_true]
      refine ⟨f, hf, ?_⟩
      simp only [Edge.same, decide_eq_true_eq] at hs
      simp only [Edge.contains, decide_eq_true_eq] at hc ⊢
      rcases hs with ⟨a1, a2⟩ | ⟨a1, a2⟩ <;> rw [a1, a2]
      exacts [hc, hc.symm]
    unfold edgePoints at he
    split at he
    · rename_i t e
      rw [e] at h2
      simp at h2
    · rename_i t u e
      rw [e] at key
      obtain ⟨t1, t2⟩ := key t (by simp)
      obtain ⟨u1, u2⟩ := key u (by simp)
      obtain ⟨o, ho, he⟩ := Res.bind_eq_ok he
      obtain ⟨o', ho', he⟩ := Res.bind_eq_ok he
      rw [Res.ok.injEq] at he
      rw [← he, pointsTwo, if_pos (hin t t1 t2 o ho), pointsTwoEnd, if_pos (hin u u1 u2 o' ho')] at hm
      simp only [List.mem_cons, List.not_mem_nil, or_false] at hm
      rcases hm with rfl | rfl
      · exact hempty t t1 r ho p t2
      · exact hempty u u1 r ho' p u2
    · exact absurd he (by simp)
  · exact .inl ((C102_corners E.angle h10 _).1 r hr)

/-! ### The transformed system -/

omit [LinearOrder K] [IsStrictOrderedRing K] in
/-- C106: `TransformInverse` undoes `Transform`. -/
theorem C106_transform (E : Env K) (hr : E.root ≠ 0) (l : List (Pt K)) :
    transformInverse E (transform E l) = l ∧ transform E (transformInverse E l) = l := by
  constructor
  · rw [transformInverse, transform, List.map_map]
    refine (List.map_congr_left fun p _ => ?_).trans (List.map_id l)
    obtain ⟨x, y⟩ := p
    simp only [Function.comp, id, Pt.mk.injEq]
    rw [one_mul, mul_zero, sub_zero, neg_zero, zero_div, zero_mul, zero_add, div_self hr]
    constructor <;> field_simp <;> ring
  · rw [transformInverse, transform, List.map_map]
    refine (List.map_congr_left fun p _ => ?_).trans (List.map_id l)
    obtain ⟨x, y⟩ := p
    simp only [Function.comp, id, Pt.mk.injEq]
    rw [one_mul, mul_zero, sub_zero, neg_zero, zero_div, zero_mul, zero_add, div_self hr]
    constructor <;> field_simp <;> ring

/-- C106: the transformed system is the one in which the reference triangle is equilateral. -/
theorem C106_equilateral (E : Env K) (hr : E.root * E.root = 3 / 4) :
    ∃ a b c, transform E [⟨0, 0⟩, ⟨1, 0⟩, ⟨0, 1⟩] = [a, b, c] ∧ dist2 a b = 1 ∧ dist2 b c = 1 ∧ dist2 c a = 1 := by
  refine ⟨_, _, _, rfl, ?_, ?_, ?_⟩ <;> simp only [dist2]
  · ring
  · linear_combination hr
  · linear_combination hr

/-! ### Visualisation -/

/-- Objects a user can have: made, with boundaries, after queries that did not end in undefined behaviour -/
inductive Reach (E : Env K) : Obj K → Prop
  | make (pts : List (Pt K)) (b : Bool) : Reach E (Obj.make E pts b)
  | boundary (o : Obj K) (pts : List (Pt K)) : Reach E o → Reach E (o.setBoundary E pts)
  | cells (o : Obj K) : Reach E o → (o.getCells E).2 ≠ .ub → Reach E (o.getCells E).1
  | polygon (o : Obj K) : Reach E o → (o.visuPolygon E).2 ≠ .ub → Reach E (o.visuPolygon E).1
  | triangle (o : Obj K) : Reach E o → (o.visuTriangle E).2 ≠ .ub → Reach E (o.visuTriangle E).1

omit [IsStrictOrderedRing K] in
theorem cellsLoop_length (E : Env K) (b : Polygon K) (tris : List (Triangle K)) (ps : List (Pt K))
    (h : (cellsLoop E b tris ps).2 ≠ .ub) : (cellsLoop E b tris ps).1.length = ps.length := by
  induction ps with
  | nil => rfl
  | cons p ps ih =>
    rw [cellsLoop] at h ⊢
    cases hc : cell E b tris p with
    | ok g => rw [hc] at h; simp only [List.length_cons] at *; rw [ih h]
    | throw => simp
    | ub => rw [hc] at h; exact absurd rfl h

omit [IsStrictOrderedRing K] in
theorem ensure_inv (E : Env K) (o : Obj K) (hi : o.cells = [] ∨ o.cells.length = o.points.length)
    (h : (o.ensure E).2 ≠ .ub) :
    (o.ensure E).1.points = o.points ∧
    ((o.ensure E).1.cells = [] ∨ (o.ensure E).1.cells.length = o.points.length) ∧
    ((o.ensure E).2 = .ok () → (o.ensure E).1.cells.length = o.points.length) := by
  unfold Obj.ensure at *
  by_cases h0 : o.cells.length = 0
  · rw [if_pos h0] at h ⊢
    unfold Obj.calculateVoronoi at *
    by_cases hb : o.boundary.points.length = 0
    · rw [if_pos hb]
      exact ⟨rfl, hi, fun h => absurd h (by simp)⟩
    · rw [if_neg hb] at h ⊢
      cases ht : (if o.triangulation.length = 0 then E.triangulate o.points else .ok o.triangulation) with
      | ok tris =>
        rw [ht] at h
        have := cellsLoop_length E o.boundary tris o.points h
        exact ⟨rfl, .inr this, fun _ => this⟩
      | throw => exact ⟨rfl, .inr (by simp), fun h => absurd h (by simp)⟩
      | ub => rw [ht] at h; exact absurd rfl h
  · rw [if_neg h0]
    rcases hi with hi | hi
    · rw [hi] at h0; simp at h0
    · exact ⟨rfl, .inr hi, fun _ => hi⟩

omit [IsStrictOrderedRing K] in
theorem reach_inv (E : Env K) (o : Obj K) (h : Reach E o) : o.cells = [] ∨ o.cells.length = o.points.length := by
  have key : ∀ o : Obj K, (o.cells = [] ∨ o.cells.length = o.points.length) → (o.ensure E).2 ≠ .ub →
      (o.ensure E).1.cells = [] ∨ (o.ensure E).1.cells.length = (o.ensure E).1.points.length := by
    intro o hi h
    obtain ⟨h1, h2, -⟩ := ensure_inv E o hi h
    rw [h1]; exact h2
  induction h with
  | make pts b => exact .inl rfl
  | boundary o pts _ ih => exact ih
  | cells o _ hn ih =>
    refine key o ih fun hu => hn ?_
    simp only [Obj.getCells, hu, Res.bind_ub']
  | polygon o _ hn ih =>
    refine key o ih fun hu => hn ?_
    simp only [Obj.visuPolygon, hu, Res.bind_ub']
  | triangle o _ hn ih =>
    refine key o ih fun hu => hn ?_
    simp only [Obj.visuTriangle, Obj.visuPolygon, hu, Res.bind_ub']

omit [Field K] [IsStrictOrderedRing K] in
theorem uniq_spec (l : List (Pt K)) : ∀ acc : List (Pt K), acc.Nodup →
    (l.foldl (fun l p => if p ∈ l then l else l ++ [p]) acc).Nodup ∧
      ∀ p, p ∈ l.foldl (fun l p => if p ∈ l then l else l ++ [p]) acc ↔ p ∈ acc ∨ p ∈ l := by
  induction l with
  | nil => intro acc h; simp [h]
  | cons q l ih =>
    intro acc h
    rw [List.foldl_cons]
    by_cases hq : q ∈ acc
    · rw [if_pos hq]
      refine ⟨(ih acc h).1, fun p => ?_⟩
      rw [(ih acc h).2, List.mem_cons]
      constructor
      · rintro (h | h); exacts [.inl h, .inr (.inr h)]
      · rintro (h | rfl | h); exacts [.inl h, .inl hq, .inr h]
    · rw [if_neg hq]
      have hn : (acc ++ [q]).Nodup := by
        rw [List.nodup_append]
        refine ⟨h, by simp, ?_⟩
        intro a ha b hb
        rw [List.mem_singleton] at hb
        rintro rfl
        exact hq (hb ▸ ha)
      refine ⟨(ih _ hn).1, fun p => ?_⟩
      rw [(ih _ hn).2, List.mem_append, List.mem_singleton, List.mem_cons, or_assoc]

/-- Coordinates of points of the visualisation in the system of the cells -/
def inSystem (E : Env K) (transformed : Bool) (l : List (Pt K)) : List (Pt K) := if transformed then transform E l else l

/-- The point with an index -/
def pick (P : List (Pt K)) (k : Nat) : Pt K := P.getD k ⟨0, 0⟩

omit [LinearOrder K] [IsStrictOrderedRing K] in
theorem inSystem_map (E : Env K) (b : Bool) : ∃ f : Pt K → Pt K, ∀ l, inSystem E b l = l.map f := by
  cases b
  · exact ⟨id, fun l => by simp [inSystem]⟩
  · exact ⟨_, fun l => rfl⟩

omit [IsStrictOrderedRing K] in
/-- C106, visualisation: the points of `CalculateVisualizationCellsPolygon` are different, and the indices of cell `i` are
those of the corners of Voronoi cell `i`, in their order (in the system of the user; the cells are in the system of the
calculation).  There are no other points. -/
theorem C106_visualisation (E : Env K) (hr : E.root ≠ 0) (o o' : Obj K) (ho : Reach E o) (cells : List (Polygon K))
    (hg : o.getCells E = (o', .ok cells)) :
    ∃ P ix, o.visuPolygon E = (o', .ok (P, ix)) ∧ P.Nodup ∧ cells.length = o.points.length ∧ ix.length = o.points.length ∧
      (∀ i < ix.length, (∀ k ∈ ix.getD i [], k < P.length) ∧
        inSystem E o'.transformed ((ix.getD i []).map (pick P)) = (cells.getD i ⟨[], []⟩).points) ∧
      ∀ k < P.length, ∃ i < ix.length, k ∈ ix.getD i [] := by
  have e1 : (o.ensure E).1 = o' := congrArg Prod.fst hg
  have e2 : (o.ensure E).2 = .ok () := by
    have := congrArg Prod.snd hg
    simp only [Obj.getCells] at this
    obtain ⟨u, hu, -⟩ := Res.bind_eq_ok this
    exact hu
  have e3 : o'.cells = cells := by
    have := congrArg Prod.snd hg
    simp only [Obj.getCells, e2, Res.bind_ok', e1, Res.ok.injEq] at this
    exact this
  obtain ⟨i1, -, i3⟩ := ensure_inv E o (reach_inv E o ho) (by rw [e2]; simp)
  have i4 := i3 e2
  rw [e1] at i1 i4
  rw [e3] at i4
  obtain ⟨u1, u2⟩ := uniq_spec (cells.flatMap Polygon.points) [] List.nodup_nil
  obtain ⟨V, hV⟩ : ∃ V, V = visuPoints cells := ⟨_, rfl⟩
  have v1 : V.Nodup := by rw [hV]; exact u1
  have v2 : ∀ p, p ∈ V ↔ p ∈ cells.flatMap Polygon.points := by
    intro p; rw [hV]; exact (u2 p).trans (by simp)
  have hlen : (if o'.transformed then transformInverse E V else V).length = V.length := by
    cases o'.transformed <;> simp [transformInverse]
  have hin : inSystem E o'.transformed (if o'.transformed then transformInverse E V else V) = V := by
    cases o'.transformed
    · simp [inSystem]
    · simp only [inSystem, if_true]; exact (C106_transform E hr V).2
  obtain ⟨f, hf⟩ := inSystem_map E o'.transformed
  obtain ⟨P, hP⟩ : ∃ P, P = (if o'.transformed then transformInverse E V else V) := ⟨_, rfl⟩
  rw [← hP] at hin hlen
  have hix : (cells.map fun g => g.points.map fun p => V.idxOf p).length = o.points.length := by simp [i4]
  refine ⟨P, cells.map fun g => g.points.map fun p => V.idxOf p, ?_, ?_, i4, hix, ?_, ?_⟩
  · simp only [Obj.visuPolygon, e1, e2, e3, Res.bind_ok', ← hV, visuCells, i1, i4, le_refl, if_true, hP]
    rw [← i4, List.take_length]
  · rw [hf] at hin
    rw [← hin] at v1
    exact List.Nodup.of_map f v1
  · intro i hi
    have hi' : i < cells.length := by simpa using hi
    have e : (cells.map fun g => g.points.map fun p => V.idxOf p).getD i [] = cells[i].points.map fun p => V.idxOf p := by
      rw [List.getD_eq_getElem _ _ hi, List.getElem_map]
    have hm : ∀ p ∈ cells[i].points, p ∈ V := fun p hp =>
      (v2 p).2 (List.mem_flatMap.2 ⟨cells[i], List.getElem_mem _, hp⟩)
    rw [e]
    constructor
    · intro k hk
      obtain ⟨p, hp, rfl⟩ := List.mem_map.1 hk
      rw [hlen]
      exact List.idxOf_lt_length_of_mem (hm p hp)
    · rw [hf, List.map_map, List.map_map, List.getD_eq_getElem _ _ hi']
      refine (List.map_congr_left fun p hp => ?_).trans (List.map_id _)
      have hk := List.idxOf_lt_length_of_mem (hm p hp)
      have hk' : V.idxOf p < P.length := by rw [hlen]; exact hk
      simp only [Function.comp, pick, List.getD_eq_getElem _ _ hk', id]
      have : V[V.idxOf p]'hk = p := List.getElem_idxOf hk
      refine Eq.trans ?_ this
      have h2 : V[V.idxOf p]'hk = (P.map f)[V.idxOf p]'(by rw [List.length_map]; exact hk') := by
        simp only [← hf, hin]
      rw [h2, List.getElem_map]
  · intro k hk
    have hk' : k < V.length := by rw [← hlen]; exact hk
    obtain ⟨g, hg, hp⟩ := List.mem_flatMap.1 ((v2 _).1 (List.getElem_mem hk'))
    obtain ⟨i, hi, rfl⟩ := List.getElem_of_mem hg
    refine ⟨i, by simpa using hi, ?_⟩
    rw [List.getD_eq_getElem _ _ (by simpa using hi), List.getElem_map, List.mem_map]
    exact ⟨V[k], hp, v1.idxOf_getElem k hk'⟩

/-! ### Triangles -/

/-- the triangles of a cell with corners `p0 :: rest` -/
def fanList (i p0 : Nat) (rest : List Nat) : List ((Nat × Nat × Nat) × Nat) :=
  (rest.zip rest.tail).map fun q => ((p0, q.1, q.2), i)

theorem fans_spec (gs : List (List Nat)) : ∀ (i : Nat), (∀ g ∈ gs, g ≠ []) → ∃ T, fans i gs = .ok T ∧
    (∀ t ∈ T, i ≤ t.2 ∧ t.2 < i + gs.length) ∧
    ∀ j, ∀ hj : j < gs.length, ∃ p0 rest, gs[j] = p0 :: rest ∧ T.filter (fun t => t.2 == i + j) = fanList (i + j) p0 rest := by
  induction gs with
  | nil => intro i _; exact ⟨[], rfl, by simp, by simp⟩
  | cons g gs ih =>
    intro i h
    obtain ⟨T, h1, h2, h3⟩ := ih (i + 1) (fun g hg => h g (by simp [hg]))
    cases g with
    | nil => exact absurd rfl (h [] (by simp))
    | cons p0 rest =>
      have hfan : ∀ t ∈ fanList i p0 rest, t.2 = i := by
        intro t ht
        obtain ⟨q, -, rfl⟩ := List.mem_map.1 ht
        rfl
      refine ⟨fanList i p0 rest ++ T, ?_, ?_, ?_⟩
      · rw [fans, h1]; rfl
      · intro t ht
        rcases List.mem_append.1 ht with ht | ht
        · have := hfan t ht; simp only [List.length_cons]; omega
        · have := h2 t ht; simp only [List.length_cons]; omega
      · intro j hj
        cases j with
        | zero =>
          refine ⟨p0, rest, rfl, ?_⟩
          rw [List.filter_append, Nat.add_zero]
          rw [List.filter_eq_self.2 (fun t ht => by simp [hfan t ht])]
          rw [List.filter_eq_nil_iff.2 (fun t ht => by have := h2 t ht; simp; omega), List.append_nil]
        | succ j =>
          obtain ⟨q0, r, e1, e2⟩ := h3 j (by simpa using hj)
          refine ⟨q0, r, by simpa using e1, ?_⟩
          rw [List.filter_append, List.filter_eq_nil_iff.2 (fun t ht => by have := hfan t ht; simp; omega), List.nil_append]
          rw [show i + (j + 1) = i + 1 + j by omega]
          exact e2

omit [LinearOrder K] [IsStrictOrderedRing K] in
theorem telescope (Q : Nat → Pt K) (m : Nat) :
    ((List.range m).map fun k => area2 (Q 0) (Q (k + 1)) (Q (k + 2))).sum =
      ((Q 0).x * (Q 1).y - (Q 1).x * (Q 0).y) + ((List.range m).map fun k =>
        (Q (k + 1)).x * (Q (k + 2)).y - (Q (k + 2)).x * (Q (k + 1)).y).sum +
        ((Q (m + 1)).x * (Q 0).y - (Q 0).x * (Q (m + 1)).y) := by
  induction m with
  | zero => simp
  | succ m ih =>
    rw [List.range_succ, List.map_append, List.sum_append, List.map_append, List.sum_append, ih]
    simp only [List.map_cons, List.map_nil, List.sum_cons, List.sum_nil, area2]
    ring

omit [LinearOrder K] [IsStrictOrderedRing K] in
theorem fan_area (D : Nat → Pt K) (i p0 : Nat) (rest : List Nat) :
    ((fanList i p0 rest).map fun t => area2 (D t.1.1) (D t.1.2.1) (D t.1.2.2)).sum = shoelace ((p0 :: rest).map D) := by
  have hz : rest.zip rest.tail = (List.range (rest.length - 1)).map fun k => (rest.getD k 0, rest.getD (k + 1) 0) := by
    apply List.ext_getElem
    · simp
    · intro k h1 h2
      simp only [List.length_map, List.length_range] at h2
      simp only [List.getElem_zip, List.getElem_tail, List.getElem_map, List.getElem_range]
      rw [List.getD_eq_getElem _ _ (by omega), List.getD_eq_getElem _ _ (by omega)]
  rw [fanList, hz, List.map_map, List.map_map]
  have hQ0 : corner ((p0 :: rest).map D) 0 = D p0 := by simp [corner]
  cases rest with
  | nil => simp [shoelace, corner]
  | cons r0 rest =>
    simp only [List.length_cons, Nat.add_sub_cancel]
    have hc : ∀ k, k ≤ rest.length → corner ((p0 :: r0 :: rest).map D) (k + 1) = D ((r0 :: rest).getD k 0) := by
      intro k hk
      rw [corner]
      have : (k + 1) % ((p0 :: r0 :: rest).map D).length = k + 1 := Nat.mod_eq_of_lt (by simp; omega)
      rw [this, List.getD_eq_getElem _ _ (by simp; omega), List.getElem_map, List.getElem_cons_succ,
        List.getD_eq_getElem _ _ (by simp; omega)]
    have h0 : corner ((p0 :: r0 :: rest).map D) (rest.length + 2) = corner ((p0 :: r0 :: rest).map D) 0 := by
      simp [corner]
    have t := telescope (corner ((p0 :: r0 :: rest).map D)) rest.length
    have hl : ((p0 :: r0 :: rest).map D).length = rest.length + 2 := by simp
    obtain ⟨L, hL⟩ : ∃ L, L = (p0 :: r0 :: rest).map D := ⟨_, rfl⟩
    rw [← hL] at hc h0 t hl hQ0 ⊢
    rw [shoelace, hl, List.range_succ, List.map_append, List.sum_append, List.range_succ_eq_map, List.map_cons, List.sum_cons,
      List.map_map]
    simp only [List.map_cons, List.map_nil, List.sum_cons, List.sum_nil, add_zero]
    rw [show rest.length + 1 + 1 = rest.length + 2 from rfl, h0]
    refine Eq.trans ?_ (t.trans ?_)
    · congr 1
      refine List.map_congr_left fun k hk => ?_
      rw [List.mem_range] at hk
      simp only [Function.comp]
      rw [hc k (by omega), hc (k + 1) (by omega), hQ0]
    · congr 1

omit [IsStrictOrderedRing K] in
/-- C106, triangles: if all cells have corners, `CalculateVisualizationCellsTriangle` divides cell `i` with `n` corners into
`n - 2` triangles of its corners, which are marked with `i`.  Their signed areas add up to the one of the cell. -/
theorem C106_triangles (E : Env K) (o o' : Obj K) (P : List (Pt K)) (ix : List (List Nat))
    (hp : o.visuPolygon E = (o', .ok (P, ix))) (hne : ∀ g ∈ ix, g ≠ []) :
    ∃ T, o.visuTriangle E = (o', .ok (P, T)) ∧ (∀ t ∈ T, t.2 < ix.length) ∧
      ∀ i < ix.length,
        (T.filter fun t => t.2 == i).length = (ix.getD i []).length - 2 ∧
        (∀ t ∈ T, t.2 = i → t.1.1 ∈ ix.getD i [] ∧ t.1.2.1 ∈ ix.getD i [] ∧ t.1.2.2 ∈ ix.getD i []) ∧
        ((T.filter fun t => t.2 == i).map fun t => area2 (pick P t.1.1) (pick P t.1.2.1) (pick P t.1.2.2)).sum =
          shoelace ((ix.getD i []).map (pick P)) := by
  obtain ⟨T, h1, h2, h3⟩ := fans_spec ix 0 hne
  refine ⟨T, ?_, fun t ht => by simpa using (h2 t ht).2, ?_⟩
  · simp only [Obj.visuTriangle, hp, Res.bind_ok', h1]
  · intro i hi
    obtain ⟨p0, rest, e1, e2⟩ := h3 i hi
    rw [Nat.zero_add] at e2
    rw [List.getD_eq_getElem _ _ hi, e1, e2]
    refine ⟨?_, ?_, fan_area (pick P) i p0 rest⟩
    · simp [fanList]
    · intro t ht hti
      have hm : t ∈ T.filter (fun t => t.2 == i) := List.mem_filter.2 ⟨ht, by simp [hti]⟩
      rw [e2] at hm
      obtain ⟨q, hq, rfl⟩ := List.mem_map.1 hm
      have hq' := List.of_mem_zip hq
      refine ⟨by simp, by simp [hq'.1], ?_⟩
      simp only [List.mem_cons]
      exact .inr (List.mem_of_mem_tail hq'.2)

/-! ### What fails -/

omit [IsStrictOrderedRing K] in
/-- Fails: the boundary that was set last is the one of the cells.  After a first query it is not used. -/
theorem C106_stale_counterexample (E : Env K) (o : Obj K) (pts : List (Pt K)) (h : o.cells ≠ []) :
    ((o.setBoundary E pts).getCells E).2 = .ok o.cells := by
  have : o.cells.length ≠ 0 := by simpa using h
  have e : (o.setBoundary E pts).ensure E = (o.setBoundary E pts, .ok ()) := if_neg this
  rw [Obj.getCells, e]
  rfl

/-- an angle of rational points that increases with `atan2(dx, dy)` -/
def diamondAngle (c p : Pt ℚ) : ℚ :=
  let dx := p.x - c.x
  let dy := p.y - c.y
  if dx = 0 ∧ dy = 0 then 0 else
  if dx ≥ 0 then 1 - dy / (|dx| + |dy|) else -(1 - dy / (|dx| + |dy|))

/-- the triangulation without the super triangles -/
def keptTriangles : List (Pt ℚ) → Res (List (Triangle ℚ))
  | [] => .ub
  | p :: ps => (withSuperPoints (p :: ps)).bind fun s =>
      .ok ((kept (superPoints (superBounds (bounds p (p :: ps)))) s.nodes).map Node.tri)

def exEnv : Env ℚ := ⟨diamondAngle, id, 7 / 8, keptTriangles⟩

def exSquare : List (Pt ℚ) := [⟨-10, -10⟩, ⟨10, -10⟩, ⟨10, 10⟩, ⟨-10, 10⟩]

def exThree : Obj ℚ := (Obj.make exEnv [⟨0, 5⟩, ⟨-3, -4⟩, ⟨3, -4⟩] false).setBoundary exEnv exSquare

/-- how a query ended, with the corners of the cells -/
def outcome (r : Res (List (Polygon ℚ))) : Res (List (List (Pt ℚ))) := r.bind fun l => .ok (l.map Polygon.points)

/-- Fails: for three points in a square the cells are calculated.  A cell that contains two corners of the square ends in an
exception. -/
theorem C106_exception_counterexample : (exThree.getCells exEnv).2 = .throw := by
  have : outcome (exThree.getCells exEnv).2 = .throw := by decide +kernel
  cases h : (exThree.getCells exEnv).2 with
  | ok l => rw [h] at this; exact absurd this (by simp [outcome])
  | throw => rfl
  | ub => rw [h] at this; exact absurd this (by simp [outcome])

/-- Fails: a failed query is repeated.  The second query succeeds; its cells have no corners. -/
theorem C106_retry_counterexample :
    outcome ((exThree.getCells exEnv).1.getCells exEnv).2 = .ok [[], [], []] := by
  decide +kernel

/-- Fails: the triangles of the visualisation are defined for what `GetVoronoiCells` returns; a cell without corners is read
out of range. -/
theorem C106_empty_counterexample : ((exThree.getCells exEnv).1.visuTriangle exEnv).2 = .ub := by
  have : (((exThree.getCells exEnv).1.visuTriangle exEnv).2.bind fun _ => .ok ()) = .ub := by decide +kernel
  cases h : ((exThree.getCells exEnv).1.visuTriangle exEnv).2 with
  | ok l => rw [h] at this; exact absurd this (by simp)
  | throw => rw [h] at this; exact absurd this (by simp)
  | ub => rfl

/-- three corners of a right-angled triangle -/
def exRight : Obj ℚ := (Obj.make exEnv [⟨0, 0⟩, ⟨2, 0⟩, ⟨0, 2⟩] false).setBoundary exEnv exSquare

/-- Fails: the corners of a cell are as near to its point as to all others.  For a right-angled triangle the direction at the
longest edge can point to the inside: the cell of `(2, 0)` has the corner `(-10, -10)`, which is nearer to `(0, 0)`. -/
theorem C106_right_counterexample :
    outcome (exRight.getCells exEnv).2 = .ok [[⟨-10, -10⟩, ⟨-10, 1⟩, ⟨1, 1⟩, ⟨1, -10⟩],
      [⟨-10, -10⟩, ⟨-10, 10⟩, ⟨1, 1⟩, ⟨10, 10⟩, ⟨10, -10⟩, ⟨1, -10⟩], [⟨-10, -10⟩, ⟨-10, 1⟩, ⟨1, 1⟩]] ∧
    dist2 (⟨-10, -10⟩ : Pt ℚ) ⟨0, 0⟩ < dist2 (⟨-10, -10⟩ : Pt ℚ) ⟨2, 0⟩ := by
  constructor
  · decide +kernel
  · norm_num [dist2]

/-- five points, one in the middle of the others -/
def exFive : List (Pt ℚ) := [⟨0, 0⟩, ⟨4, 1⟩, ⟨-1, 4⟩, ⟨-4, -1⟩, ⟨1, -4⟩]

def exTris : List (Triangle ℚ) :=
  [⟨⟨⟨4, 1⟩, ⟨0, 0⟩⟩, ⟨⟨-1, 4⟩, ⟨4, 1⟩⟩, ⟨⟨-1, 4⟩, ⟨0, 0⟩⟩⟩, ⟨⟨⟨-1, 4⟩, ⟨0, 0⟩⟩, ⟨⟨-4, -1⟩, ⟨-1, 4⟩⟩, ⟨⟨-4, -1⟩, ⟨0, 0⟩⟩⟩,
    ⟨⟨⟨4, 1⟩, ⟨0, 0⟩⟩, ⟨⟨1, -4⟩, ⟨4, 1⟩⟩, ⟨⟨1, -4⟩, ⟨0, 0⟩⟩⟩, ⟨⟨⟨-4, -1⟩, ⟨0, 0⟩⟩, ⟨⟨1, -4⟩, ⟨-4, -1⟩⟩, ⟨⟨1, -4⟩, ⟨0, 0⟩⟩⟩]

/-- the result of a calculation that ended well -/
def results {α : Type} : Res α → List α
  | .ok a => [a]
  | _ => []

theorem exTris_proper : ∀ t ∈ exTris, ∃ a b c, Proper t a b c := by
  have h : ∀ t ∈ exTris, ∃ q ∈ results t.uniquePoints, orient q.1 q.2.1 q.2.2 ≠ 0 ∧
      ∀ e ∈ t.edges, e.p0 ≠ e.p1 ∧ (e.p0 = q.1 ∨ e.p0 = q.2.1 ∨ e.p0 = q.2.2) ∧
        (e.p1 = q.1 ∨ e.p1 = q.2.1 ∨ e.p1 = q.2.2) := by unfold orient; decide +kernel
  intro t ht
  obtain ⟨q, hq, h2, h3⟩ := h t ht
  refine ⟨q.1, q.2.1, q.2.2, ?_, h2, h3⟩
  cases hu : t.uniquePoints with
  | ok r => rw [hu] at hq; simp only [results, List.mem_singleton] at hq; rw [hq]
  | throw => rw [hu] at hq; simp [results] at hq
  | ub => rw [hu] at hq; simp [results] at hq

theorem diamondAngle_bound (c p : Pt ℚ) : -10 + 1 / 1000000 < diamondAngle c p := by
  unfold diamondAngle
  simp only
  obtain ⟨x, hx⟩ : ∃ x, x = p.x - c.x := ⟨_, rfl⟩
  obtain ⟨y, hy⟩ : ∃ y, y = p.y - c.y := ⟨_, rfl⟩
  rw [← hx, ← hy]
  have k1 : y / (|x| + |y|) ≤ 1 := div_le_one_of_le₀ (by linarith [le_abs_self y, abs_nonneg x]) (by positivity)
  have k2 : -1 ≤ y / (|x| + |y|) := by
    rw [neg_le, ← neg_div]
    exact div_le_one_of_le₀ (by linarith [neg_le_abs y, abs_nonneg x]) (by positivity)
  split_ifs
  · norm_num
  · linarith
  · linarith

/-- The hypotheses of `C106_corner` and `C106_nearest_partial` for the point in the middle of the others: its cell is a
square, and no point is nearer to its corners. -/
example : ∃ g, cell exEnv (Polygon.make diamondAngle exSquare) exTris ⟨0, 0⟩ = .ok g ∧
    g.points = [⟨-3 / 2, -5 / 2⟩, ⟨-5 / 2, 3 / 2⟩, ⟨3 / 2, 5 / 2⟩, ⟨5 / 2, -3 / 2⟩] ∧
    ∀ r ∈ g.points, r ∈ exSquare ∨ ∀ s ∈ exFive, dist2 r ⟨0, 0⟩ ≤ dist2 r s := by
  have h : outcome ((cell exEnv (Polygon.make diamondAngle exSquare) exTris ⟨0, 0⟩).bind fun g => .ok [g]) =
      .ok [[⟨-3 / 2, -5 / 2⟩, ⟨-5 / 2, 3 / 2⟩, ⟨3 / 2, 5 / 2⟩, ⟨5 / 2, -3 / 2⟩]] := by decide +kernel
  cases hc : cell exEnv (Polygon.make diamondAngle exSquare) exTris ⟨0, 0⟩ with
  | throw => rw [hc] at h; simp [outcome] at h
  | ub => rw [hc] at h; simp [outcome] at h
  | ok g =>
    rw [hc] at h
    simp only [outcome, Res.bind_ok', List.map_cons, List.map_nil, Res.ok.injEq, List.cons.injEq, and_true] at h
    refine ⟨g, rfl, h, ?_⟩
    refine C106_nearest_partial exEnv diamondAngle_bound exSquare exFive exTris exTris_proper ?_ ⟨0, 0⟩ ?_ ?_ g hc
    · have key : ∀ t ∈ exTris, ∀ o ∈ results t.circumcenter, ∀ e ∈ t.edges, ∀ s ∈ exFive,
          dist2 o e.p0 ≤ dist2 o s ∧ dist2 o e.p1 ≤ dist2 o s := by unfold dist2; decide +kernel
      intro t ht o ho v hv s hs
      rw [Triangle.contains, List.any_eq_true] at hv
      obtain ⟨e, he, hv⟩ := hv
      obtain ⟨k1, k2⟩ := key t ht o (by rw [ho]; simp [results]) e he s hs
      simp only [Edge.contains, decide_eq_true_eq] at hv
      rcases hv with rfl | rfl
      exacts [k1, k2]
    · show ∀ e ∈ edgeKeys exTris, e.contains ⟨0, 0⟩ = true → (trianglesOf exTris e).length = 2
      decide +kernel
    · have key : ∀ t ∈ exTris, ∀ o ∈ results t.circumcenter,
          (Polygon.make diamondAngle exSquare).pointIsInside o = true := by decide +kernel
      intro t ht _ o ho
      exact key t ht o (by rw [ho]; simp [results])

/-- The hypotheses of `C106_visualisation` and `C106_triangles`: the cells of the right-angled triangle -/
example : Reach exEnv exRight ∧ exEnv.root ≠ 0 ∧
    (exRight.visuPolygon exEnv).2.bind (fun q => .ok q.2) = .ok [[0, 1, 2, 3], [0, 4, 2, 5, 6, 3], [0, 1, 2]] ∧
    (exRight.visuTriangle exEnv).2.bind (fun q => .ok q.2) = .ok [((0, 1, 2), 0), ((0, 2, 3), 0), ((0, 4, 2), 1), ((0, 2, 5), 1),
      ((0, 5, 6), 1), ((0, 6, 3), 1), ((0, 1, 2), 2)] :=
  ⟨.boundary _ _ (.make _ _), by norm_num [exEnv], by decide +kernel, by decide +kernel⟩

end NuTo.Delaunay
