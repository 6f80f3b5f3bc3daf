import Mathlib.Data.List.Flatten
import Mathlib.Data.List.Pairwise
import Verif.Lemmas.DelaunayChain

/-! The code of `Model/Delaunay.lean` performs the steps of `Lemmas/DelaunayChain.lean`. -/

namespace NuTo.Delaunay

variable {K : Type} [Field K] [LinearOrder K] [IsStrictOrderedRing K]

/-- The third point of `GetUniquePoints` -/
def Triangle.third (t : Triangle K) : Pt K := if t.e0.contains t.e1.p0 then t.e1.p1 else t.e1.p0

/-- The corners, counter clockwise -/
def triOf (t : Triangle K) : Tri K :=
  if 0 < orient t.e0.p0 t.e0.p1 t.third then (t.e0.p0, t.e0.p1, t.third) else (t.e0.p1, t.e0.p0, t.third)

/-- The ways in which the code stores a triangle -/
def Rep (t : Triangle K) (s : Tri K) : Prop :=
  t = ⟨⟨s.1, s.2.1⟩, ⟨s.2.1, s.2.2⟩, ⟨s.2.2, s.1⟩⟩ ∨ t = ⟨⟨s.1, s.2.1⟩, ⟨s.2.2, s.1⟩, ⟨s.2.2, s.2.1⟩⟩ ∨
    t = ⟨⟨s.2.1, s.1⟩, ⟨s.2.2, s.2.1⟩, ⟨s.2.2, s.1⟩⟩

/-- The directed edge of the triangle along an edge -/
def dartIn (s : Tri K) (e : Edge K) : Dart K := if (e.p0, e.p1) ∈ darts s then (e.p0, e.p1) else (e.p1, e.p0)

variable {t : Triangle K} {s : Tri K}

theorem triOf_rep (h : Rep t s) (ho : 0 < orient s.1 s.2.1 s.2.2) : triOf t = s := by
  obtain ⟨a, b, c⟩ := s
  obtain ⟨n1, n2, n3⟩ := corners_ne ho
  simp only at *
  have hn : ¬ 0 < orient b a c := by rw [orient_swap]; linarith
  rcases h with rfl | rfl | rfl
  · simp [triOf, Triangle.third, Edge.contains, ho]
  · simp [triOf, Triangle.third, Edge.contains, n3.symm, n2, ho]
  · simp [triOf, Triangle.third, Edge.contains, n3.symm, n2, hn]

theorem uniquePoints_rep (h : Rep t s) (ho : 0 < orient s.1 s.2.1 s.2.2) :
    t.uniquePoints = .ok (s.1, s.2.1, s.2.2) ∨ t.uniquePoints = .ok (s.2.1, s.1, s.2.2) := by
  obtain ⟨a, b, c⟩ := s
  obtain ⟨n1, n2, n3⟩ := corners_ne ho
  simp only at *
  rcases h with rfl | rfl | rfl
  · left; simp [Triangle.uniquePoints, Edge.contains, n1, n2, n3.symm]
  · left; simp [Triangle.uniquePoints, Edge.contains, n1, n2, n3.symm]
  · right; simp [Triangle.uniquePoints, Edge.contains, n1.symm, n2, n3.symm]

theorem contains_rep (h : Rep t s) (v : Pt K) : t.contains v = true ↔ v = s.1 ∨ v = s.2.1 ∨ v = s.2.2 := by
  obtain ⟨a, b, c⟩ := s
  rcases h with rfl | rfl | rfl <;>
    simp only [Triangle.contains, Triangle.edges, Edge.contains, List.any_cons, List.any_nil, Bool.or_false,
      Bool.or_eq_true, decide_eq_true_eq] <;> constructor <;> intro h <;> (try simp only [eq_comm] at h ⊢) <;> tauto

theorem containsEdge_rep (h : Rep t s) (e : Edge K) :
    t.containsEdge e = true ↔ (e.p0, e.p1) ∈ darts s ∨ (e.p1, e.p0) ∈ darts s := by
  obtain ⟨a, b, c⟩ := s
  rcases h with rfl | rfl | rfl <;>
    simp only [Triangle.containsEdge, Triangle.edges, Edge.same, List.any_cons, List.any_nil, Bool.or_false,
      Bool.or_eq_true, decide_eq_true_eq, darts, List.mem_cons, List.not_mem_nil, or_false, Prod.mk.injEq] <;> tauto

theorem circumcircle_rep (h : Rep t s) (ho : 0 < orient s.1 s.2.1 s.2.2) (p : Pt K) :
    t.circumcircleContains p = .ok (decide (0 < determinant s.1 s.2.1 s.2.2 p)) := by
  obtain ⟨a, b, c⟩ := s
  simp only at *
  have z1 : determinant a b c a = 0 := by unfold determinant; ring
  have z2 : determinant a b c b = 0 := by unfold determinant; ring
  have z3 : determinant a b c c = 0 := by unfold determinant; ring
  rcases uniquePoints_rep h ho with hu | hu <;> simp only at hu
  · have hd : ¬ ((b.x - a.x) * (c.y - a.y) - (b.y - a.y) * (c.x - a.x) < 0) := not_lt.2 ho.le
    simp only [Triangle.circumcircleContains, hu, Res.bind_ok', if_neg hd]
    split_ifs with hp
    · rcases hp with rfl | rfl | rfl <;> simp [z1, z2, z3]
    · rfl
  · have hd : (a.x - b.x) * (c.y - b.y) - (a.y - b.y) * (c.x - b.x) < 0 := by
      have : orient b a c < 0 := by rw [orient_swap]; linarith
      exact this
    simp only [Triangle.circumcircleContains, hu, Res.bind_ok', if_pos hd]
    split_ifs with hp
    · rcases hp with rfl | rfl | rfl <;> simp [z1, z2, z3]
    · rw [det_rot]

theorem same_rep {t' : Triangle K} {s' : Tri K} (h : Rep t s) (h' : Rep t' s') (ho' : 0 < orient s'.1 s'.2.1 s'.2.2) :
    t.same t' = .ok (decide ((s'.1 = s.1 ∨ s'.1 = s.2.1 ∨ s'.1 = s.2.2) ∧ (s'.2.1 = s.1 ∨ s'.2.1 = s.2.1 ∨ s'.2.1 = s.2.2) ∧
      (s'.2.2 = s.1 ∨ s'.2.2 = s.2.1 ∨ s'.2.2 = s.2.2))) := by
  rcases uniquePoints_rep h' ho' with hu | hu <;> rw [Triangle.same, hu, Res.bind_ok', Res.ok.injEq, Bool.eq_iff_iff] <;>
    simp only [Bool.and_eq_true, contains_rep h, decide_eq_true_eq] <;> tauto

/-- Two counter clockwise triangles with the same corners have a common directed edge. -/
theorem common_dart {s s' : Tri K} (ho : 0 < orient s.1 s.2.1 s.2.2) (ho' : 0 < orient s'.1 s'.2.1 s'.2.2)
    (h : (s'.1 = s.1 ∨ s'.1 = s.2.1 ∨ s'.1 = s.2.2) ∧ (s'.2.1 = s.1 ∨ s'.2.1 = s.2.1 ∨ s'.2.1 = s.2.2) ∧
      (s'.2.2 = s.1 ∨ s'.2.2 = s.2.1 ∨ s'.2.2 = s.2.2)) : (s'.1, s'.2.1) ∈ darts s := by
  obtain ⟨a, b, c⟩ := s
  obtain ⟨a', b', c'⟩ := s'
  obtain ⟨n1, n2, n3⟩ := corners_ne ho'
  have r1 := orient_rot a b c
  have r2 := orient_rot b c a
  have s1 := orient_swap a b c
  have s2 := orient_swap b c a
  have s3 := orient_swap c a b
  simp only at *
  obtain ⟨h1, h2, h3⟩ := h
  simp only [darts, List.mem_cons, List.not_mem_nil, or_false, Prod.mk.injEq]
  rcases h1 with rfl | rfl | rfl <;> rcases h2 with rfl | rfl | rfl <;> rcases h3 with rfl | rfl | rfl <;>
    first
    | exact absurd rfl n1
    | exact absurd rfl n2
    | exact absurd rfl n3
    | (exfalso; linarith)
    | simp

theorem edges_perm (h : Rep t s) (ho : 0 < orient s.1 s.2.1 s.2.2) : (t.edges.map (dartIn s)).Perm (darts s) := by
  obtain ⟨a, b, c⟩ := s
  obtain ⟨n1, n2, n3⟩ := corners_ne ho
  simp only at *
  have e1 : dartIn (a, b, c) ⟨a, b⟩ = (a, b) := by simp [dartIn, darts]
  have e2 : dartIn (a, b, c) ⟨b, c⟩ = (b, c) := by simp [dartIn, darts]
  have e3 : dartIn (a, b, c) ⟨c, a⟩ = (c, a) := by simp [dartIn, darts]
  have e4 : dartIn (a, b, c) ⟨b, a⟩ = (a, b) := by simp [dartIn, darts, n1, n1.symm, n2, n2.symm, n3, n3.symm]
  have e5 : dartIn (a, b, c) ⟨c, b⟩ = (b, c) := by simp [dartIn, darts, n1, n1.symm, n2, n2.symm, n3, n3.symm]
  rcases h with rfl | rfl | rfl <;> simp only [Triangle.edges, List.map_cons, List.map_nil, e1, e2, e3, e4, e5, darts]
  · exact List.Perm.refl _
  · exact (List.Perm.swap _ _ _).cons _
  · exact List.Perm.refl _

theorem dartIn_edge (s : Tri K) (e : Edge K) : dartIn s e = (e.p0, e.p1) ∨ dartIn s e = (e.p1, e.p0) := by
  unfold dartIn; split_ifs <;> simp

/-- The new triangle, by its corners -/
theorem newTriangle_rep {p : Pt K} {e : Edge K} {d : Dart K} (hd : d = (e.p0, e.p1) ∨ d = (e.p1, e.p0)) :
    Rep (newTriangle p e) (d.1, d.2, p) := by
  rcases hd with rfl | rfl
  · right; left; rfl
  · right; right; rfl

/-! ### The loops -/

/-- What holds of the list of the code -/
structure Good (lo hi : Pt K) (V : List (Pt K)) (st : State K) : Prop where
  rep : ∀ n ∈ st.nodes, Rep n.tri (triOf n.tri)
  inv : Inv lo hi V (st.nodes.map fun n => triOf n.tri)
  ids : (st.nodes.map Node.id).Nodup
  fresh : ∀ n ∈ st.nodes, n.id < st.next

variable {lo hi : Pt K} {V : List (Pt K)} {st : State K}

theorem Good.ccw (h : Good lo hi V st) {n : Node K} (hn : n ∈ st.nodes) :
    0 < orient (triOf n.tri).1 (triOf n.tri).2.1 (triOf n.tri).2.2 :=
  h.inv.ccw _ (List.mem_map.2 ⟨n, hn, rfl⟩)

theorem Good.nodes_nodup (h : Good lo hi V st) : st.nodes.Nodup := h.ids.of_map _

theorem Good.disjoint (h : Good lo hi V st) {n m : Node K} (hn : n ∈ st.nodes) (hm : m ∈ st.nodes) (hne : n ≠ m) :
    List.Disjoint (darts (triOf n.tri)) (darts (triOf m.tri)) := by
  have := (List.nodup_flatMap.1 h.inv.nodup).2
  rw [List.pairwise_map] at this
  have hsym : Std.Symm fun a b : Node K => Function.onFun List.Disjoint darts (triOf a.tri) (triOf b.tri) :=
    ⟨fun _ _ h _ h1 h2 => h h2 h1⟩
  exact List.Pairwise.forall this hn hm hne

/-- Different elements of the list are different triangles. -/
theorem Good.same (h : Good lo hi V st) {n m : Node K} (hn : n ∈ st.nodes) (hm : m ∈ st.nodes) :
    n.tri.same m.tri = .ok (decide (n = m)) := by
  rw [same_rep (h.rep n hn) (h.rep m hm) (h.ccw hm), Res.ok.injEq, decide_eq_decide]
  constructor
  · intro hc
    by_contra hne
    have := common_dart (h.ccw hn) (h.ccw hm) hc
    exact h.disjoint hn hm hne this (by simp [darts])
  · rintro rfl; simp

theorem badTriangles_eq (h : Good lo hi V st) (p : Pt K) (l : List (Node K)) (hl : ∀ n ∈ l, n ∈ st.nodes) :
    badTriangles p l = .ok (l.filter fun n =>
      decide (0 < determinant (triOf n.tri).1 (triOf n.tri).2.1 (triOf n.tri).2.2 p)) := by
  induction l with
  | nil => rfl
  | cons n l ih =>
    have hn := hl n (by simp)
    rw [badTriangles, circumcircle_rep (h.rep n hn) (h.ccw hn), Res.bind_ok', ih fun m hm => hl m (by simp [hm]),
      Res.bind_ok', List.filter_cons]

theorem edgeShared_eq (h : Good lo hi V st) {n : Node K} (hn : n ∈ st.nodes) {e : Edge K} (he : e ∈ n.tri.edges)
    (l : List (Node K)) (hl : ∀ m ∈ l, m ∈ st.nodes) :
    edgeShared n.tri e l = .ok (decide ((dartIn (triOf n.tri) e).swap ∈ allDarts (l.map fun m => triOf m.tri))) := by
  have hmem : dartIn (triOf n.tri) e ∈ darts (triOf n.tri) :=
    (edges_perm (h.rep n hn) (h.ccw hn)).mem_iff.1 (List.mem_map.2 ⟨e, he, rfl⟩)
  induction l with
  | nil => simp [edgeShared]
  | cons m l ih =>
    have hm := hl m (by simp)
    rw [edgeShared, h.same hm hn, Res.bind_ok', ih fun k hk => hl k (by simp [hk])]
    rw [List.map_cons, allDarts_cons]
    by_cases hmn : m = n
    · subst hmn
      have hns : (dartIn (triOf m.tri) e).swap ∉ darts (triOf m.tri) := by
        have ho := h.ccw hm
        obtain ⟨n1, n2, n3⟩ := corners_ne ho
        revert hmem
        generalize dartIn (triOf m.tri) e = d
        generalize triOf m.tri = s at *
        obtain ⟨a, b, c⟩ := s
        simp only at n1 n2 n3
        simp only [darts, List.mem_cons, List.not_mem_nil, or_false]
        rintro (rfl | rfl | rfl) <;> simp [n1, n2, n3, n1.symm, n2.symm, n3.symm]
      simp [hns]
    · have hdisj := h.disjoint hm hn hmn
      have hcon : m.tri.containsEdge e = true ↔ (dartIn (triOf n.tri) e).swap ∈ darts (triOf m.tri) := by
        rw [containsEdge_rep (h.rep m hm)]
        rcases dartIn_edge (triOf n.tri) e with hd | hd <;> rw [hd] at hmem ⊢
        · constructor
          · rintro (h1 | h1)
            · exact absurd hmem (fun h2 => hdisj h1 h2)
            · exact h1
          · intro h1; exact Or.inr h1
        · constructor
          · rintro (h1 | h1)
            · exact h1
            · exact absurd hmem (fun h2 => hdisj h1 h2)
          · intro h1; exact Or.inl h1
      simp only [hmn, decide_false, Bool.false_eq_true, if_false]
      by_cases hc : m.tri.containsEdge e = true
      · rw [if_pos hc]; simp [hcon.1 hc]
      · rw [if_neg hc]
        have : (dartIn (triOf n.tri) e).swap ∉ darts (triOf m.tri) := fun h1 => hc (hcon.2 h1)
        simp [this]

theorem openEdges_eq (h : Good lo hi V st) {n : Node K} (hn : n ∈ st.nodes) (l : List (Node K))
    (hl : ∀ m ∈ l, m ∈ st.nodes) (es : List (Edge K)) (hes : ∀ e ∈ es, e ∈ n.tri.edges) :
    openEdges l n.tri es = .ok (es.filter fun e =>
      decide ((dartIn (triOf n.tri) e).swap ∉ allDarts (l.map fun m => triOf m.tri))) := by
  induction es with
  | nil => rfl
  | cons e es ih =>
    rw [openEdges, edgeShared_eq h hn (hes e (by simp)) l hl, Res.bind_ok', ih fun f hf => hes f (by simp [hf]),
      Res.bind_ok', List.filter_cons]
    by_cases hc : (dartIn (triOf n.tri) e).swap ∈ allDarts (l.map fun m => triOf m.tri) <;> simp [hc]

theorem cavityEdges_eq (h : Good lo hi V st) (bad : List (Node K)) (hbad : ∀ m ∈ bad, m ∈ st.nodes) (l : List (Node K))
    (hl : ∀ m ∈ l, m ∈ st.nodes) :
    cavityEdges bad l = .ok (l.flatMap fun n => n.tri.edges.filter fun e =>
      decide ((dartIn (triOf n.tri) e).swap ∉ allDarts (bad.map fun m => triOf m.tri))) := by
  induction l with
  | nil => rfl
  | cons n l ih =>
    rw [cavityEdges, openEdges_eq h (hl n (by simp)) bad hbad _ (fun _ he => he), Res.bind_ok',
      ih fun m hm => hl m (by simp [hm]), Res.bind_ok', List.flatMap_cons]

theorem removeEqual_eq (h : Good lo hi V st) {n : Node K} (hn : n ∈ st.nodes) (l : List (Node K))
    (hl : ∀ m ∈ l, m ∈ st.nodes) : removeEqual n.tri l = .ok (l.filter fun m => decide (m ≠ n)) := by
  induction l with
  | nil => rfl
  | cons m l ih =>
    rw [removeEqual, h.same (hl m (by simp)) hn, Res.bind_ok', ih fun k hk => hl k (by simp [hk]), Res.bind_ok',
      List.filter_cons]
    by_cases hc : m = n <;> simp [hc]

theorem find_id {l : List (Node K)} (hl : (l.map Node.id).Nodup) {n : Node K} (hn : n ∈ l) :
    l.find? (fun m => m.id == n.id) = some n := by
  induction l with
  | nil => cases hn
  | cons m l ih =>
    rw [List.map_cons, List.nodup_cons] at hl
    rcases List.mem_cons.1 hn with rfl | hn
    · simp
    · have : m.id ≠ n.id := fun e => hl.1 (e ▸ List.mem_map.2 ⟨n, hn, rfl⟩)
      rw [List.find?_cons_of_neg (by simpa using this)]
      exact ih hl.2 hn

theorem removePointer_eq (h : Good lo hi V st) {l : List (Node K)} (hl : l.Sublist st.nodes) {n : Node K} (hn : n ∈ l) :
    removePointer l n.id = .ok (l.filter fun m => decide (m ≠ n)) := by
  rw [removePointer, find_id (h.ids.sublist (hl.map _)) hn]
  exact removeEqual_eq h (hl.subset hn) l fun m hm => hl.subset hm

theorem removeAll_eq (h : Good lo hi V st) (bad l : List (Node K)) (hl : l.Sublist st.nodes) (hbad : ∀ n ∈ bad, n ∈ l)
    (hn : bad.Nodup) :
    Res.foldlM removePointer l (bad.map Node.id) = .ok (l.filter fun m => decide (m ∉ bad)) := by
  induction bad generalizing l with
  | nil => simp
  | cons n bad ih =>
    obtain ⟨h1, h2⟩ := List.nodup_cons.1 hn
    rw [List.map_cons, Res.foldlM_cons, removePointer_eq h hl (hbad n (by simp)), Res.bind_ok',
      ih _ (List.filter_sublist.trans hl) ?_ h2]
    · rw [List.filter_filter]
      congr 1
      refine List.filter_congr ?_
      intro m _
      by_cases e1 : m = n <;> by_cases e2 : m ∈ bad <;> simp [e1, e2]
    · intro m hm
      rw [List.mem_filter]
      exact ⟨hbad m (by simp [hm]), by simp only [ne_eq, decide_eq_true_eq]; rintro rfl; exact h1 hm⟩

/-- The nodes made for new triangles -/
theorem pushAll_eq (p : Pt K) (es : List (Edge K)) (st : State K) :
    ∃ l : List (Node K), pushAll p es st = ⟨st.nodes ++ l, st.next + es.length⟩ ∧
      l.map Node.tri = es.map (newTriangle p) ∧ (l.map Node.id).Nodup ∧
      ∀ n ∈ l, st.next ≤ n.id ∧ n.id < st.next + es.length := by
  induction es generalizing st with
  | nil => exact ⟨[], by simp [pushAll], rfl, List.nodup_nil, by simp⟩
  | cons e es ih =>
    obtain ⟨l, h1, h2, h3, h4⟩ := ih ⟨st.nodes ++ [⟨st.next, newTriangle p e⟩], st.next + 1⟩
    refine ⟨⟨st.next, newTriangle p e⟩ :: l, ?_, ?_, ?_, ?_⟩
    · rw [pushAll, h1]
      simp only [List.append_assoc, List.cons_append, List.nil_append, List.length_cons, State.mk.injEq, true_and]
      omega
    · simp [h2]
    · rw [List.map_cons, List.nodup_cons]
      refine ⟨?_, h3⟩
      intro hm
      obtain ⟨n, hn, he⟩ := List.mem_map.1 hm
      have := (h4 n hn).1
      simp only at this he
      omega
    · intro n hn
      rw [List.length_cons]
      rcases List.mem_cons.1 hn with rfl | hn
      · simp only; omega
      · have := h4 n hn
        simp only at this
        omega

/-- Edges and directed edges of a list of triangles, filtered in the same way -/
theorem filter_perm {γ : Type} (l : List (Node K)) (Q : Dart K → Bool) (F : Edge K → γ) (G : Dart K → γ)
    (hp : ∀ n ∈ l, (n.tri.edges.map (dartIn (triOf n.tri))).Perm (darts (triOf n.tri)))
    (hF : ∀ n ∈ l, ∀ e ∈ n.tri.edges.filter (fun e => Q (dartIn (triOf n.tri) e)), F e = G (dartIn (triOf n.tri) e)) :
    ((l.flatMap fun n => n.tri.edges.filter fun e => Q (dartIn (triOf n.tri) e)).map F).Perm
      (((allDarts (l.map fun n => triOf n.tri)).filter Q).map G) := by
  induction l with
  | nil => exact List.Perm.refl _
  | cons n l ih =>
    rw [List.flatMap_cons, List.map_append, List.map_cons, allDarts_cons, List.filter_append, List.map_append]
    refine List.Perm.append ?_ (ih (fun m hm => hp m (by simp [hm])) fun m hm => hF m (by simp [hm]))
    have e1 : (n.tri.edges.filter fun e => Q (dartIn (triOf n.tri) e)).map F =
        ((n.tri.edges.map (dartIn (triOf n.tri))).filter Q).map G := by
      rw [List.filter_map, List.map_map]
      exact List.map_congr_left (hF n (by simp))
    rw [e1]
    exact ((hp n (by simp)).filter Q).map G

/-- One round of the loop over the points -/
theorem insertPoint_good (h : Good lo hi V st) (hbox : lo.x < hi.x ∧ lo.y < hi.y) {p : Pt K} (hp : InBox lo hi p) :
    ∃ st', insertPoint st p = .ok st' ∧ Good lo hi (p :: V) st' := by
  set L := st.nodes.map fun n => triOf n.tri with hL
  set bad := st.nodes.filter fun n =>
    decide (0 < determinant (triOf n.tri).1 (triOf n.tri).2.1 (triOf n.tri).2.2 p) with hbad
  have hsub : ∀ n ∈ bad, n ∈ st.nodes := fun n hn => (List.mem_filter.1 hn).1
  have hbadL : (bad.map fun n => triOf n.tri) = badOf p L := by
    rw [badOf, hL, List.filter_map]
    rfl
  set keep := st.nodes.filter fun m => decide (m ∉ bad) with hkeep
  have hkeepL : (keep.map fun n => triOf n.tri) = goodOf p L := by
    rw [goodOf, hL, List.filter_map, hkeep]
    congr 1
    refine List.filter_congr ?_
    intro n hn
    simp only [hbad, List.mem_filter, hn, true_and, Function.comp_apply, decide_eq_true_eq, decide_not]
  obtain ⟨Q, hQ⟩ : ∃ Q : Dart K → Bool, Q = fun d => decide (d.swap ∉ allDarts (bad.map fun m => triOf m.tri)) := ⟨_, rfl⟩
  obtain ⟨polygon, hpoly⟩ : ∃ l, l = bad.flatMap fun n => n.tri.edges.filter fun e => Q (dartIn (triOf n.tri) e) :=
    ⟨_, rfl⟩
  have hcav : cavityEdges bad bad = .ok polygon := by
    rw [cavityEdges_eq h bad hsub bad hsub, hpoly, hQ]
  obtain ⟨l, h1, h2, h3, h4⟩ := pushAll_eq p polygon ⟨keep, st.next⟩
  have hins : insertPoint st p = .ok ⟨keep ++ l, st.next + polygon.length⟩ := by
    rw [insertPoint, badTriangles_eq h p _ (fun _ hn => hn), Res.bind_ok', hcav, Res.bind_ok',
      removeAll_eq h bad st.nodes (List.Sublist.refl _) hsub (h.nodes_nodup.filter _), Res.bind_ok', h1]
  -- the darts of the edges of the polygon
  have hdart : ∀ n ∈ bad, ∀ e ∈ n.tri.edges.filter fun e => Q (dartIn (triOf n.tri) e),
      dartIn (triOf n.tri) e ∈ hole p L := by
    intro n hn e he
    obtain ⟨he1, he2⟩ := List.mem_filter.1 he
    have hmem := (edges_perm (h.rep n (hsub n hn)) (h.ccw (hsub n hn))).mem_iff.1 (List.mem_map.2 ⟨e, he1, rfl⟩)
    refine mem_rim.2 ⟨mem_allDarts.2 ⟨triOf n.tri, ?_, hmem⟩, ?_⟩
    · rw [← hbadL]; exact List.mem_map.2 ⟨n, hn, rfl⟩
    · rw [← hbadL]
      rw [hQ] at he2
      simpa using he2
  have hnewrep : ∀ n ∈ bad, ∀ e ∈ n.tri.edges.filter fun e => Q (dartIn (triOf n.tri) e),
      Rep (newTriangle p e) ((dartIn (triOf n.tri) e).1, (dartIn (triOf n.tri) e).2, p) ∧
      triOf (newTriangle p e) = ((dartIn (triOf n.tri) e).1, (dartIn (triOf n.tri) e).2, p) := by
    intro n hn e he
    have hh := hdart n hn e he
    have hr := newTriangle_rep (p := p) (dartIn_edge (triOf n.tri) e)
    generalize dartIn (triOf n.tri) e = d at hh hr
    have ho : 0 < orient d.1 d.2 p := h.inv.hole_star hp hh
    exact ⟨hr, triOf_rep hr ho⟩
  clear_value keep bad
  have hnew : (polygon.map fun e => triOf (newTriangle p e)).Perm ((hole p L).map fun d => (d.1, d.2, p)) := by
    have := filter_perm (γ := Tri K) bad Q (fun e => triOf (newTriangle p e)) (fun d => (d.1, d.2, p))
      (fun n hn => edges_perm (h.rep n (hsub n hn)) (h.ccw (hsub n hn)))
      (fun n hn e he => (hnewrep n hn e he).2)
    rw [hpoly, hole, rim, ← hbadL, ← hQ]
    exact this
  have hl : (l.map fun n => triOf n.tri) = polygon.map fun e => triOf (newTriangle p e) := by
    have := congrArg (List.map triOf) h2
    rw [List.map_map, List.map_map] at this
    exact this
  refine ⟨_, hins, ?_, ?_, ?_, ?_⟩
  · intro n hn
    rcases List.mem_append.1 hn with hn | hn
    · rw [hkeep] at hn
      exact h.rep n (List.mem_filter.1 hn).1
    · have : n.tri ∈ polygon.map (newTriangle p) := h2 ▸ List.mem_map.2 ⟨n, hn, rfl⟩
      obtain ⟨e, he, heq⟩ := List.mem_map.1 this
      rw [hpoly] at he
      obtain ⟨m, hm, hem⟩ := List.mem_flatMap.1 he
      obtain ⟨r1, r2⟩ := hnewrep m hm e hem
      rw [← heq, r2]
      exact r1
  · refine (h.inv.step hbox hp).perm ?_
    rw [stepTri, List.map_append, hkeepL, hl]
    exact hnew.symm.append_left _
  · rw [List.map_append]
    refine List.nodup_append'.2 ⟨by rw [hkeep]; exact h.ids.sublist (List.filter_sublist.map _), h3, ?_⟩
    intro i hi hi'
    obtain ⟨n, hn, rfl⟩ := List.mem_map.1 hi
    obtain ⟨m, hm, he⟩ := List.mem_map.1 hi'
    rw [hkeep] at hn
    have := h.fresh n (List.mem_filter.1 hn).1
    have := (h4 m hm).1
    simp only at this
    omega
  · intro n hn
    rcases List.mem_append.1 hn with hn | hn
    · rw [hkeep] at hn
      have := h.fresh n (List.mem_filter.1 hn).1
      simp only
      omega
    · exact (h4 n hn).2

theorem insertAll_good (hbox : lo.x < hi.x ∧ lo.y < hi.y) (ps : List (Pt K)) (hps : ∀ p ∈ ps, InBox lo hi p) (V : List (Pt K))
    (st : State K) (h : Good lo hi V st) : ∃ st', Res.foldlM insertPoint st ps = .ok st' ∧ Good lo hi (ps.reverse ++ V) st' := by
  induction ps generalizing V st with
  | nil => exact ⟨st, rfl, h⟩
  | cons p ps ih =>
    obtain ⟨st1, h1, h2⟩ := insertPoint_good h hbox (hps p (by simp))
    obtain ⟨st2, h3, h4⟩ := ih (fun q hq => hps q (by simp [hq])) _ _ h2
    refine ⟨st2, by rw [Res.foldlM_cons, h1, Res.bind_ok', h3], ?_⟩
    rw [List.reverse_cons, List.append_assoc]
    exact h4

theorem superState_good {b : Pt K × Pt K} (hbox : b.1.x < b.2.x ∧ b.1.y < b.2.y) :
    Good b.1 b.2 (superPoints b) (superState b) := by
  have hi := Inv.start hbox
  have r1 : Rep (⟨⟨b.1, ⟨b.2.x, b.1.y⟩⟩, ⟨⟨b.2.x, b.1.y⟩, b.2⟩, ⟨b.2, b.1⟩⟩ : Triangle K) (b.1, ⟨b.2.x, b.1.y⟩, b.2) := Or.inl rfl
  have r2 : Rep (⟨⟨b.1, b.2⟩, ⟨b.2, ⟨b.1.x, b.2.y⟩⟩, ⟨⟨b.1.x, b.2.y⟩, b.1⟩⟩ : Triangle K) (b.1, b.2, ⟨b.1.x, b.2.y⟩) := Or.inl rfl
  have t1 := triOf_rep r1 (hi.ccw _ (by simp))
  have t2 := triOf_rep r2 (hi.ccw _ (by simp))
  refine ⟨?_, ?_, ?_, ?_⟩
  · intro n hn
    simp only [superState, List.mem_cons, List.not_mem_nil, or_false] at hn
    rcases hn with rfl | rfl
    · simp only [t1]; exact r1
    · simp only [t2]; exact r2
  · simp only [superState, superPoints, List.map_cons, List.map_nil, t1, t2]
    exact hi
  · simp [superState]
  · intro n hn
    simp only [superState, List.mem_cons, List.not_mem_nil, or_false] at hn
    rcases hn with rfl | rfl <;> simp [superState]

end NuTo.Delaunay
