import Verif.Model.NodeSelection
import Verif.Lemmas.Group
import Mathlib.Algebra.BigOperators.Group.Finset.Basic
import Mathlib.Algebra.BigOperators.Fin
import Mathlib.Data.List.GetD
import Mathlib.Tactic.Ring
import Mathlib.Tactic.NormNum

/-!
C69: the selection functions of a mesh return exactly the nodes at the requested place.
-/
set_option linter.unusedSectionVars false

namespace NuTo
open Finset
namespace MeshFem
variable {K : Type _} [Field K] [LinearOrder K] [IsStrictOrderedRing K]

/-- The meshes that can be built: every element has as many nodes as its interpolation, nodes exist and live in a space of
dimension `d`, and there is one shape function per node. -/
structure WellFormed (m : Mesh K) (d : Nat) : Prop where
  coordLength : ∀ c ∈ m.elements, c.coord.nodes.length = c.coord.interp.locals.length
  coordNonempty : ∀ c ∈ m.elements, c.coord.nodes ≠ []
  coordNode : ∀ c ∈ m.elements, ∀ n ∈ c.coord.nodes, ∃ v, m.nodes[n]? = some v ∧ v.length = d
  shape : ∀ c ∈ m.elements, ∀ xi, (c.coord.interp.N xi).length = c.coord.nodes.length
  dofLength : ∀ c ∈ m.elements, ∀ dof e, c.dofs.find? dof = some e → e.nodes.length = e.interp.locals.length

/-- node `n` is a coordinate node of an element and its coordinates are `p` -/
def CoordAt (m : Mesh K) (n : Nat) (p : List K) : Prop :=
  ∃ c ∈ m.elements, ∃ i : Nat, c.coord.nodes[i]? = some n ∧ m.nodes[n]? = some p

/-- node `n` is a node of an element of the dof type and sits at the point `p` of space: component `k` of `p` is the sum of
the shape functions of the coordinate element times the coordinates of its nodes -/
def DofAt (m : Mesh K) (d dof n : Nat) (p : List K) : Prop :=
  ∃ c ∈ m.elements, ∃ e xi, ∃ i : Nat, c.dofs.find? dof = some e ∧ e.nodes[i]? = some n ∧ e.interp.locals[i]? = some xi ∧
    p.length = d ∧ ∀ k < d, p.getD k 0 = ∑ j ∈ range c.coord.nodes.length,
      (c.coord.interp.N xi).getD j 0 * (m.nodes.getD (c.coord.nodes.getD j 0) []).getD k 0

/-- squared Euclidean distance of two points -/
def distSq (d : Nat) (p q : List K) : K := ∑ k ∈ range d, (p.getD k 0 - q.getD k 0) ^ 2

theorem sum_zipWith {α β : Type _} (f : α → β → K) (x : α) (y : β) : ∀ (a : List α) (b : List β), a.length = b.length →
    (List.zipWith f a b).sum = ∑ k ∈ range a.length, f (a.getD k x) (b.getD k y)
  | [], [], _ => by simp
  | a :: as, b :: bs, h => by
    rw [List.zipWith_cons_cons, List.sum_cons, sum_zipWith f x y as bs (by simpa using h), List.length_cons,
      Finset.sum_range_succ']
    simp [add_comm]

theorem isAt_eq (tol : K) (p q : List K) (d : Nat) (hp : p.length = d) (hq : q.length = d) :
    isAt tol p q = .ok (decide (distSq d p q ≤ tol ^ 2)) := by
  have : (List.zipWith (fun x y => (x - y) * (x - y)) p q).sum = distSq d p q := by
    rw [sum_zipWith _ 0 0 p q (hp.trans hq.symm), hp]
    exact Finset.sum_congr rfl fun k _ => by ring
  simp only [isAt, Res.require, hp, hq, if_true, this, one_mul, pow_two]

/-- what a visit stands for: the node and its place -/
def Shows (place : Visit K → Res (List K)) (v : Visit K) (n : Nat) (p : List K) : Prop :=
  getNode v.elem v.i = .ok n ∧ place v = .ok p

theorem firstAt_spec (place : Visit K → Res (List K)) (coords : List K) (tol : K) (d : Nat) (hc : coords.length = d)
    (vs : List (Visit K)) (hv : ∀ v ∈ vs, ∃ n p, Shows place v n p ∧ p.length = d) :
    (∃ n p, firstAt place coords tol vs = .ok n ∧ (∃ v ∈ vs, Shows place v n p) ∧ distSq d p coords ≤ tol ^ 2) ∨
    (firstAt place coords tol vs = .throw ∧ ∀ v ∈ vs, ∀ n p, Shows place v n p → ¬ distSq d p coords ≤ tol ^ 2) := by
  induction vs with
  | nil => exact Or.inr ⟨rfl, fun v hv => by cases hv⟩
  | cons v t ih =>
    obtain ⟨n, p, ⟨h1, h2⟩, hp⟩ := hv v List.mem_cons_self
    have e : firstAt place coords tol (v :: t) =
        if decide (distSq d p coords ≤ tol ^ 2) then getNode v.elem v.i else firstAt place coords tol t := by
      simp only [firstAt, h2, Res.bind_ok', isAt_eq tol p coords d hp hc]
    by_cases hd : distSq d p coords ≤ tol ^ 2
    · refine Or.inl ⟨n, p, ?_, ⟨v, List.mem_cons_self, h1, h2⟩, hd⟩
      rw [e]; simpa [hd] using h1
    · rw [e]
      simp only [hd, decide_false, Bool.false_eq_true, if_false]
      rcases ih fun w hw => hv w (List.mem_cons_of_mem _ hw) with ⟨n', p', k1, ⟨w, hw, k2⟩, k3⟩ | ⟨k1, k2⟩
      · exact Or.inl ⟨n', p', k1, ⟨w, List.mem_cons_of_mem _ hw, k2⟩, k3⟩
      · refine Or.inr ⟨k1, fun w hw n' p' hs => ?_⟩
        rcases List.mem_cons.mp hw with rfl | hw
        · have : p' = p := by have := hs.2.symm.trans h2; injection this
          rw [this]; exact hd
        · exact k2 w hw n' p' hs

theorem mem_add {g : Group} (h : g.Inv) (x y : Nat) : y ∈ (g.add x).data ↔ y ∈ g.data ∨ y = x := by
  rw [Group.data_add h]
  split <;> simp_all

theorem axis_spec (place : Visit K → Res (List K)) (direction : Nat) (offset tol : K) (d : Nat) (hdir : direction < d)
    (vs : List (Visit K)) (hv : ∀ v ∈ vs, ∃ n p, Shows place v n p ∧ p.length = d) (g : Group) (hg : g.Inv) :
    ∃ g', Res.foldlM (axisStep place direction offset tol) g vs = .ok g' ∧ g'.Inv ∧
      ∀ n, n ∈ g'.data ↔ n ∈ g.data ∨ ∃ v ∈ vs, ∃ p, Shows place v n p ∧ |p.getD direction 0 - offset| < tol := by
  induction vs generalizing g with
  | nil => exact ⟨g, rfl, hg, fun n => by simp⟩
  | cons v t ih =>
    obtain ⟨n, p, ⟨h1, h2⟩, hp⟩ := hv v List.mem_cons_self
    have hx : p[direction]? = some (p.getD direction 0) := by
      rw [List.getD_eq_getElem _ _ (hp ▸ hdir), List.getElem?_eq_getElem]
    by_cases hd : |p.getD direction 0 - offset| < tol
    · have e : axisStep place direction offset tol g v = .ok (g.add n) := by
        simp only [axisStep, h2, Res.bind_ok', hx, hd, if_true, h1]
      obtain ⟨g', k1, k2, k3⟩ := ih (fun w hw => hv w (List.mem_cons_of_mem _ hw)) (g.add n) (Group.inv_add hg n)
      refine ⟨g', by rw [Res.foldlM_cons, e]; exact k1, k2, fun x => ?_⟩
      rw [k3, mem_add hg]
      constructor
      · rintro ((h | rfl) | ⟨w, hw, q, hq⟩)
        · exact Or.inl h
        · exact Or.inr ⟨v, List.mem_cons_self, p, ⟨h1, h2⟩, hd⟩
        · exact Or.inr ⟨w, List.mem_cons_of_mem _ hw, q, hq⟩
      · rintro (h | ⟨w, hw, q, hq, hq'⟩)
        · exact Or.inl (Or.inl h)
        · rcases List.mem_cons.mp hw with rfl | hw
          · have : x = n := by have := hq.1.symm.trans h1; injection this
            exact Or.inl (Or.inr this)
          · exact Or.inr ⟨w, hw, q, hq, hq'⟩
    · have e : axisStep place direction offset tol g v = .ok g := by
        simp only [axisStep, h2, Res.bind_ok', hx, hd, if_false]
      obtain ⟨g', k1, k2, k3⟩ := ih (fun w hw => hv w (List.mem_cons_of_mem _ hw)) g hg
      refine ⟨g', by rw [Res.foldlM_cons, e]; exact k1, k2, fun x => ?_⟩
      rw [k3]
      constructor
      · rintro (h | ⟨w, hw, q, hq⟩)
        · exact Or.inl h
        · exact Or.inr ⟨w, List.mem_cons_of_mem _ hw, q, hq⟩
      · rintro (h | ⟨w, hw, q, hq, hq'⟩)
        · exact Or.inl h
        · rcases List.mem_cons.mp hw with rfl | hw
          · have : q = p := by have := hq.2.symm.trans h2; injection this
            rw [this] at hq'; exact absurd hq' hd
          · exact Or.inr ⟨w, hw, q, hq, hq'⟩

theorem total_spec (vs : List (Visit K)) (hv : ∀ v ∈ vs, ∃ n, getNode v.elem v.i = .ok n) (g : Group) (hg : g.Inv) :
    ∃ g', Res.foldlM totalStep g vs = .ok g' ∧ g'.Inv ∧
      ∀ n, n ∈ g'.data ↔ n ∈ g.data ∨ ∃ v ∈ vs, getNode v.elem v.i = .ok n := by
  induction vs generalizing g with
  | nil => exact ⟨g, rfl, hg, fun n => by simp⟩
  | cons v t ih =>
    obtain ⟨n, h1⟩ := hv v List.mem_cons_self
    have e : totalStep g v = .ok (g.add n) := by simp only [totalStep, h1, Res.bind_ok']
    obtain ⟨g', k1, k2, k3⟩ := ih (fun w hw => hv w (List.mem_cons_of_mem _ hw)) (g.add n) (Group.inv_add hg n)
    refine ⟨g', by rw [Res.foldlM_cons, e]; exact k1, k2, fun x => ?_⟩
    rw [k3, mem_add hg]
    constructor
    · rintro ((h | rfl) | ⟨w, hw, q⟩)
      · exact Or.inl h
      · exact Or.inr ⟨v, List.mem_cons_self, h1⟩
      · exact Or.inr ⟨w, List.mem_cons_of_mem _ hw, q⟩
    · rintro (h | ⟨w, hw, q⟩)
      · exact Or.inl (Or.inl h)
      · rcases List.mem_cons.mp hw with rfl | hw
        · have : x = n := by have := q.symm.trans h1; injection this
          exact Or.inl (Or.inr this)
        · exact Or.inr ⟨w, hw, q⟩

theorem getNode_eq_ok {e : Elem K} {i n : Nat} : getNode e i = .ok n ↔ e.nodes[i]? = some n := by
  unfold getNode
  split <;> simp_all

theorem mem_coordVisits {m : Mesh K} {v : Visit K} : v ∈ coordVisits m ↔
    ∃ c ∈ m.elements, ∃ i < c.coord.interp.locals.length, v = ⟨c.coord, c.coord, i⟩ := by
  simp only [coordVisits, List.mem_flatMap, List.mem_map, List.mem_range]
  constructor <;> rintro ⟨c, hc, i, hi, h⟩ <;> exact ⟨c, hc, i, hi, h.symm⟩

theorem mem_dofVisits {m : Mesh K} {dof : Nat} {v : Visit K} : v ∈ dofVisits m dof ↔
    ∃ c ∈ m.elements, ∃ e, c.dofs.find? dof = some e ∧ ∃ i < e.interp.locals.length, v = ⟨c.coord, e, i⟩ := by
  simp only [dofVisits, List.mem_flatMap]
  constructor
  · rintro ⟨c, hc, h⟩
    split at h
    · simp at h
    · rename_i e he
      simp only [List.mem_map, List.mem_range] at h
      obtain ⟨i, hi, h⟩ := h
      exact ⟨c, hc, e, he, i, hi, h.symm⟩
  · rintro ⟨c, hc, e, he, i, hi, rfl⟩
    refine ⟨c, hc, ?_⟩
    rw [he]
    exact List.mem_map.mpr ⟨i, List.mem_range.mpr hi, rfl⟩

variable {m : Mesh K} {d : Nat}

theorem coordShows (h : WellFormed m d) {v : Visit K} (hv : v ∈ coordVisits m) :
    ∃ n p, Shows (coordPlace m) v n p ∧ p.length = d := by
  obtain ⟨c, hc, i, hi, rfl⟩ := mem_coordVisits.mp hv
  rw [← h.coordLength c hc] at hi
  obtain ⟨p, hp, hl⟩ := h.coordNode c hc _ (List.getElem_mem hi)
  refine ⟨c.coord.nodes[i], p, ⟨getNode_eq_ok.mpr (List.getElem?_eq_getElem hi), ?_⟩, hl⟩
  have : getNode c.coord i = .ok c.coord.nodes[i] := getNode_eq_ok.mpr (List.getElem?_eq_getElem hi)
  simp only [coordPlace, this, Res.bind_ok', valuesOf, hp]

theorem coordShows_iff (h : WellFormed m d) (n : Nat) (p : List K) :
    (∃ v ∈ coordVisits m, Shows (coordPlace m) v n p) ↔ CoordAt m n p := by
  constructor
  · rintro ⟨v, hv, h1, h2⟩
    obtain ⟨c, hc, i, hi, rfl⟩ := mem_coordVisits.mp hv
    refine ⟨c, hc, i, getNode_eq_ok.mp h1, ?_⟩
    simp only [coordPlace] at h2
    simp only at h1
    rw [h1] at h2
    simp only [Res.bind_ok', valuesOf] at h2
    split at h2
    · rename_i w hw; injection h2 with h2; rw [← h2]; exact hw
    · cases h2
  · rintro ⟨c, hc, i, h1, h2⟩
    have hi := (List.getElem?_eq_some_iff.mp h1).1
    refine ⟨⟨c.coord, c.coord, i⟩, mem_coordVisits.mpr ⟨c, hc, i, h.coordLength c hc ▸ hi, rfl⟩, getNode_eq_ok.mpr h1, ?_⟩
    simp only [coordPlace, getNode_eq_ok.mpr h1, Res.bind_ok', valuesOf, h2]

theorem interpolate_eq (h : WellFormed m d) (c : Coll K) (hc : c ∈ m.elements) (xi : List K) :
    ∃ p, interpolate m.nodes c.coord xi = .ok p ∧ p.length = d ∧
      ∀ k < d, p.getD k 0 = ∑ j ∈ range c.coord.nodes.length,
        (c.coord.interp.N xi).getD j 0 * (m.nodes.getD (c.coord.nodes.getD j 0) []).getD k 0 := by
  have hlen : ∀ v ∈ nodeValues m.nodes c.coord, v.length = d := by
    intro v hv
    simp only [nodeValues, List.mem_map] at hv
    obtain ⟨n, hn, rfl⟩ := hv
    obtain ⟨w, hw, hl⟩ := h.coordNode c hc n hn
    rw [List.getD_eq_getElem?_getD, hw]; exact hl
  have hdim : dofDimension m.nodes c.coord = d := by
    have hne := h.coordNonempty c hc
    unfold dofDimension
    cases hn : c.coord.nodes with
    | nil => exact absurd hn hne
    | cons a t =>
      have : (nodeValues m.nodes c.coord).headD [] = m.nodes.getD a [] := by simp [nodeValues, hn]
      rw [this]
      exact hlen _ (by simp [nodeValues, hn])
  have hreq : (∀ v ∈ nodeValues m.nodes c.coord, v.length = dofDimension m.nodes c.coord) ∧
      (c.coord.interp.N xi).length = c.coord.nodes.length ∧ c.coord.nodes ≠ [] :=
    ⟨fun v hv => by rw [hdim]; exact hlen v hv, h.shape c hc xi, h.coordNonempty c hc⟩
  refine ⟨_, by rw [interpolate, Res.require, if_pos hreq], by simp [hdim], fun k hk => ?_⟩
  rw [hdim, List.getD_eq_getElem _ _ (by simpa using hk), List.getElem_map, List.getElem_range,
    sum_zipWith _ 0 [] _ _ (by simp [nodeValues, h.shape c hc xi]), h.shape c hc xi]
  refine Finset.sum_congr rfl fun j hj => ?_
  have hj' : j < c.coord.nodes.length := Finset.mem_range.mp hj
  congr 2
  rw [List.getD_eq_getElem _ _ (by simpa [nodeValues] using hj'), List.getD_eq_getElem c.coord.nodes _ hj']
  simp [nodeValues]

theorem dofShows (h : WellFormed m d) {dof : Nat} {v : Visit K} (hv : v ∈ dofVisits m dof) :
    ∃ n p, Shows (dofPlace m) v n p ∧ p.length = d := by
  obtain ⟨c, hc, e, he, i, hi, rfl⟩ := mem_dofVisits.mp hv
  rw [← h.dofLength c hc dof e he] at hi
  obtain ⟨p, hp, hl, -⟩ := interpolate_eq h c hc (e.interp.locals.getD i [])
  exact ⟨e.nodes[i], p, ⟨getNode_eq_ok.mpr (List.getElem?_eq_getElem hi), hp⟩, hl⟩

theorem dofShows_iff (h : WellFormed m d) (dof n : Nat) (p : List K) :
    (∃ v ∈ dofVisits m dof, Shows (dofPlace m) v n p) ↔ DofAt m d dof n p := by
  constructor
  · rintro ⟨v, hv, h1, h2⟩
    obtain ⟨c, hc, e, he, i, hi, rfl⟩ := mem_dofVisits.mp hv
    obtain ⟨q, hq, hl, hk⟩ := interpolate_eq h c hc (e.interp.locals.getD i [])
    have : q = p := by have := hq.symm.trans h2; injection this
    subst this
    refine ⟨c, hc, e, e.interp.locals.getD i [], i, he, getNode_eq_ok.mp h1, ?_, hl, hk⟩
    rw [List.getD_eq_getElem _ _ hi, List.getElem?_eq_getElem]
  · rintro ⟨c, hc, e, xi, i, he, h1, h2, hl, hk⟩
    have hi := (List.getElem?_eq_some_iff.mp h2).1
    refine ⟨⟨c.coord, e, i⟩, mem_dofVisits.mpr ⟨c, hc, e, he, i, hi, rfl⟩, getNode_eq_ok.mpr h1, ?_⟩
    have hx : e.interp.locals.getD i [] = xi := by rw [List.getD_eq_getElem?_getD, h2]; rfl
    obtain ⟨q, hq, hl', hk'⟩ := interpolate_eq h c hc xi
    have : q = p := by
      refine List.ext_getElem (hl'.trans hl.symm) fun k h1 h2 => ?_
      have := (hk' k (hl' ▸ h1)).trans (hk k (hl' ▸ h1)).symm
      rwa [List.getD_eq_getElem _ _ h1, List.getD_eq_getElem _ _ h2] at this
    subst this
    simp only [dofPlace, hx, hq]

/-- **C69** `NodeAtCoordinate(coords, tol)` returns a coordinate node within the tolerance, or throws if there is none; there
is no third possibility. -/
theorem C69_coordinate_node (h : WellFormed m d) (coords : List K) (hc : coords.length = d) (tol : K) :
    (∃ n p, nodeAtCoordinate m coords tol = .ok n ∧ CoordAt m n p ∧ distSq d p coords ≤ tol ^ 2) ∨
    (nodeAtCoordinate m coords tol = .throw ∧ ∀ n p, CoordAt m n p → tol ^ 2 < distSq d p coords) := by
  rcases firstAt_spec (coordPlace m) coords tol d hc (coordVisits m) (fun v hv => coordShows h hv) with
    ⟨n, p, h1, h2, h3⟩ | ⟨h1, h2⟩
  · exact Or.inl ⟨n, p, h1, (coordShows_iff h n p).mp h2, h3⟩
  · refine Or.inr ⟨h1, fun n p hp => ?_⟩
    obtain ⟨v, hv, hs⟩ := (coordShows_iff h n p).mpr hp
    exact not_le.mp (h2 v hv n p hs)

/-- **C69** `NodeAtCoordinate(coords, dofType, tol)`: the same for the nodes of a dof type, wherever the geometry maps them. -/
theorem C69_dof_node (h : WellFormed m d) (dof : Nat) (coords : List K) (hc : coords.length = d) (tol : K) :
    (∃ n p, dofNodeAtCoordinate m coords dof tol = .ok n ∧ DofAt m d dof n p ∧ distSq d p coords ≤ tol ^ 2) ∨
    (dofNodeAtCoordinate m coords dof tol = .throw ∧ ∀ n p, DofAt m d dof n p → tol ^ 2 < distSq d p coords) := by
  rcases firstAt_spec (dofPlace m) coords tol d hc (dofVisits m dof) (fun v hv => dofShows h hv) with
    ⟨n, p, h1, h2, h3⟩ | ⟨h1, h2⟩
  · exact Or.inl ⟨n, p, h1, (dofShows_iff h dof n p).mp h2, h3⟩
  · refine Or.inr ⟨h1, fun n p hp => ?_⟩
    obtain ⟨v, hv, hs⟩ := (dofShows_iff h dof n p).mpr hp
    exact not_le.mp (h2 v hv n p hs)

/-- **C69** If only one node of the dof type lies within the tolerance, that node is returned, whichever elements share it and in
whatever order the elements are stored. -/
theorem C69_unique_node (h : WellFormed m d) (dof : Nat) (coords : List K) (hc : coords.length = d) (tol : K) (n : Nat)
    (p : List K) (hn : DofAt m d dof n p) (hp : distSq d p coords ≤ tol ^ 2)
    (huniq : ∀ n' p', DofAt m d dof n' p' → distSq d p' coords ≤ tol ^ 2 → n' = n) :
    dofNodeAtCoordinate m coords dof tol = .ok n := by
  rcases C69_dof_node h dof coords hc tol with ⟨n', p', h1, h2, h3⟩ | ⟨h1, h2⟩
  · rw [h1, huniq n' p' h2 h3]
  · exact absurd hp (not_le.mpr (h2 n p hn))

/-- **C69** `NodesAtAxis(direction, axisOffset, tol)` selects exactly the coordinate nodes whose coordinate differs by less than
the tolerance, each once. -/
theorem C69_axis (h : WellFormed m d) (direction : Nat) (hdir : direction < d) (offset tol : K) :
    ∃ g, nodesAtAxis m direction offset tol = .ok g ∧ g.data.Nodup ∧
      ∀ n, n ∈ g.data ↔ ∃ p, CoordAt m n p ∧ |p.getD direction 0 - offset| < tol := by
  obtain ⟨g, h1, h2, h3⟩ := axis_spec (coordPlace m) direction offset tol d hdir (coordVisits m)
    (fun v hv => coordShows h hv) Group.empty Group.inv_empty
  refine ⟨g, h1, h2.nodup, fun n => ?_⟩
  rw [h3]
  constructor
  · rintro (h | ⟨v, hv, p, hs, hp⟩)
    · exact absurd h (by simp [Group.empty])
    · exact ⟨p, (coordShows_iff h n p).mp ⟨v, hv, hs⟩, hp⟩
  · rintro ⟨p, hp, hd⟩
    obtain ⟨v, hv, hs⟩ := (coordShows_iff h n p).mpr hp
    exact Or.inr ⟨v, hv, p, hs, hd⟩

/-- **C69** `NodesAtAxis(direction, dofType, axisOffset, tol)`: the same for the nodes of a dof type. -/
theorem C69_dof_axis (h : WellFormed m d) (direction dof : Nat) (hdir : direction < d) (offset tol : K) :
    ∃ g, dofNodesAtAxis m direction dof offset tol = .ok g ∧ g.data.Nodup ∧
      ∀ n, n ∈ g.data ↔ ∃ p, DofAt m d dof n p ∧ |p.getD direction 0 - offset| < tol := by
  obtain ⟨g, h1, h2, h3⟩ := axis_spec (dofPlace m) direction offset tol d hdir (dofVisits m dof)
    (fun v hv => dofShows h hv) Group.empty Group.inv_empty
  refine ⟨g, h1, h2.nodup, fun n => ?_⟩
  rw [h3]
  constructor
  · rintro (h | ⟨v, hv, p, hs, hp⟩)
    · exact absurd h (by simp [Group.empty])
    · exact ⟨p, (dofShows_iff h dof n p).mp ⟨v, hv, hs⟩, hp⟩
  · rintro ⟨p, hp, hd⟩
    obtain ⟨v, hv, hs⟩ := (dofShows_iff h dof n p).mpr hp
    exact Or.inr ⟨v, hv, p, hs, hd⟩

/-- **C69** A direction the space does not have (for example Z in a plane mesh) reads behind the coordinates as soon as there is
an element. -/
theorem C69_axis_direction (h : WellFormed m d) (direction : Nat) (hdir : d ≤ direction) (offset tol : K)
    (hne : m.elements ≠ []) : nodesAtAxis m direction offset tol = .ub := by
  obtain ⟨c, t, hm⟩ := List.exists_cons_of_ne_nil hne
  have hc : c ∈ m.elements := by rw [hm]; exact List.mem_cons_self
  have hl : 0 < c.coord.interp.locals.length := by
    rw [← h.coordLength c hc]; exact List.length_pos_iff.mpr (h.coordNonempty c hc)
  obtain ⟨k, hk⟩ : ∃ k, c.coord.interp.locals.length = k + 1 := ⟨_, (Nat.succ_pred_eq_of_pos hl).symm⟩
  obtain ⟨vs, hvs⟩ : ∃ vs, coordVisits m = ⟨c.coord, c.coord, 0⟩ :: vs := by
    rw [coordVisits, hm, List.flatMap_cons, hk, List.range_succ_eq_map, List.map_cons, List.cons_append]
    exact ⟨_, rfl⟩
  obtain ⟨n, p, hs, hp⟩ := coordShows h (v := ⟨c.coord, c.coord, 0⟩) (by rw [hvs]; exact List.mem_cons_self)
  have : p[direction]? = none := List.getElem?_eq_none (hp ▸ hdir)
  have h2 : coordPlace m ⟨c.coord, c.coord, 0⟩ = .ok p := hs.2
  rw [nodesAtAxis, hvs, Res.foldlM_cons, axisStep, h2, Res.bind_ok', this]
  rfl

/-- **C69** `NodesTotal()` and `NodesTotal(dofType)` return every node of the kind exactly once; `ElementsTotal()` every element
in the order of the mesh. -/
theorem C69_total (h : WellFormed m d) (dof : Nat) :
    (∃ g, nodesTotal m = .ok g ∧ g.data.Nodup ∧ ∀ n, n ∈ g.data ↔ ∃ c ∈ m.elements, n ∈ c.coord.nodes) ∧
    (∃ g, dofNodesTotal m dof = .ok g ∧ g.data.Nodup ∧
      ∀ n, n ∈ g.data ↔ ∃ c ∈ m.elements, ∃ e, c.dofs.find? dof = some e ∧ n ∈ e.nodes) ∧
    (elementsTotal m).data = List.range m.elements.length := by
  refine ⟨?_, ?_, ?_⟩
  · obtain ⟨g, h1, h2, h3⟩ := total_spec (coordVisits m) (fun v hv => let ⟨n, _, hs, _⟩ := coordShows h hv; ⟨n, hs.1⟩)
      Group.empty Group.inv_empty
    refine ⟨g, h1, h2.nodup, fun n => ?_⟩
    rw [h3]
    constructor
    · rintro (h | ⟨v, hv, hs⟩)
      · exact absurd h (by simp [Group.empty])
      · obtain ⟨c, hc, i, hi, rfl⟩ := mem_coordVisits.mp hv
        exact ⟨c, hc, List.mem_of_getElem? (getNode_eq_ok.mp hs)⟩
    · rintro ⟨c, hc, hn⟩
      obtain ⟨i, hi, rfl⟩ := List.mem_iff_getElem.mp hn
      exact Or.inr ⟨⟨c.coord, c.coord, i⟩, mem_coordVisits.mpr ⟨c, hc, i, h.coordLength c hc ▸ hi, rfl⟩,
        getNode_eq_ok.mpr (List.getElem?_eq_getElem hi)⟩
  · obtain ⟨g, h1, h2, h3⟩ := total_spec (dofVisits m dof) (fun v hv => let ⟨n, _, hs, _⟩ := dofShows h hv; ⟨n, hs.1⟩)
      Group.empty Group.inv_empty
    refine ⟨g, h1, h2.nodup, fun n => ?_⟩
    rw [h3]
    constructor
    · rintro (h | ⟨v, hv, hs⟩)
      · exact absurd h (by simp [Group.empty])
      · obtain ⟨c, hc, e, he, i, hi, rfl⟩ := mem_dofVisits.mp hv
        exact ⟨c, hc, e, he, List.mem_of_getElem? (getNode_eq_ok.mp hs)⟩
    · rintro ⟨c, hc, e, he, hn⟩
      obtain ⟨i, hi, rfl⟩ := List.mem_iff_getElem.mp hn
      exact Or.inr ⟨⟨c.coord, e, i⟩, mem_dofVisits.mpr ⟨c, hc, e, he, i, h.dofLength c hc dof e he ▸ hi, rfl⟩,
        getNode_eq_ok.mpr (List.getElem?_eq_getElem hi)⟩
  · have := Group.data_foldl_add (List.range m.elements.length) List.nodup_range Group.empty Group.inv_empty
    rw [elementsTotal, this]
    simp [Group.empty]

/-- two linear lines on the plane axis with a shared node and a quadratic dof type on the first one -/
def selectionMesh : Mesh ℚ :=
  let linear : Interp ℚ := ⟨0, [[-1], [1]], fun xi => [(1 - xi.getD 0 0) / 2, (1 + xi.getD 0 0) / 2]⟩
  let quadratic : Interp ℚ := ⟨0, [[-1], [0], [1]], fun _ => []⟩
  ⟨[[0, 1], [2, 1], [4, 1], [0], [0], [0]],
    [⟨⟨[0, 1], linear⟩, [(7, ⟨[3, 4, 5], quadratic⟩)]⟩, ⟨⟨[1, 2], linear⟩, []⟩]⟩

theorem selectionMesh_wellFormed : WellFormed selectionMesh 2 := by
  refine ⟨?_, ?_, ?_, ?_, ?_⟩ <;>
    simp [selectionMesh, OMap.find?]

example : dofNodeAtCoordinate selectionMesh [1, 1] 7 (1 / 100) = .ok 4 ∧ nodeAtCoordinate selectionMesh [2, 1] 0 = .ok 1 ∧
    dofNodeAtCoordinate selectionMesh [3, 1] 7 (1 / 100) = .throw ∧
    (∃ g, nodesAtAxis selectionMesh 1 1 (1 / 10) = .ok g ∧ g.data = [0, 1, 2]) ∧
    nodesAtAxis selectionMesh 2 0 1 = .ub := by
  refine ⟨by decide +kernel, by decide +kernel, by decide +kernel, ⟨⟨[0, 1, 2], [0, 1, 2]⟩, by decide +kernel, rfl⟩,
    C69_axis_direction selectionMesh_wellFormed 2 (by decide) _ _ (by simp [selectionMesh])⟩

end MeshFem
end NuTo
