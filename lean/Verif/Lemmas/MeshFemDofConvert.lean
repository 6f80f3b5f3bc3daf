import Verif.Model.MeshFemDofConvert
import Verif.Props.SubBoxes
import Mathlib.Algebra.Order.BigOperators.Group.List
import Mathlib.Algebra.BigOperators.Ring.List

/-! Lemmas about `AddDofInterpolation`. -/
set_option linter.unusedSectionVars false
namespace NuTo
open SubBoxes
variable {K : Type _} [Field K] [LinearOrder K] [IsStrictOrderedRing K] [FloorRing K]
namespace MeshFem

theorem to3D_ok {v : List K} (h : v.length ≤ 3) : to3D v = .ok ⟨v.getD 0 0, v.getD 1 0, v.getD 2 0⟩ := by
  match v, h with
  | [], _ => rfl
  | [x], _ => rfl
  | [x, y], _ => rfl
  | [x, y, z], _ => rfl
  | _ :: _ :: _ :: _ :: _, h => simp at h

/-- the running bounding box -/
theorem bound_ok (dim : Nat) (vs : List (List K)) (hvs : ∀ v ∈ vs, v.length = dim) :
    ∀ a b : List K, a.length = dim → b.length = dim → ∃ a' b', Res.foldlM boundStep (a, b) vs = .ok (a', b') ∧
      a'.length = dim ∧ b'.length = dim ∧ (∀ i, a'.getD i 0 ≤ a.getD i 0 ∧ b.getD i 0 ≤ b'.getD i 0) ∧
      ∀ v ∈ vs, ∀ i, a'.getD i 0 ≤ v.getD i 0 ∧ v.getD i 0 ≤ b'.getD i 0 := by
  induction vs with
  | nil => intro a b ha hb; exact ⟨a, b, rfl, ha, hb, fun i => ⟨le_refl _, le_refl _⟩, by simp⟩
  | cons v vs ih =>
    intro a b ha hb
    have hv := hvs v (by simp)
    obtain ⟨a', b', e, h1, h2, h3, h4⟩ := ih (fun w hw => hvs w (by simp [hw])) (List.zipWith min a v) (List.zipWith max b v)
      (by simp [ha, hv]) (by simp [hb, hv])
    have hmin : ∀ i, (List.zipWith min a v).getD i 0 = min (a.getD i 0) (v.getD i 0) := by
      intro i
      by_cases hi : i < dim
      · simp [List.getD_eq_getElem?_getD, List.getElem?_zipWith, List.getElem?_eq_getElem (ha ▸ hi : i < a.length),
          List.getElem?_eq_getElem (hv ▸ hi : i < v.length)]
      · simp [List.getD_eq_getElem?_getD, List.getElem?_zipWith, List.getElem?_eq_none (by omega : a.length ≤ i),
          List.getElem?_eq_none (by omega : v.length ≤ i)]
    have hmax : ∀ i, (List.zipWith max b v).getD i 0 = max (b.getD i 0) (v.getD i 0) := by
      intro i
      by_cases hi : i < dim
      · simp [List.getD_eq_getElem?_getD, List.getElem?_zipWith, List.getElem?_eq_getElem (hb ▸ hi : i < b.length),
          List.getElem?_eq_getElem (hv ▸ hi : i < v.length)]
      · simp [List.getD_eq_getElem?_getD, List.getElem?_zipWith, List.getElem?_eq_none (by omega : b.length ≤ i),
          List.getElem?_eq_none (by omega : v.length ≤ i)]
    refine ⟨a', b', ?_, h1, h2, ?_, ?_⟩
    · rw [Res.foldlM_cons]
      simp only [boundStep, Res.require, ha, hv, if_true, Res.bind_ok']
      exact e
    · intro i
      have := h3 i
      rw [hmin, hmax] at this
      exact ⟨this.1.trans (min_le_left _ _), (le_max_left _ _).trans this.2⟩
    · intro w hw i
      rcases List.mem_cons.mp hw with rfl | hw
      · have := h3 i
        rw [hmin, hmax] at this
        exact ⟨this.1.trans (min_le_right _ _), (le_max_right _ _).trans this.2⟩
      · exact h4 w hw i

/-- weights `≥ 0` with sum 1 give a value between the bounds -/
theorem convex_bounds {lo hi : K} : ∀ (w xs : List K), w.length = xs.length → (∀ a ∈ w, 0 ≤ a) →
    (∀ x ∈ xs, lo ≤ x ∧ x ≤ hi) → w.sum * lo ≤ (List.zipWith (· * ·) w xs).sum ∧ (List.zipWith (· * ·) w xs).sum ≤ w.sum * hi := by
  intro w
  induction w with
  | nil => intro xs _ _ _; simp
  | cons a w ih =>
    intro xs hl hw hx
    cases xs with
    | nil => simp at hl
    | cons x xs =>
      obtain ⟨h1, h2⟩ := ih xs (by simpa using hl) (fun b hb => hw b (by simp [hb])) (fun y hy => hx y (by simp [hy]))
      have ha := hw a (by simp)
      obtain ⟨x1, x2⟩ := hx x (by simp)
      simp only [List.zipWith_cons_cons, List.sum_cons]
      constructor <;> nlinarith

end MeshFem

open MeshFem

/-- what a mesh built by the library satisfies: dimension 1 to 3, at least one element, elements refer to existing nodes whose
values have the dimension of the mesh -/
structure Mesh.Proper (m : Mesh K) (dim : Nat) : Prop where
  dim_le : dim ≤ 3
  nonempty : m.elements ≠ []
  coord : ∀ c ∈ m.elements, c.coord.nodes ≠ [] ∧ ∀ n ∈ c.coord.nodes, ∃ v, m.nodes[n]? = some v ∧ v.length = dim
  dofs : ∀ c ∈ m.elements, ∀ dof e, c.dofs.find? dof = some e → e.interp.locals.length = e.nodes.length ∧
    ∀ n ∈ e.nodes, n < m.nodes.length

/-- the local coordinates lie in the element in the sense that the position is a convex combination of the nodes (true at the
nodes of the coordinate interpolation itself, and everywhere in the reference cell of linear elements) -/
def Elem.ConvexAt (e : Elem K) (xi : List K) : Prop :=
  (e.interp.N xi).length = e.nodes.length ∧ (∀ a ∈ e.interp.N xi, 0 ≤ a) ∧ (e.interp.N xi).sum = 1

namespace MeshFem
variable {m : Mesh K} {dim : Nat}

theorem nodeValues_length (hm : m.Proper dim) {c : Coll K} (hc : c ∈ m.elements) :
    ∀ v ∈ nodeValues m.nodes c.coord, v.length = dim := by
  intro v hv
  obtain ⟨n, hn, rfl⟩ := List.mem_map.mp hv
  obtain ⟨v, h1, h2⟩ := (hm.coord c hc).2 n hn
  rw [List.getD_eq_getElem?_getD, h1]; exact h2

theorem dofDimension_eq (hm : m.Proper dim) {c : Coll K} (hc : c ∈ m.elements) : dofDimension m.nodes c.coord = dim := by
  have h := nodeValues_length hm hc
  have hne := (hm.coord c hc).1
  unfold dofDimension
  cases hv : nodeValues m.nodes c.coord with
  | nil => simp [nodeValues] at hv; exact absurd hv hne
  | cons v vs => exact h v (by rw [hv]; simp)

theorem position_ok (hm : m.Proper dim) {c : Coll K} (hc : c ∈ m.elements) {xi : List K}
    (hx : (c.coord.interp.N xi).length = c.coord.nodes.length) :
    ∃ l : List K, l.length = dim ∧
      (∀ k, k < dim → l.getD k 0 = (List.zipWith (· * ·) (c.coord.interp.N xi)
        ((nodeValues m.nodes c.coord).map fun v => v.getD k 0)).sum) ∧
      position m.nodes c.coord xi = .ok ⟨l.getD 0 0, l.getD 1 0, l.getD 2 0⟩ := by
  have hd := dofDimension_eq hm hc
  refine ⟨(List.range dim).map fun c' => (List.zipWith (fun a (v : List K) => a * v.getD c' 0) (c.coord.interp.N xi)
    (nodeValues m.nodes c.coord)).sum, by simp, ?_, ?_⟩
  · intro k hk
    rw [List.getD_eq_getElem?_getD, List.getElem?_map, List.getElem?_range hk]
    simp [List.zipWith_map_right]
  · unfold position interpolate
    rw [Res.require, if_pos ⟨by rw [hd]; exact nodeValues_length hm hc, hx, (hm.coord c hc).1⟩, Res.bind_ok', hd, to3D_ok]
    simpa using hm.dim_le

/-- the domain of the sub boxes contains all convex combinations of element nodes -/
theorem setupDomain_ok (hm : m.Proper dim) {n : Nat} (hn : 0 < n) {eps : K} (he : 0 < eps) :
    ∃ d, setupDomain m n eps = .ok d ∧ d.Proper ∧ d.r2 = eps * eps ∧
      ∀ c ∈ m.elements, ∀ xi, c.coord.ConvexAt xi → ∃ q, position m.nodes c.coord xi = .ok q ∧ d.Inside q := by
  have hall : ∀ v ∈ allCoords m, v.length = dim := by
    intro v hv
    obtain ⟨c, hc, hv⟩ := List.mem_flatMap.mp hv
    exact nodeValues_length hm hc v hv
  obtain ⟨v, vs, hvs⟩ : ∃ v vs, allCoords m = v :: vs := by
    cases h : allCoords m with
    | cons v vs => exact ⟨v, vs, rfl⟩
    | nil =>
      exfalso
      obtain ⟨c, cs, hc⟩ := List.exists_cons_of_ne_nil hm.nonempty
      have h2 := (hm.coord c (by rw [hc]; simp)).1
      unfold allCoords at h
      rw [hc] at h
      simp [nodeValues] at h
      exact h2 h.1
  have hv := hall v (by rw [hvs]; simp)
  obtain ⟨a, b, e, h1, h2, h3, h4⟩ := bound_ok dim (v :: vs) (by rw [← hvs]; exact hall) v v hv hv
  have hab : ∀ i, a.getD i 0 ≤ b.getD i 0 := fun i => (h3 i).1.trans (h3 i).2
  refine ⟨⟨⟨a.getD 0 0 - eps, a.getD 1 0 - eps, a.getD 2 0 - eps⟩, ⟨b.getD 0 0 + eps, b.getD 1 0 + eps, b.getD 2 0 + eps⟩,
        ⟨sub n dim 0, sub n dim 1, sub n dim 2⟩, eps * eps⟩, ?_, ?_, rfl, ?_⟩
  · unfold setupDomain
    rw [hvs]
    simp only [e, Res.bind_ok', to3D_ok (h1 ▸ hm.dim_le : a.length ≤ 3), to3D_ok (h2 ▸ hm.dim_le : b.length ≤ 3), h1]
  · have hs : ∀ i, 0 < sub n dim i := by intro i; unfold sub; split <;> omega
    exact ⟨⟨by have := hab 0; simp only; linarith, hs 0⟩, ⟨by have := hab 1; simp only; linarith, hs 1⟩,
      ⟨by have := hab 2; simp only; linarith, hs 2⟩⟩
  · intro c hc xi ⟨hl, hpos, hsum⟩
    obtain ⟨l, hlen, hval, hp⟩ := position_ok hm hc hl
    refine ⟨_, hp, ?_⟩
    have hk : ∀ k, a.getD k 0 ≤ l.getD k 0 ∧ l.getD k 0 ≤ b.getD k 0 := by
      intro k
      by_cases hk : k < dim
      · rw [hval k hk]
        have hb := convex_bounds (lo := a.getD k 0) (hi := b.getD k 0) (c.coord.interp.N xi)
          ((nodeValues m.nodes c.coord).map fun v => v.getD k 0) (by simp [hl, nodeValues]) hpos (by
            intro x hx
            obtain ⟨w, hw, rfl⟩ := List.mem_map.mp hx
            exact h4 w (by rw [← hvs]; exact List.mem_flatMap.mpr ⟨c, hc, hw⟩) k)
        rw [hsum, one_mul, one_mul] at hb
        exact hb
      · have z : ∀ x : List K, x.length = dim → x.getD k 0 = 0 := by
          intro x hx; rw [List.getD_eq_getElem?_getD, List.getElem?_eq_none (by omega)]; rfl
        rw [z a h1, z b h2, z l hlen]; exact ⟨le_refl _, le_refl _⟩
    have k0 := hk 0; have k1 := hk 1; have k2 := hk 2
    refine ⟨⟨?_, ?_⟩, ⟨?_, ?_⟩, ⟨?_, ?_⟩⟩ <;> simp only <;> linarith

/-- positions do not depend on nodes appended later -/
theorem position_append (hm : m.Proper dim) {c : Coll K} (hc : c ∈ m.elements) (extra : List (List K)) (xi : List K) :
    position (m.nodes ++ extra) c.coord xi = position m.nodes c.coord xi := by
  have h : nodeValues (m.nodes ++ extra) c.coord = nodeValues m.nodes c.coord := by
    unfold nodeValues
    apply List.map_congr_left
    intro n hn
    obtain ⟨v, h1, -⟩ := (hm.coord c hc).2 n hn
    have hlt : n < m.nodes.length := (List.getElem?_eq_some_iff.mp h1).1
    rw [List.getD_eq_getElem?_getD, List.getD_eq_getElem?_getD, List.getElem?_append_left hlt]
  unfold position interpolate dofDimension
  rw [h]

/-! ### the loop over the requested positions -/

/-- positions considered, and the separation that makes the tolerance irrelevant -/
def Sep (d : SubBoxDomain K) (T : V3 K → Prop) : Prop := ∀ a b, T a → T b → a = b ∨ d.r2 ≤ dist2 a b

theorem dist2_comm (a b : V3 K) : dist2 a b = dist2 b a := by unfold dist2; ring
theorem dist2_self (a : V3 K) : dist2 a a = 0 := by unfold dist2; ring

/-- content of the boxes and of the node container during the loop -/
structure RunInv (d : SubBoxDomain K) (T : V3 K → Prop) (base : List (List K)) (num : Nat) (b : SubBoxes K)
    (nodes : List (List K)) (ps : List (NodePoint K)) : Prop where
  holds : Holds b d ps
  inside : ∀ p ∈ ps, d.Inside p.pos
  considered : ∀ p ∈ ps, T p.pos
  grown : ∃ k, nodes = base ++ List.replicate k (List.replicate num 0)
  lt : ∀ p ∈ ps, p.node < nodes.length
  func : ∀ p ∈ ps, ∀ p' ∈ ps, p.node = p'.node → p.pos = p'.pos
  inj : ∀ p ∈ ps, ∀ p' ∈ ps, p.pos = p'.pos → p.node = p'.node

/-- `n` is the node that serves position `q` -/
def Served (d : SubBoxDomain K) (T : V3 K → Prop) (ps : List (NodePoint K)) (q : V3 K) (n : Nat) : Prop :=
  (∃ p ∈ ps, p.node = n ∧ dist2 p.pos q < d.r2) ∧ (Sep d T → ∃ p, ps.find? (fun p => p.pos = q) = some p ∧ p.node = n)

theorem Served.append {d : SubBoxDomain K} {T : V3 K → Prop} {ps : List (NodePoint K)} {q : V3 K} {n : Nat}
    (h : Served d T ps q n) (more : List (NodePoint K)) : Served d T (ps ++ more) q n := by
  refine ⟨?_, fun hs => ?_⟩
  · obtain ⟨p, hp, h1⟩ := h.1; exact ⟨p, by simp [hp], h1⟩
  · obtain ⟨p, h1, h2⟩ := h.2 hs
    exact ⟨p, by rw [List.find?_append, h1]; rfl, h2⟩

theorem findAt_sep {d : SubBoxDomain K} {T : V3 K → Prop} (hs : Sep d T) {b : SubBoxes K} {ps : List (NodePoint K)}
    (hb : Holds b d ps) (hT : ∀ p ∈ ps, T p.pos) {q : V3 K} (hq : T q) {p : NodePoint K} (h : b.findAt q = some p) :
    ps.find? (fun p => p.pos = q) = some p := by
  obtain ⟨hmem, hlt⟩ := findAt_some hb h
  have hpq : p.pos = q := by
    rcases hs _ _ (hT p hmem) hq with h' | h'
    · exact h'
    · exact absurd hlt (not_lt.mpr h')
  obtain ⟨rfl, h2⟩ := hb
  obtain ⟨c, -, hc⟩ := List.exists_of_findSome?_eq_some h
  have hin := List.mem_of_find?_eq_some hc
  rw [h2] at hin hc
  have hidx : index b.dom (cell b.dom p.pos) = index b.dom c := by simpa using (List.mem_filter.mp hin).2
  rw [List.find?_filter] at hc
  rw [List.find?_eq_some_iff_append] at hc ⊢
  obtain ⟨-, as, bs, e, hall⟩ := hc
  refine ⟨by simpa using hpq, as, bs, e, ?_⟩
  intro a ha
  have h3 := hall a ha
  by_contra hcon
  have haq : a.pos = q := by simpa using hcon
  have hr : 0 < b.dom.r2 := lt_of_le_of_lt (by rw [hpq, dist2_self]) hlt
  rw [haq, dist2_self, ← hidx, hpq] at h3
  simp [hr] at h3

variable {d : SubBoxDomain K} {T : V3 K → Prop} {base : List (List K)} {num : Nat}

theorem request_ok (hd : d.Proper) (hr : ¬ d.r2 > minDelta d * minDelta d) (hr0 : 0 < d.r2) {s : NodeSt K}
    {ps : List (NodePoint K)} (hi : RunInv d T base num s.boxes s.nodes ps) {q : V3 K} (hq : d.Inside q) (hT : T q) :
    ∃ s' more n, requestStep num s q = .ok s' ∧ RunInv d T base num s'.boxes s'.nodes (ps ++ more) ∧
      s'.ids = s.ids ++ [n] ∧ Served d T (ps ++ more) q n ∧
      (∀ p ∈ more, p.node = s.nodes.length) ∧ more.length ≤ 1 ∧ s.nodes.length ≤ s'.nodes.length ∧
      (∀ p ∈ more, ∀ p' ∈ ps, ¬ dist2 p'.pos p.pos < d.r2) := by
  unfold requestStep
  cases hf : s.boxes.findAt q with
  | some p =>
    obtain ⟨hmem, hlt⟩ := findAt_some hi.holds hf
    refine ⟨_, [], p.node, rfl, by simpa using hi, rfl, ?_, by simp, by simp, le_refl _, by simp⟩
    rw [List.append_nil]
    exact ⟨⟨p, hmem, rfl, hlt⟩, fun hs => ⟨p, findAt_sep hs hi.holds hi.considered hT hf, rfl⟩⟩
  | none =>
    have hnone := fun p (hp : p ∈ ps) => findAt_none hd hr hi.inside hi.holds hf hp
    obtain ⟨b', e, hb'⟩ := add_ok hd hi.holds (p := ⟨q, s.nodes.length⟩) hq
    refine ⟨⟨s.nodes ++ [List.replicate num 0], b', s.ids ++ [s.nodes.length]⟩, [⟨q, s.nodes.length⟩], s.nodes.length,
      by simp only [e, Res.bind_ok'], ⟨hb', ?_, ?_, ?_, ?_, ?_, ?_⟩, rfl, ?_, by simp, by simp, by simp, ?_⟩
    · intro p hp
      rcases List.mem_append.mp hp with h | h
      · exact hi.inside p h
      · simp only [List.mem_singleton] at h; subst h; exact hq
    · intro p hp
      rcases List.mem_append.mp hp with h | h
      · exact hi.considered p h
      · simp only [List.mem_singleton] at h; subst h; exact hT
    · obtain ⟨k, hk⟩ := hi.grown
      exact ⟨k + 1, by simp only; rw [hk, List.replicate_succ', List.append_assoc]⟩
    · intro p hp
      simp only [List.length_append, List.length_singleton]
      rcases List.mem_append.mp hp with h | h
      · have := hi.lt p h; omega
      · simp only [List.mem_singleton] at h; subst h; simp
    · intro p hp p' hp' e2
      rcases List.mem_append.mp hp with h | h <;> rcases List.mem_append.mp hp' with h' | h'
      · exact hi.func p h p' h' e2
      · simp only [List.mem_singleton] at h'; subst h'
        have := hi.lt p h; simp only at e2; omega
      · simp only [List.mem_singleton] at h; subst h
        have := hi.lt p' h'; simp only at e2; omega
      · simp only [List.mem_singleton] at h h'; subst h; subst h'; rfl
    · intro p hp p' hp' e2
      rcases List.mem_append.mp hp with h | h <;> rcases List.mem_append.mp hp' with h' | h'
      · exact hi.inj p h p' h' e2
      · simp only [List.mem_singleton] at h'; subst h'
        have h3 := hnone p h
        rw [e2, dist2_self] at h3; exact absurd hr0 h3
      · simp only [List.mem_singleton] at h; subst h
        have h3 := hnone p' h'
        rw [← e2, dist2_self] at h3; exact absurd hr0 h3
      · simp only [List.mem_singleton] at h h'; subst h; subst h'; rfl
    · refine ⟨⟨⟨q, s.nodes.length⟩, by simp, rfl, by rw [dist2_self]; exact hr0⟩, fun _ => ⟨⟨q, s.nodes.length⟩, ?_, rfl⟩⟩
      rw [List.find?_append, List.find?_eq_none.mpr]
      · simp
      · intro p hp
        have h := hnone p hp
        intro hpq
        have hpq : p.pos = q := by simpa using hpq
        rw [hpq, dist2_self] at h
        exact h hr0
    · intro p hp p' hp'
      simp only [List.mem_singleton] at hp; subst hp
      exact hnone p' hp'

/-- the loop over the nodes of one element: `xis` are the local coordinates, `qs` the positions -/
theorem locals_ok (hm : m.Proper dim) (hd : d.Proper) (hr : ¬ d.r2 > minDelta d * minDelta d) (hr0 : 0 < d.r2)
    {c : Coll K} (hc : c ∈ m.elements) (xis : List (List K))
    (hx : ∀ xi ∈ xis, ∃ q, position m.nodes c.coord xi = .ok q ∧ d.Inside q ∧ T q) :
    ∀ (s : NodeSt K) (ps : List (NodePoint K)), RunInv d T m.nodes num s.boxes s.nodes ps →
      ∃ s' more ns, Res.foldlM (localStep num c.coord) s xis = .ok s' ∧
        RunInv d T m.nodes num s'.boxes s'.nodes (ps ++ more) ∧ s'.ids = s.ids ++ ns ∧ ns.length = xis.length ∧
        (∀ (i : Nat) xi n q, xis[i]? = some xi → ns[i]? = some n → position m.nodes c.coord xi = .ok q →
          Served d T (ps ++ more) q n) := by
  induction xis with
  | nil => intro s ps hi; exact ⟨s, [], [], rfl, by simpa using hi, by simp, rfl, by simp⟩
  | cons xi xis ih =>
    intro s ps hi
    obtain ⟨q, hq, hin, hT⟩ := hx xi (by simp)
    obtain ⟨s1, more1, n1, e1, i1, ids1, sv1, -⟩ := request_ok hd hr hr0 hi hin hT
    obtain ⟨s2, more2, ns, e2, i2, ids2, len2, sv2⟩ := ih (fun x h => hx x (by simp [h])) s1 _ i1
    refine ⟨s2, more1 ++ more2, n1 :: ns, ?_, by simpa using i2, by rw [ids2, ids1]; simp, by simp [len2], ?_⟩
    · rw [Res.foldlM_cons]
      have : localStep num c.coord s xi = .ok s1 := by
        unfold localStep
        obtain ⟨k, hk⟩ := hi.grown
        rw [hk, position_append hm hc, hq, Res.bind_ok', e1]
      rw [this]; exact e2
    · intro i xi' n q' hxi hn hq'
      cases i with
      | zero =>
        simp only [List.getElem?_cons_zero, Option.some.injEq] at hxi hn
        subst hxi; subst hn
        rw [hq] at hq'
        injection hq' with hq'
        subst hq'
        rw [← List.append_assoc]
        exact sv1.append more2
      | succ i =>
        simp only [List.getElem?_cons_succ] at hxi hn
        rw [← List.append_assoc]
        exact sv2 i xi' n q' hxi hn hq'

end MeshFem
end NuTo
