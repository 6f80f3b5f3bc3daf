import Verif.Lemmas.MeshFemDofConvert

/-! C23: `AddDofInterpolation` shares nodes. -/
set_option linter.unusedSectionVars false
namespace NuTo
open SubBoxes MeshFem
variable {K : Type _} [Field K] [LinearOrder K] [IsStrictOrderedRing K] [FloorRing K]

/-- local node `i` of the dof element of collection `e` is the node `n`, and sits at position `q` (positions are given by the
coordinate element, whose node values are `coords`) -/
def Mesh.NodeAt (coords : List (List K)) (m : Mesh K) (dof e i n : Nat) (q : V3 K) : Prop :=
  ∃ c el xi, m.elements[e]? = some c ∧ c.dofs.find? dof = some el ∧ el.nodes[i]? = some n ∧ el.interp.locals[i]? = some xi ∧
    position coords c.coord xi = .ok q

/-- positions at which the call asks for a node -/
def Mesh.Requested (m : Mesh K) (group : List Nat) (opt : Option (Interp K)) (q : V3 K) : Prop :=
  ∃ e ∈ group, ∃ c xi, m.elements[e]? = some c ∧ xi ∈ (opt.getD c.coord.interp).locals ∧ position m.nodes c.coord xi = .ok q

/-- one node per position, different nodes at different positions -/
def Mesh.Conforming (coords : List (List K)) (m : Mesh K) (dof : Nat) : Prop :=
  ∀ e i n q e' i' n' q', m.NodeAt coords dof e i n q → m.NodeAt coords dof e' i' n' q' → (n = n' ↔ q = q')

/-- the call is meaningful: distinct existing elements without this dof type, matching shapes, and all nodes (old and new) at
convex combinations of the coordinate nodes -/
structure Mesh.Callable (m : Mesh K) (dim dof : Nat) (group : List Nat) (opt : Option (Interp K)) : Prop where
  proper : m.Proper dim
  nodup : group.Nodup
  elements : ∀ e ∈ group, ∃ c, m.elements[e]? = some c ∧ c.dofs.find? dof = none ∧
    (opt.getD c.coord.interp).shape = c.coord.interp.shape ∧ ∀ xi ∈ (opt.getD c.coord.interp).locals, c.coord.ConvexAt xi
  old : ∀ c ∈ m.elements, ∀ el, c.dofs.find? dof = some el → ∀ xi ∈ el.interp.locals, c.coord.ConvexAt xi

namespace MeshFem
variable {m : Mesh K} {dim dof num : Nat} {group : List Nat} {opt : Option (Interp K)} {d : SubBoxDomain K} {T : V3 K → Prop}

/-- state after the elements in `done` -/
structure LoopInv (m : Mesh K) (dof num : Nat) (opt : Option (Interp K)) (d : SubBoxDomain K) (T : V3 K → Prop)
    (s : Mesh K × SubBoxes K) (ps : List (NodePoint K)) (done : List Nat) : Prop where
  run : RunInv d T m.nodes num s.2 s.1.nodes ps
  length : s.1.elements.length = m.elements.length
  elems : ∀ (e : Nat) c, m.elements[e]? = some c → ∃ c', s.1.elements[e]? = some c' ∧ c'.coord = c.coord ∧
    (∀ d', d' ≠ dof → c'.dofs.find? d' = c.dofs.find? d') ∧ (e ∉ done → c' = c) ∧
    (e ∈ done → ∃ ids, c'.dofs.find? dof = some ⟨ids, opt.getD c.coord.interp⟩ ∧
      ids.length = (opt.getD c.coord.interp).locals.length ∧
      ∀ (i : Nat) xi n q, (opt.getD c.coord.interp).locals[i]? = some xi → ids[i]? = some n →
        position m.nodes c.coord xi = .ok q → Served d T ps q n)

theorem element_ok (hc : m.Callable dim dof group opt) (hd : d.Proper) (hr : ¬ d.r2 > minDelta d * minDelta d)
    (hr0 : 0 < d.r2)
    (hin : ∀ c ∈ m.elements, ∀ xi, c.coord.ConvexAt xi → ∃ q, position m.nodes c.coord xi = .ok q ∧ d.Inside q)
    (hT : ∀ q, m.Requested group opt q → T q) {s : Mesh K × SubBoxes K} {ps : List (NodePoint K)} {done : List Nat}
    (hi : LoopInv m dof num opt d T s ps done) {e : Nat} (he : e ∈ group) (hnd : e ∉ done) :
    ∃ s' more, elementStep dof num opt s e = .ok s' ∧ LoopInv m dof num opt d T s' (ps ++ more) (e :: done) := by
  obtain ⟨c, h1, h2, h3, h4⟩ := hc.elements e he
  obtain ⟨c', g1, g2, g3, g4, -⟩ := hi.elems e c h1
  have hcc := g4 hnd
  subst hcc
  have hmem : c' ∈ m.elements := List.mem_of_getElem? h1
  obtain ⟨r, more, ns, e1, i1, ids1, len1, sv1⟩ := locals_ok (T := T) (num := num) hc.proper hd hr hr0 hmem
    (opt.getD c'.coord.interp).locals (by
      intro xi hxi
      obtain ⟨q, hq, hq2⟩ := hin c' hmem xi (h4 xi hxi)
      exact ⟨q, hq, hq2, hT q ⟨e, he, c', xi, h1, hxi, hq⟩⟩) ⟨s.1.nodes, s.2, []⟩ ps hi.run
  have hlt : e < s.1.elements.length := (List.getElem?_eq_some_iff.mp g1).1
  refine ⟨(⟨r.nodes, s.1.elements.set e { c' with dofs := c'.dofs.set dof ⟨r.ids, opt.getD c'.coord.interp⟩ }⟩, r.boxes),
    more, ?_, ⟨i1, by simp [hi.length], ?_⟩⟩
  · unfold elementStep
    simp only [g1]
    rw [if_neg (fun hne => hne h3.symm)]
    simp only [e1, Res.bind_ok', h2]
  · intro e' x hx
    by_cases hee : e' = e
    · subst hee
      rw [h1] at hx
      injection hx with hx
      subst hx
      refine ⟨{ c' with dofs := c'.dofs.set dof ⟨r.ids, opt.getD c'.coord.interp⟩ }, by simp [hlt], rfl, ?_, by simp, ?_⟩
      · intro d' hd'
        simp only [OMap.find?_set, if_neg hd']
      · intro _
        refine ⟨r.ids, by simp [OMap.find?_set], by rw [ids1]; simpa using len1, ?_⟩
        intro i xi n q hxi hn hq
        rw [ids1, List.nil_append] at hn
        exact sv1 i xi n q hxi hn hq
    · obtain ⟨x', k1, k2, k3, k4, k5⟩ := hi.elems e' x hx
      refine ⟨x', by simp only [List.getElem?_set_ne (Ne.symm hee), k1], k2, k3, ?_, ?_⟩
      · intro h; exact k4 (fun h' => h (by simp [h']))
      · intro h
        rcases List.mem_cons.mp h with h | h
        · exact absurd h hee
        · obtain ⟨ids, j1, j2, j3⟩ := k5 h
          exact ⟨ids, j1, j2, fun i xi n q a b c => (j3 i xi n q a b c).append more⟩

theorem elements_ok (hc : m.Callable dim dof group opt) (hd : d.Proper) (hr : ¬ d.r2 > minDelta d * minDelta d)
    (hr0 : 0 < d.r2)
    (hin : ∀ c ∈ m.elements, ∀ xi, c.coord.ConvexAt xi → ∃ q, position m.nodes c.coord xi = .ok q ∧ d.Inside q)
    (hT : ∀ q, m.Requested group opt q → T q) :
    ∀ (todo done : List Nat) (s : Mesh K × SubBoxes K) (ps : List (NodePoint K)), LoopInv m dof num opt d T s ps done →
      (∀ e ∈ todo, e ∈ group) → todo.Nodup → (∀ e ∈ todo, e ∉ done) →
      ∃ s' more done', Res.foldlM (elementStep dof num opt) s todo = .ok s' ∧
        LoopInv m dof num opt d T s' (ps ++ more) done' ∧ ∀ e, e ∈ done' ↔ e ∈ todo ∨ e ∈ done := by
  intro todo
  induction todo with
  | nil => intro done s ps hi _ _ _; exact ⟨s, [], done, rfl, by simpa using hi, by simp⟩
  | cons e todo ih =>
    intro done s ps hi h1 h2 h3
    obtain ⟨s1, more1, e1, i1⟩ := element_ok hc hd hr hr0 hin hT hi (h1 e (by simp)) (h3 e (by simp))
    rw [List.nodup_cons] at h2
    obtain ⟨s2, more2, done', e2, i2, hd'⟩ := ih (e :: done) s1 _ i1 (fun x hx => h1 x (by simp [hx])) h2.2 (by
      intro x hx hx'
      rcases List.mem_cons.mp hx' with rfl | hx'
      · exact h2.1 hx
      · exact h3 x (by simp [hx]) hx')
    refine ⟨s2, more1 ++ more2, done', by rw [Res.foldlM_cons, e1]; exact e2, by simpa using i2, ?_⟩
    intro x
    rw [hd']
    simp only [List.mem_cons]
    tauto

/-- `NodePointsTotal` lists exactly the existing nodes of the dof type with their positions -/
theorem points_ok (nodes : List (List K)) (c : Elem K) : ∀ (xs : List (List K × Nat)) (l : List (NodePoint K)),
    (∀ p ∈ xs, ∃ q, position nodes c p.1 = .ok q) →
    ∃ new, Res.foldlM (pointStep nodes c) l xs = .ok (l ++ new) ∧
      (∀ x, x ∈ new ↔ ∃ p ∈ xs, position nodes c p.1 = .ok x.pos ∧ x.node = p.2) := by
  intro xs
  induction xs with
  | nil => intro l _; exact ⟨[], by simp, by simp⟩
  | cons p xs ih =>
    intro l h
    obtain ⟨q, hq⟩ := h p (by simp)
    obtain ⟨new, e, hnew⟩ := ih (l ++ [⟨q, p.2⟩]) (fun r hr => h r (by simp [hr]))
    refine ⟨⟨q, p.2⟩ :: new, ?_, ?_⟩
    · rw [Res.foldlM_cons]
      simp only [pointStep, hq, Res.bind_ok']
      rw [show (l ++ { pos := q, node := p.2 } :: new) = l ++ [⟨q, p.2⟩] ++ new by simp]
      exact e
    · intro x
      simp only [List.mem_cons, hnew, exists_eq_or_imp, hq, Res.ok.injEq]
      constructor
      · rintro (rfl | h); exacts [.inl ⟨rfl, rfl⟩, .inr h]
      · rintro (⟨h1, h2⟩ | h)
        · left; cases x; simp only at h1 h2; rw [← h1, h2]
        · exact .inr h

theorem nodePoints_ok (hc : m.Callable dim dof group opt)
    (hin : ∀ c ∈ m.elements, ∀ xi, c.coord.ConvexAt xi → ∃ q, position m.nodes c.coord xi = .ok q ∧ d.Inside q) :
    ∃ ps, nodePointsTotal m dof = .ok ps ∧ ∀ x : NodePoint K, x ∈ ps ↔ ∃ e i, m.NodeAt m.nodes dof e i x.node x.pos := by
  have key : ∀ (cs : List (Coll K)) (l : List (NodePoint K)), (∀ c ∈ cs, c ∈ m.elements) →
      ∃ new, Res.foldlM (collStep m.nodes dof) l cs = .ok (l ++ new) ∧
        ∀ x : NodePoint K, x ∈ new ↔ ∃ c ∈ cs, ∃ el xi, ∃ i : Nat, c.dofs.find? dof = some el ∧ el.nodes[i]? = some x.node ∧
          el.interp.locals[i]? = some xi ∧ position m.nodes c.coord xi = .ok x.pos := by
    intro cs
    induction cs with
    | nil => intro l _; exact ⟨[], by simp, by simp⟩
    | cons c cs ih =>
      intro l hcs
      have hmem := hcs c (by simp)
      cases hf : c.dofs.find? dof with
      | none =>
        obtain ⟨new, e, hnew⟩ := ih l (fun x hx => hcs x (by simp [hx]))
        refine ⟨new, by rw [Res.foldlM_cons]; simp only [collStep, hf, Res.bind_ok']; exact e, ?_⟩
        intro x
        rw [hnew]
        simp [hf]
      | some el =>
        obtain ⟨hl, -⟩ := hc.proper.dofs c hmem dof el hf
        obtain ⟨new1, e1, hn1⟩ := points_ok m.nodes c.coord (el.interp.locals.zip el.nodes) l (by
          intro p hp
          obtain ⟨q, hq, -⟩ := hin c hmem p.1 (hc.old c hmem el hf p.1 (List.of_mem_zip hp).1)
          exact ⟨q, hq⟩)
        obtain ⟨new, e, hnew⟩ := ih (l ++ new1) (fun x hx => hcs x (by simp [hx]))
        refine ⟨new1 ++ new, ?_, ?_⟩
        · rw [Res.foldlM_cons]; simp only [collStep, hf, e1, Res.bind_ok']; rw [← List.append_assoc]; exact e
        · intro x
          rw [List.mem_append, hn1, hnew]
          simp only [List.mem_cons, exists_eq_or_imp, hf, Option.some.injEq]
          apply or_congr_left
          constructor
          · rintro ⟨p, hp, h1, h2⟩
            obtain ⟨i, hi⟩ := List.mem_iff_getElem?.mp hp
            rw [List.getElem?_zip_eq_some] at hi
            exact ⟨el, p.1, i, rfl, by rw [h2]; exact hi.2, hi.1, h1⟩
          · rintro ⟨el', xi, i, rfl, h1, h2, h3⟩
            exact ⟨(xi, x.node), List.mem_iff_getElem?.mpr ⟨i, by rw [List.getElem?_zip_eq_some]; exact ⟨h2, h1⟩⟩, h3, rfl⟩
  obtain ⟨ps, e, hps⟩ := key m.elements [] (fun _ h => h)
  refine ⟨ps, by simpa [nodePointsTotal] using e, ?_⟩
  intro x
  rw [hps]
  constructor
  · rintro ⟨c, hc, el, xi, i, h⟩
    obtain ⟨e, he⟩ := List.mem_iff_getElem?.mp hc
    exact ⟨e, i, c, el, xi, he, h⟩
  · rintro ⟨e, i, c, el, xi, he, h⟩
    exact ⟨c, List.mem_of_getElem? he, el, xi, i, h⟩

/-- the whole call -/
theorem add_spec (hc : m.Callable dim dof group opt) (hd : setupDomain m 300 (1 / 10000000000) = .ok d)
    (hacc : ∃ b, create d = .ok b)
    (hT : ∀ q, m.Requested group opt q → T q) (hT2 : ∀ e i n q, m.NodeAt m.nodes dof e i n q → T q)
    (hconf : m.Conforming m.nodes dof) :
    ∃ s ps done, addDofInterpolation m dof num group opt = .ok s.1 ∧ LoopInv m dof num opt d T s ps done ∧
      (∀ e, e ∈ done ↔ e ∈ group) ∧ d.r2 = (1 / 10000000000) * (1 / 10000000000) ∧
      ∃ old new, ps = old ++ new ∧ ∀ x : NodePoint K, x ∈ old ↔ ∃ e i, m.NodeAt m.nodes dof e i x.node x.pos := by
  obtain ⟨d', e0, hp, hr2, hin⟩ := setupDomain_ok hc.proper (n := 300) (by norm_num) (eps := (1 / 10000000000 : K)) (by norm_num)
  rw [hd] at e0
  injection e0 with e0
  subst e0
  have hr0 : 0 < d.r2 := by rw [hr2]; norm_num
  obtain ⟨b, hb⟩ := hacc
  have hcr := hb
  unfold create at hb
  split at hb
  · cases hb
  rename_i hr
  injection hb with hb
  have hb0 : Holds b d [] := by subst hb; exact ⟨rfl, fun _ => rfl⟩
  obtain ⟨ps, e1, hps⟩ := nodePoints_ok hc hin
  have hlt : ∀ p ∈ ps, p.node < m.nodes.length := by
    intro p hp
    obtain ⟨e, i, c, el, xi, h1, h2, h3, -⟩ := (hps p).mp hp
    exact (hc.proper.dofs c (List.mem_of_getElem? h1) dof el h2).2 _ (List.mem_of_getElem? h3)
  have hins : ∀ p ∈ ps, d.Inside p.pos := by
    intro p hp
    obtain ⟨e, i, c, el, xi, h1, h2, h3, h4, h5⟩ := (hps p).mp hp
    obtain ⟨q, hq, hq2⟩ := hin c (List.mem_of_getElem? h1) xi (hc.old c (List.mem_of_getElem? h1) el h2 xi (List.mem_of_getElem? h4))
    rw [hq] at h5
    injection h5 with h5
    rw [← h5]; exact hq2
  obtain ⟨b', e2, hb'⟩ := adds_ok hp ps hins b [] hb0
  rw [List.nil_append] at hb'
  have hinv : LoopInv m dof num opt d T (m, b') ps [] := by
    refine ⟨⟨hb', hins, ?_, ⟨0, by simp⟩, hlt, ?_, ?_⟩, rfl, ?_⟩
    · intro p hp; obtain ⟨e, i, h⟩ := (hps p).mp hp; exact hT2 e i _ _ h
    · intro p hp p' hp' hn
      obtain ⟨e, i, h⟩ := (hps p).mp hp
      obtain ⟨e', i', h'⟩ := (hps p').mp hp'
      exact (hconf _ _ _ _ _ _ _ _ h h').mp hn
    · intro p hp p' hp' hn
      obtain ⟨e, i, h⟩ := (hps p).mp hp
      obtain ⟨e', i', h'⟩ := (hps p').mp hp'
      exact (hconf _ _ _ _ _ _ _ _ h h').mpr hn
    · intro e c h; exact ⟨c, h, rfl, fun _ _ => rfl, fun _ => rfl, by simp⟩
  obtain ⟨s, more, done, e3, i3, hdone⟩ := elements_ok hc hp hr hr0 hin hT group [] (m, b') ps hinv (fun _ h => h) hc.nodup
    (by simp)
  refine ⟨s, ps ++ more, done, ?_, i3, by simpa using hdone, hr2, ps, more, rfl, hps⟩
  unfold addDofInterpolation
  simp only [hd, hcr, e1, e2, e3, Res.bind_ok']

end MeshFem

/-- C23 (partial: positions that are convex combinations of the coordinate nodes, mesh large compared with the tolerance, old
and new positions equal or at least 1e-10 apart).  The call succeeds; it only appends nodes, all with `num` zero values; it
changes nothing but the dof elements of the group, each of which gets the requested interpolation and one node per local
coordinate; and the layer of nodes stays conforming: two element nodes are the same node exactly if they are at the same
position. -/
theorem C23_sharing_partial (m : Mesh K) (dim dof num : Nat) (group : List Nat) (opt : Option (Interp K))
    (hc : m.Callable dim dof group opt) (d : SubBoxDomain K) (hd : setupDomain m 300 (1 / 10000000000) = .ok d)
    (hacc : ∃ b, create d = .ok b) (hconf : m.Conforming m.nodes dof)
    (hsep : ∀ q q', (m.Requested group opt q ∨ ∃ e i n, m.NodeAt m.nodes dof e i n q) →
      (m.Requested group opt q' ∨ ∃ e i n, m.NodeAt m.nodes dof e i n q') →
      q = q' ∨ (1 / 10000000000) ^ 2 ≤ (q.x - q'.x) ^ 2 + (q.y - q'.y) ^ 2 + (q.z - q'.z) ^ 2) :
    ∃ m', addDofInterpolation m dof num group opt = .ok m' ∧
      (∃ k, m'.nodes = m.nodes ++ List.replicate k (List.replicate num 0)) ∧
      m'.elements.length = m.elements.length ∧
      (∀ (e : Nat) c, m.elements[e]? = some c → ∃ c', m'.elements[e]? = some c' ∧ c'.coord = c.coord ∧
        (∀ d', d' ≠ dof → c'.dofs.find? d' = c.dofs.find? d') ∧ (e ∉ group → c' = c) ∧
        (e ∈ group → ∃ el, c'.dofs.find? dof = some el ∧ el.interp = opt.getD c.coord.interp ∧
          el.nodes.length = el.interp.locals.length)) ∧
      m'.Conforming m.nodes dof := by
  obtain ⟨s, ps, done, e1, hi, hdone, hr2, old, new, hps, hold⟩ := add_spec (num := num)
    (T := fun q => m.Requested group opt q ∨ ∃ e i n, m.NodeAt m.nodes dof e i n q) hc hd hacc
    (fun q h => .inl h) (fun e i n q h => .inr ⟨e, i, n, h⟩) hconf
  have hS : Sep d (fun q => m.Requested group opt q ∨ ∃ e i n, m.NodeAt m.nodes dof e i n q) := by
    intro a b ha hb
    rcases hsep a b ha hb with h | h
    · exact .inl h
    · right
      rw [hr2]
      unfold dist2
      calc (1 / 10000000000 : K) * (1 / 10000000000) = (1 / 10000000000) ^ 2 := by ring
        _ ≤ _ := h
        _ = _ := by ring
  refine ⟨s.1, e1, hi.run.grown, hi.length, ?_, ?_⟩
  · intro e c h
    obtain ⟨c', k1, k2, k3, k4, k5⟩ := hi.elems e c h
    refine ⟨c', k1, k2, k3, fun hn => k4 (fun h' => hn ((hdone e).mp h')), fun hg => ?_⟩
    obtain ⟨ids, j1, j2, -⟩ := k5 ((hdone e).mpr hg)
    exact ⟨_, j1, rfl, j2⟩
  · have key : ∀ e i n q, s.1.NodeAt m.nodes dof e i n q → ∃ p ∈ ps, p.node = n ∧ p.pos = q := by
      rintro e i n q ⟨c', el, xi, h1, h2, h3, h4, h5⟩
      have hlt : e < m.elements.length := by rw [← hi.length]; exact (List.getElem?_eq_some_iff.mp h1).1
      obtain ⟨c'', k1, k2, k3, k4, k5⟩ := hi.elems e m.elements[e] (List.getElem?_eq_getElem hlt)
      rw [h1] at k1
      injection k1 with k1
      subst k1
      by_cases hg : e ∈ done
      · obtain ⟨ids, j1, j2, j3⟩ := k5 hg
        rw [h2] at j1
        injection j1 with j1
        subst j1
        obtain ⟨p, hp, hn⟩ := (j3 i xi n q h4 h3 (by rw [← k2]; exact h5)).2 hS
        exact ⟨p, List.mem_of_find?_eq_some hp, hn, by simpa using List.find?_some hp⟩
      · have hce := k4 hg
        refine ⟨⟨q, n⟩, ?_, rfl, rfl⟩
        rw [hps]
        exact List.mem_append_left _ ((hold ⟨q, n⟩).mpr ⟨e, i, c', el, xi, by rw [hce]; exact List.getElem?_eq_getElem hlt, h2,
          h3, h4, h5⟩)
    intro e i n q e' i' n' q' h h'
    obtain ⟨p, hp, rfl, rfl⟩ := key e i n q h
    obtain ⟨p', hp', rfl, rfl⟩ := key e' i' n' q' h'
    exact ⟨fun hn => hi.run.func p hp p' hp' hn, fun hq => hi.run.inj p hp p' hp' hq⟩

/-- C23 without the separation: every requested position gets a node created (or found) at a distance below 1e-10, so two
requested positions 2e-10 or farther apart get different nodes. -/
theorem C23_tolerance_partial (m : Mesh K) (dim dof num : Nat) (group : List Nat) (opt : Option (Interp K))
    (hc : m.Callable dim dof group opt) (d : SubBoxDomain K) (hd : setupDomain m 300 (1 / 10000000000) = .ok d)
    (hacc : ∃ b, create d = .ok b) (hconf : m.Conforming m.nodes dof) :
    ∃ m', addDofInterpolation m dof num group opt = .ok m' ∧
      ∀ e i n q e' i' n' q', e ∈ group → e' ∈ group → m'.NodeAt m.nodes dof e i n q → m'.NodeAt m.nodes dof e' i' n' q' →
        (2 / 10000000000) ^ 2 ≤ (q.x - q'.x) ^ 2 + (q.y - q'.y) ^ 2 + (q.z - q'.z) ^ 2 → n ≠ n' := by
  obtain ⟨s, ps, done, e1, hi, hdone, hr2, old, new, hps, hold⟩ := add_spec (num := num) (T := fun _ => True) hc hd hacc
    (fun q h => trivial) (fun e i n q h => trivial) hconf
  refine ⟨s.1, e1, ?_⟩
  have key : ∀ e i n q, e ∈ group → s.1.NodeAt m.nodes dof e i n q → ∃ p ∈ ps, p.node = n ∧ dist2 p.pos q < d.r2 := by
    rintro e i n q hg ⟨c', el, xi, h1, h2, h3, h4, h5⟩
    have hlt : e < m.elements.length := by rw [← hi.length]; exact (List.getElem?_eq_some_iff.mp h1).1
    obtain ⟨c'', k1, k2, k3, k4, k5⟩ := hi.elems e m.elements[e] (List.getElem?_eq_getElem hlt)
    rw [h1] at k1
    injection k1 with k1
    subst k1
    obtain ⟨ids, j1, j2, j3⟩ := k5 ((hdone e).mpr hg)
    rw [h2] at j1
    injection j1 with j1
    subst j1
    exact (j3 i xi n q h4 h3 (by rw [← k2]; exact h5)).1
  intro e i n q e' i' n' q' hg hg' h h' hfar hn
  obtain ⟨p, hp, hpn, h1⟩ := key e i n q hg h
  obtain ⟨p', hp', hpn', h2⟩ := key e' i' n' q' hg' h'
  have hpp := hi.run.func p hp p' hp' (by rw [hpn, hpn', hn])
  rw [← hpp] at h2
  rw [hr2] at h1 h2
  unfold dist2 at h1 h2
  -- the parallelogram inequality
  nlinarith [sq_nonneg ((p.pos.x - q.x) + (p.pos.x - q'.x)), sq_nonneg ((p.pos.y - q.y) + (p.pos.y - q'.y)),
    sq_nonneg ((p.pos.z - q.z) + (p.pos.z - q'.z))]

/-! ### examples -/
namespace MeshFem

/-- linear truss, InterpolationTrussLinear.cpp 36-57 -/
def trussLinear : Interp ℚ := ⟨0, [[-1], [1]], fun x => [(1 - x.getD 0 0) / 2, (1 + x.getD 0 0) / 2]⟩
/-- quadratic truss, InterpolationTrussQuadratic.cpp 37-68 -/
def trussQuadratic : Interp ℚ := ⟨0, [[-1], [0], [1]], fun x =>
  [x.getD 0 0 * (x.getD 0 0 - 1) / 2, 1 - x.getD 0 0 * x.getD 0 0, x.getD 0 0 * (x.getD 0 0 + 1) / 2]⟩
/-- third order truss, InterpolationTruss3rdOrder.cpp 37-77 (only the local coordinates are used for a dof interpolation) -/
def truss3rdOrder : Interp ℚ := ⟨0, [[-1], [-1/3], [1/3], [1]], fun x =>
  [-9/16 * (x.getD 0 0 + 1/3) * (x.getD 0 0 - 1/3) * (x.getD 0 0 - 1), 27/16 * (x.getD 0 0 + 1) * (x.getD 0 0 - 1/3) *
    (x.getD 0 0 - 1), -27/16 * (x.getD 0 0 + 1) * (x.getD 0 0 + 1/3) * (x.getD 0 0 - 1),
    9/16 * (x.getD 0 0 + 1) * (x.getD 0 0 + 1/3) * (x.getD 0 0 - 1/3)]⟩

/-- what is seen of a result: number of nodes, and the nodes of the dof element of each collection -/
def layer (dof : Nat) : Res (Mesh ℚ) → Res (Nat × List (Option (List Nat)))
  | .ok m => .ok (m.nodes.length, m.elements.map fun c => (c.dofs.find? dof).map (·.nodes))
  | .throw => .throw
  | .ub => .ub

/-- two linear elements -/
def mesh1D : Mesh ℚ := ⟨[[0], [1/2], [1]], [⟨⟨[0, 1], trussLinear⟩, []⟩, ⟨⟨[1, 2], trussLinear⟩, []⟩]⟩

/-- a curved line with nodes (0,0), (2,2), (2,4) and a second element on it (as a boundary element on an edge) -/
def mesh2D : Mesh ℚ :=
  ⟨[[0, 0], [2, 2], [2, 4]], [⟨⟨[0, 1, 2], trussQuadratic⟩, []⟩, ⟨⟨[0, 1, 2], trussQuadratic⟩, []⟩]⟩

/-- the same curve with x and y exchanged -/
def mesh2D' : Mesh ℚ :=
  ⟨[[0, 0], [2, 2], [4, 2]], [⟨⟨[0, 1, 2], trussQuadratic⟩, []⟩, ⟨⟨[0, 1, 2], trussQuadratic⟩, []⟩]⟩

theorem mesh1D_callable : mesh1D.Callable 1 0 [0, 1] none := by
  refine ⟨⟨by norm_num, by decide, ?_, ?_⟩, by decide, ?_, ?_⟩
  · intro c hc
    simp only [mesh1D, List.mem_cons, List.not_mem_nil, or_false] at hc
    rcases hc with rfl | rfl <;> refine ⟨by simp, ?_⟩ <;> intro n hn <;>
      simp only [List.mem_cons, List.not_mem_nil, or_false] at hn <;> rcases hn with rfl | rfl <;>
      exact ⟨_, rfl, rfl⟩
  · intro c hc dof e h
    simp only [mesh1D, List.mem_cons, List.not_mem_nil, or_false] at hc
    rcases hc with rfl | rfl <;> simp [OMap.find?] at h
  · intro e he
    simp only [List.mem_cons, List.not_mem_nil, or_false] at he
    rcases he with rfl | rfl <;> refine ⟨_, rfl, rfl, rfl, ?_⟩ <;> intro xi hxi <;>
      simp only [trussLinear, Option.getD_none, List.mem_cons, List.not_mem_nil, or_false] at hxi <;>
      rcases hxi with rfl | rfl <;> refine ⟨rfl, ?_, ?_⟩ <;> simp [trussLinear]
  · intro c hc el h
    simp only [mesh1D, List.mem_cons, List.not_mem_nil, or_false] at hc
    rcases hc with rfl | rfl <;> simp [OMap.find?] at h

end MeshFem

/-- the hypotheses of C23 for two linear elements -/
example : mesh1D.Callable 1 0 [0, 1] none ∧ (∃ d, setupDomain mesh1D 300 (1 / 10000000000) = .ok d ∧ ∃ b, create d = .ok b) ∧
    mesh1D.Conforming mesh1D.nodes 0 := by
  refine ⟨mesh1D_callable, ⟨⟨⟨-1 / 10000000000, -1 / 10000000000, -1 / 10000000000⟩,
    ⟨1 + 1 / 10000000000, 1 / 10000000000, 1 / 10000000000⟩, ⟨300, 1, 1⟩, 1 / 100000000000000000000⟩, by decide +kernel, ?_⟩, ?_⟩
  · refine ⟨_, if_neg ?_⟩
    decide +kernel
  · rintro e i n q e' i' n' q' ⟨c, el, xi, h1, h2, -⟩
    have := List.mem_of_getElem? h1
    simp only [mesh1D, List.mem_cons, List.not_mem_nil, or_false] at this
    rcases this with rfl | rfl <;> simp [OMap.find?] at h2

/-- and the result: three new nodes, the middle one shared -/
example : layer 0 (addDofInterpolation mesh1D 0 1 [0, 1] none) = .ok (6, [some [3, 4], some [4, 5]]) := by decide +kernel

/-- C23 fails for curved (quadratic) coordinate elements: a node of a third order dof interpolation outside the bounding box of
the coordinate nodes is stored in a wrong sub box and not found again, so two elements on the same three coordinate nodes get
different dof nodes (5 and 7) at the same position; if the overshoot is in the last direction the call throws. -/
theorem C23_curved_counterexample :
    layer 0 (addDofInterpolation mesh2D 0 1 [0, 1] (some truss3rdOrder)) = .ok (8, [some [3, 4, 5, 6], some [3, 4, 7, 6]]) ∧
    (∀ c ∈ mesh2D.elements, c.coord.nodes = [0, 1, 2]) ∧
    position mesh2D.nodes ⟨[0, 1, 2], trussQuadratic⟩ [1 / 3] = .ok ⟨20 / 9, 8 / 3, 0⟩ ∧
    layer 0 (addDofInterpolation mesh2D' 0 1 [0, 1] (some truss3rdOrder)) = .throw := by
  refine ⟨by decide +kernel, ?_, by decide +kernel, by decide +kernel⟩
  intro c hc
  simp only [mesh2D, List.mem_cons, List.not_mem_nil, or_false] at hc
  rcases hc with rfl | rfl <;> rfl

end NuTo
