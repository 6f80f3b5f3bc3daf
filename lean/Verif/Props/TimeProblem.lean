import Verif.Model.TimeProblem
import Verif.Props.Numbering
import Verif.Lemmas.OMap

/-!
C85: handing new constraints to a problem renumbers the dofs without changing the solution.
-/
set_option linter.unusedSectionVars false
namespace NuTo
namespace TimeProblem
variable {K : Type _}

/-- the value of component `i` of node `a` -/
def val (st : NodeStore K) (a i : Nat) : Option K := ((st a).values.getD 0 [])[i]?

/-- the number of components of all nodes of a group -/
def total (st : NodeStore K) (ns : List Nat) : Nat := (ns.map fun a => (st a).numValues).sum

theorem numValues_eq {n : Node K} (h : n.WF) : n.numValues = n.dofNumbers.length := (DofNumbering.numberNode_ok n h 0).1

/-- two numberings of the same group are equal -/
theorem numbers_unique (ns : List Nat) : ∀ {st st' : NodeStore K} {l : List Int},
    (ns.flatMap fun a => (st a).dofNumbers) = l → (ns.flatMap fun a => (st' a).dofNumbers) = l →
    (∀ a ∈ ns, (st a).dofNumbers.length = (st' a).dofNumbers.length) → ∀ a ∈ ns, (st a).dofNumbers = (st' a).dofNumbers := by
  induction ns with
  | nil => intro st st' l _ _ _ a ha; simp at ha
  | cons b ns ih =>
    intro st st' l h h' hl a ha
    have h2 := h.trans h'.symm
    simp only [List.flatMap_cons] at h2
    obtain ⟨e1, e2⟩ := List.append_inj h2 (hl b (by simp))
    simp only [List.mem_cons] at ha
    rcases ha with rfl | ha
    · exact e1
    · exact ih e2 rfl (fun c hc => hl c (by simp [hc])) a ha

/-- what the nodes and the vector have to fulfil before the renumbering of one dof type: either the vector has no entries, or
the group is numbered and the vector has one entry per number -/
def OldOk (st : NodeStore K) (ns : List Nat) (x : List K) : Prop :=
  x = [] ∨ (IsNumbering st ns x.length)

/-- the value the user sees before: entry of the old vector, or the nodal value if there is none -/
def oldVal (st : NodeStore K) (x : List K) (a i : Nat) : Option K :=
  if x = [] then val st a i else ((st a).dofNumbers[i]?).bind fun k => x[k.toNat]?

/-- the effect of the renumbering on one dof type -/
structure Renumbered (st st' : NodeStore K) (ns : List Nat) (x y : List K) : Prop where
  numbering : IsNumbering st' ns (total st ns)
  size : y.length = total st ns
  wf : ∀ a ∈ ns, (st' a).WF
  numValues : ∀ a ∈ ns, (st' a).dofNumbers.length = (st a).dofNumbers.length
  values : ∀ a ∈ ns, ∀ i, i < (st a).dofNumbers.length → val st' a i = oldVal st x a i ∧
    ∃ k, (st' a).dofNumbers[i]? = some k ∧ y[k.toNat]? = oldVal st x a i
  others : ∀ a ∈ ns, ∀ k, k ≠ 0 → (st' a).values[k]? = (st a).values[k]?

theorem mergeOld_ok [Zero K] (ns : List Nat) (hnd : ns.Nodup) (old : DofVec K) (d : Nat) (st : NodeStore K)
    (hwf : ∀ a ∈ ns, (st a).WF) (hold : OldOk st ns ((old.find? d).getD [])) :
    ∃ st1, mergeOld ns old d st = .ok st1 ∧ (∀ a, (st1 a).dofNumbers = (st a).dofNumbers) ∧ (∀ a, a ∉ ns → st1 a = st a) ∧
      (∀ a ∈ ns, (st1 a).WF) ∧ (∀ a ∈ ns, (st1 a).numValues = (st a).numValues) ∧
      (∀ a ∈ ns, ∀ i, i < (st a).dofNumbers.length → val st1 a i = oldVal st ((old.find? d).getD []) a i) ∧
      (∀ a k, k ≠ 0 → (st1 a).values[k]? = (st a).values[k]?) := by
  unfold mergeOld
  by_cases h0 : ((old.find? d).getD []) = []
  · rw [if_neg (by rw [h0]; simp), h0]
    exact ⟨st, rfl, fun _ => rfl, fun _ _ => rfl, hwf, fun _ _ => rfl, fun a _ i _ => by simp [oldVal], fun _ _ _ => rfl⟩
  · rw [if_pos (by simpa using h0)]
    rcases hold with h | hnum
    · exact absurd h h0
    obtain ⟨x, hx⟩ : ∃ x, old.find? d = some x := by
      cases h : old.find? d with
      | none => rw [h] at h0; simp at h0
      | some x => exact ⟨x, rfl⟩
    rw [hx] at hnum h0 ⊢
    simp only [Option.getD_some] at hnum h0 ⊢
    obtain ⟨st1, h1, h2, h3⟩ := merge_spec (fun _ => ns) (fun _ => x.length) old 0 [d] (by simp) st
      ⟨fun _ _ => hnd, fun _ _ a ha => ⟨hwf a ha, List.length_pos_of_ne_nil (hwf a ha).1⟩, fun _ _ => hnum, by simp⟩
      (by simp [hx])
    have h3' : ∀ a ∈ ns, st1 a = Merger.merged x 0 (st a) := fun a ha => h3 d (by simp) x hx a ha
    refine ⟨st1, h1, ?_, ?_, ?_, ?_, ?_, ?_⟩
    · intro a
      by_cases ha : a ∈ ns
      · rw [h3' a ha]; rfl
      · rw [h2 a (by simpa using ha)]
    · intro a ha; exact h2 a (by simpa using ha)
    · intro a ha; rw [h3' a ha]; exact Merger.merged_wf _ _ _ (hwf a ha)
    · intro a ha
      rw [numValues_eq (hwf a ha), h3' a ha, numValues_eq (Merger.merged_wf _ _ _ (hwf a ha))]
      rfl
    · intro a ha i hi
      have hl := (hnum.mem_range ha (List.getElem_mem hi))
      have hlt : ((st a).dofNumbers[i]).toNat < x.length := by omega
      have hpos : 0 < (st a).values.length := List.length_pos_of_ne_nil (hwf a ha).1
      simp only [val, oldVal, h3' a ha, Merger.merged, if_neg h0]
      rw [List.getD_eq_getElem?_getD, List.getElem?_set_self hpos, Option.getD_some, List.getElem?_map,
        List.getElem?_eq_getElem hi]
      simp [List.getD_eq_getElem?_getD, List.getElem?_eq_getElem hlt]
    · intro a k hk
      by_cases ha : a ∈ ns
      · rw [h3' a ha]; simp [Merger.merged, List.getElem?_set_ne (Ne.symm hk)]
      · rw [h2 a (by simpa using ha)]

theorem step_ok [Zero K] (mesh : Nat → List Nat) (c : Constraints K) (old : DofVec K) (fill : K) (w : Work K) (d : Nat)
    (hnd : (nodes mesh w.memo d).Nodup) (hwf : ∀ a ∈ nodes mesh w.memo d, (w.store a).WF)
    (hold : OldOk w.store (nodes mesh w.memo d) ((old.find? d).getD []))
    (hc : TermsIn (nodes mesh w.memo d) (c.equations d)) :
    ∃ st' info v y, renumberStep mesh c old fill w d = .ok ⟨st', remember mesh w.memo d, w.infos.set d info, v⟩ ∧
      (∀ a, a ∉ nodes mesh w.memo d → st' a = w.store a) ∧
      (∀ e, e ≠ d → v.find? e = w.values.find? e) ∧ v.find? d = some y ∧ (w.values.Sorted → v.Sorted) ∧
      info.numDependent = (c.equations d).length ∧
      info.numIndependent + info.numDependent = total w.store (nodes mesh w.memo d) ∧
      Renumbered w.store st' (nodes mesh w.memo d) ((old.find? d).getD []) y := by
  unfold renumberStep
  set ns := nodes mesh w.memo d with hns
  obtain ⟨st1, a1, a2, a3, a4, a5, a6, a7⟩ := mergeOld_ok ns hnd old d w.store hwf hold
  obtain ⟨st', info, n, b1, b2, b3, b4, b5, b6, b7, b8⟩ := C05_numbering st1 ns d c hnd a4 hc
  have hn : n = total w.store ns := by
    rw [b2]; unfold total; exact congrArg List.sum (List.map_congr_left fun a ha => a5 a ha)
  rw [a1]; simp only [Res.bind_ok']
  rw [b1]; simp only [Res.bind_ok']
  rw [b5]
  have hwf' : ∀ a ∈ ns, (st' a).WF := by
    intro a ha
    refine ⟨by rw [b6]; exact (a4 a ha).1, fun v hv => ?_⟩
    rw [b6] at hv
    rw [(a4 a ha).2 v hv, b8 a ha, numValues_eq (a4 a ha)]
  obtain ⟨r, g1, g2, g3, g4⟩ := extract_spec (fun _ => ns) (fun _ => n) 0 st' [d] (by simp)
    ⟨fun _ _ => hnd, fun _ _ a ha => ⟨hwf' a ha, List.length_pos_of_ne_nil (hwf' a ha).1⟩, fun _ _ => b3, by simp⟩
    (w.values.set d (List.replicate ((n : Int)).toNat fill)) (by simp [OMap.find?_set])
  obtain ⟨y, y1, y2, y3⟩ := g4 d (by simp)
  rw [g1]; simp only [Res.bind_ok']
  refine ⟨st', info, r, y, rfl, fun a ha => by rw [b7 a ha, a3 a ha], ?_, y1, fun hs => g2 (OMap.sorted_set hs _ _), b4,
    by rw [b5, hn], ⟨hn ▸ b3, hn ▸ y2, hwf', ?_, ?_, ?_⟩⟩
  · intro e he
    rw [g3 e (by simpa using he), OMap.find?_set]
    simp [he]
  · intro a ha
    rw [b8 a ha, numValues_eq (a4 a ha), a2]
  · intro a ha i hi
    have hi' : i < (st' a).dofNumbers.length := by rw [b8 a ha, numValues_eq (a4 a ha), a2]; exact hi
    have hv : val st' a i = oldVal w.store ((old.find? d).getD []) a i := by
      rw [← a6 a ha i hi]; simp [val, b6]
    refine ⟨hv, _, List.getElem?_eq_getElem hi', ?_⟩
    rw [y3 a ha i hi', ← hv]; rfl
  · intro a ha k hk
    rw [b6, a7 a k hk]

/-- the node groups used by the problem, and what has to hold before the constraints are handed over -/
structure Ready (mesh : Nat → List Nat) (c : Constraints K) (dofs : List Nat) (old : DofVec K) (st : NodeStore K)
    (memo : OMap Nat (List Nat)) : Prop where
  nodup : ∀ d ∈ dofs, (nodes mesh memo d).Nodup
  wf : ∀ d ∈ dofs, ∀ a ∈ nodes mesh memo d, (st a).WF
  disjoint : ∀ d ∈ dofs, ∀ e ∈ dofs, d ≠ e → ∀ a ∈ nodes mesh memo d, a ∉ nodes mesh memo e
  old : ∀ d ∈ dofs, OldOk st (nodes mesh memo d) ((old.find? d).getD [])
  terms : ∀ d ∈ dofs, TermsIn (nodes mesh memo d) (c.equations d)

theorem nodes_remember (mesh : Nat → List Nat) (memo : OMap Nat (List Nat)) (d e : Nat) :
    nodes mesh (remember mesh memo d) e = nodes mesh memo e := by
  unfold nodes remember
  rw [OMap.find?_set]
  split
  · next h => subst h; simp [nodes]
  · rfl

theorem total_congr {st st' : NodeStore K} {ns : List Nat} (h : ∀ a ∈ ns, st' a = st a) : total st' ns = total st ns := by
  unfold total; exact congrArg List.sum (List.map_congr_left fun a ha => by rw [h a ha])

theorem IsNumbering.congr {st st' : NodeStore K} {ns : List Nat} {n : Nat} (h : ∀ a ∈ ns, st' a = st a)
    (hn : IsNumbering st ns n) : IsNumbering st' ns n := by
  unfold IsNumbering at *
  rw [← hn]
  exact List.flatMap_congr fun a ha => by rw [h a ha]

theorem Renumbered.congr {s0 st s1 st' : NodeStore K} {ns : List Nat} {x y : List K} (h : Renumbered st st' ns x y)
    (h0 : ∀ a ∈ ns, st a = s0 a) (h1 : ∀ a ∈ ns, st' a = s1 a) : Renumbered s0 s1 ns x y := by
  have ht : total s0 ns = total st ns := total_congr fun a ha => (h0 a ha).symm
  refine ⟨ht ▸ IsNumbering.congr (fun a ha => (h1 a ha).symm) h.numbering, ht ▸ h.size, fun a ha => h1 a ha ▸ h.wf a ha,
    fun a ha => by rw [← h1 a ha, ← h0 a ha]; exact h.numValues a ha, ?_,
    fun a ha k hk => by rw [← h1 a ha, ← h0 a ha]; exact h.others a ha k hk⟩
  intro a ha i hi
  have := h.values a ha i (by rw [h0 a ha]; exact hi)
  simp only [val, oldVal, h0 a ha, h1 a ha] at this ⊢
  exact this

theorem loop_ok [Zero K] (mesh : Nat → List Nat) (c : Constraints K) (old : DofVec K) (fill : K) (dofs : List Nat)
    (hdn : dofs.Nodup) : ∀ (w : Work K), Ready mesh c dofs old w.store w.memo →
    ∃ w', Res.foldlM (renumberStep mesh c old fill) w dofs = .ok w' ∧
      (∀ e, nodes mesh w'.memo e = nodes mesh w.memo e) ∧
      (∀ a, (∀ d ∈ dofs, a ∉ nodes mesh w.memo d) → w'.store a = w.store a) ∧
      (∀ e, e ∉ dofs → w'.values.find? e = w.values.find? e ∧ w'.infos.find? e = w.infos.find? e ∧
        w'.memo.find? e = w.memo.find? e) ∧
      ∀ d ∈ dofs, ∃ y info, w'.values.find? d = some y ∧ w'.infos.find? d = some info ∧
        w'.memo.find? d = some (nodes mesh w.memo d) ∧
        info.numDependent = (c.equations d).length ∧
        info.numIndependent + info.numDependent = total w.store (nodes mesh w.memo d) ∧
        Renumbered w.store w'.store (nodes mesh w.memo d) ((old.find? d).getD []) y := by
  induction dofs with
  | nil => intro w _; exact ⟨w, rfl, fun _ => rfl, fun _ _ => rfl, fun _ _ => ⟨rfl, rfl, rfl⟩, by simp⟩
  | cons d dofs ih =>
    intro w hr
    have hdn' := List.nodup_cons.mp hdn
    obtain ⟨st', info, v, y, e1, e2, e3, e4, _, e5, e6, e7⟩ := step_ok mesh c old fill w d (hr.nodup d (by simp))
      (hr.wf d (by simp)) (hr.old d (by simp)) (hr.terms d (by simp))
    have hne : ∀ e ∈ dofs, e ≠ d := fun e he h => hdn'.1 (h ▸ he)
    have hout : ∀ e ∈ dofs, ∀ a ∈ nodes mesh w.memo e, st' a = w.store a := fun e he a ha =>
      e2 a (hr.disjoint e (by simp [he]) d (by simp) (hne e he) a ha)
    obtain ⟨w', f1, f2, f3, f4, f5⟩ := ih hdn'.2 ⟨st', remember mesh w.memo d, w.infos.set d info, v⟩ (by
      refine ⟨?_, ?_, ?_, ?_, ?_⟩
      · intro e he; rw [nodes_remember]; exact hr.nodup e (by simp [he])
      · intro e he a ha
        rw [nodes_remember] at ha
        show (st' a).WF
        rw [hout e he a ha]; exact hr.wf e (by simp [he]) a ha
      · intro e he f hf hef a ha
        rw [nodes_remember] at ha ⊢; exact hr.disjoint e (by simp [he]) f (by simp [hf]) hef a ha
      · intro e he
        rw [nodes_remember]
        rcases hr.old e (by simp [he]) with h | h
        · exact Or.inl h
        · exact Or.inr (IsNumbering.congr (fun a ha => hout e he a ha) h)
      · intro e he; rw [nodes_remember]; exact hr.terms e (by simp [he]))
    simp only [nodes_remember] at f2 f3 f5
    refine ⟨w', by rw [Res.foldlM_cons, e1]; exact f1, f2, ?_, ?_, ?_⟩
    · intro a ha
      rw [f3 a (fun e he => ha e (by simp [he])), e2 a (ha d (by simp))]
    · intro e he
      simp only [List.mem_cons, not_or] at he
      obtain ⟨k1, k2, k3⟩ := f4 e he.2
      exact ⟨k1.trans (e3 e he.1), k2.trans (by rw [OMap.find?_set]; simp [he.1]),
        k3.trans (by simp only [remember]; rw [OMap.find?_set]; simp [he.1])⟩
    · intro e he
      simp only [List.mem_cons] at he
      rcases he with rfl | he
      · obtain ⟨k1, k2, k3⟩ := f4 e hdn'.1
        have hst : ∀ a ∈ nodes mesh w.memo e, st' a = w'.store a := fun a ha =>
          (f3 a (fun f hf => hr.disjoint e (by simp) f (by simp [hf]) (hne f hf).symm a ha)).symm
        exact ⟨y, info, k1.trans e4, k2.trans (by rw [OMap.find?_set]; simp),
          k3.trans (by simp only [remember]; rw [OMap.find?_set]; simp), e5, e6, e7.congr (fun _ _ => rfl) hst⟩
      · obtain ⟨y', info', k1, k2, k3, k4, k5, k6⟩ := f5 e he
        refine ⟨y', info', k1, k2, k3, k4, ?_, k6.congr (fun a ha => hout e he a ha) (fun _ _ => rfl)⟩
        rw [k5]; exact_mod_cast total_congr fun a ha => hout e he a ha

/-- C85: `RenumberDofs` numbers the nodes of every listed dof type 0, 1, ..., n-1; the returned vector has one entry per number;
the entry at the number of a component of a node and the value stored at the node are the value the component had before: the
entry of the old vector at the old number, or the nodal value if there was no old vector.  Other instances, other nodes and the
dof types that are not listed are not touched; the numbers of independent and dependent dofs add up. -/
theorem C85_renumber [Zero K] (mesh : Nat → List Nat) (c : Constraints K) (old : DofVec K) (fill : K) (dofs : List Nat)
    (hdn : dofs.Nodup) (s : State K) (hr : Ready mesh c dofs old s.store s.memo) :
    ∃ s' r, renumberDofs mesh c dofs old fill s = .ok (s', r) ∧
      (∀ a, (∀ d ∈ dofs, a ∉ nodes mesh s.memo d) → s'.store a = s.store a) ∧
      (∀ e, e ∉ dofs → r.find? e = none ∧ s'.infos.find? e = none) ∧
      ∀ d ∈ dofs, ∃ y info, r.find? d = some y ∧ s'.infos.find? d = some info ∧
        info.numDependent = (c.equations d).length ∧
        info.numIndependent + info.numDependent = total s.store (nodes mesh s.memo d) ∧
        Renumbered s.store s'.store (nodes mesh s.memo d) ((old.find? d).getD []) y := by
  obtain ⟨w, h1, _, h3, h4, h5⟩ := loop_ok mesh c old fill dofs hdn ⟨s.store, s.memo, [], []⟩ hr
  refine ⟨⟨w.store, w.memo, w.infos⟩, w.values, by unfold renumberDofs; rw [h1]; rfl, h3, ?_, ?_⟩
  · intro e he
    obtain ⟨k1, k2, _⟩ := h4 e he
    exact ⟨k1.trans rfl, k2.trans rfl⟩
  · intro d hd
    obtain ⟨y, info, k1, k2, _, k4, k5, k6⟩ := h5 d hd
    exact ⟨y, info, k1, k2, k4, k5, k6⟩

/-- C85: handing over new constraints to a problem that already has a solution keeps the solution: every block is the old block,
no dof number changes, and the nodes hold the solution -- whatever values the nodes were left with (for example by a load step
that did not converge). -/
theorem C85_solution_kept [Zero K] (mesh : Nat → List Nat) (c : Constraints K) (old : DofVec K) (fill : K) (dofs : List Nat)
    (hdn : dofs.Nodup) (s : State K) (hr : Ready mesh c dofs old s.store s.memo)
    (hfull : ∀ d ∈ dofs, (old.find? d).getD [] ≠ []) :
    ∃ s' r, renumberDofs mesh c dofs old fill s = .ok (s', r) ∧ (∀ d ∈ dofs, r.find? d = old.find? d) ∧
      (∀ d ∈ dofs, ∀ a ∈ nodes mesh s.memo d, (s'.store a).dofNumbers = (s.store a).dofNumbers) ∧
      ∀ d ∈ dofs, ∀ x, old.find? d = some x → ∀ a ∈ nodes mesh s.memo d, ∀ i k, (s.store a).dofNumbers[i]? = some k →
        val s'.store a i = x[k.toNat]? := by
  obtain ⟨s', r, h1, _, _, h4⟩ := C85_renumber mesh c old fill dofs hdn s hr
  have hnum : ∀ d ∈ dofs, ∀ a ∈ nodes mesh s.memo d, (s'.store a).dofNumbers = (s.store a).dofNumbers := by
    intro d hd a ha
    obtain ⟨y, info, _, _, _, _, k6⟩ := h4 d hd
    rcases hr.old d hd with h | h
    · exact absurd h (hfull d hd)
    have hlen : total s.store (nodes mesh s.memo d) = ((old.find? d).getD []).length := by
      have e1 : (nodes mesh s.memo d).flatMap (fun a => (s.store a).dofNumbers) = _ := h
      have e2 := congrArg List.length e1
      rw [List.length_flatMap, List.length_map, List.length_range] at e2
      rw [← e2]
      unfold total
      exact congrArg List.sum (List.map_congr_left fun a ha => numValues_eq (hr.wf d hd a ha))
    have k7 := k6.numbering
    rw [hlen] at k7
    exact numbers_unique _ k7 h (fun b hb => k6.numValues b hb) a ha
  refine ⟨s', r, h1, ?_, hnum, ?_⟩
  · intro d hd
    obtain ⟨y, info, k1, _, _, _, k6⟩ := h4 d hd
    obtain ⟨x, hx⟩ : ∃ x, old.find? d = some x := by
      cases h : old.find? d with
      | none => exact absurd (by rw [h]; rfl) (hfull d hd)
      | some x => exact ⟨x, rfl⟩
    have hf := hfull d hd
    rcases hr.old d hd with h | h
    · exact absurd h hf
    rw [hx] at k6 h hf
    simp only [Option.getD_some] at k6 h hf
    have hyx : y.length = x.length := by
      rw [k6.size]
      have e1 : (nodes mesh s.memo d).flatMap (fun a => (s.store a).dofNumbers) = _ := h
      have e2 := congrArg List.length e1
      rw [List.length_flatMap, List.length_map, List.length_range] at e2
      rw [← e2]
      unfold total
      exact congrArg List.sum (List.map_congr_left fun a ha => numValues_eq (hr.wf d hd a ha))
    rw [k1, hx]
    congr 1
    apply List.ext_getElem?
    intro j
    by_cases hj : j < x.length
    · obtain ⟨a, ha, hm⟩ := IsNumbering.covers h hj
      obtain ⟨i, hi, hij⟩ := List.mem_iff_getElem.mp hm
      obtain ⟨_, k, e1, e2⟩ := k6.values a ha i hi
      rw [hnum d hd a ha, List.getElem?_eq_getElem hi, hij] at e1
      cases e1
      simp only [oldVal, if_neg hf, List.getElem?_eq_getElem hi, hij] at e2
      simpa using e2
    · rw [List.getElem?_eq_none (by omega), List.getElem?_eq_none (by omega)]
  · intro d hd x hx a ha i k hk
    obtain ⟨y, info, k1, _, _, _, k6⟩ := h4 d hd
    have hi : i < (s.store a).dofNumbers.length := by
      by_contra hcon
      rw [List.getElem?_eq_none (by omega)] at hk; cases hk
    have hf := hfull d hd
    rw [(k6.values a ha i hi).1, hx]
    rw [hx] at hf
    simp only [Option.getD_some] at hf ⊢
    simp [oldVal, hf, hk]

/-- C85: constraints on nodes that do not belong to the problem are rejected, whatever the state -/
theorem C85_rejected (mesh : Nat → List Nat) (c : Constraints K) (d : Nat) (old : DofVec K) (fill : K) (s : State K)
    (hold : old.find? d = none) (hc : ¬ TermsIn (nodes mesh s.memo d) (c.equations d)) :
    renumberDofs mesh c [d] old fill s = .throw := by
  have h : ¬ (DofNumbering.nodesIncluded (nodes mesh s.memo d) (c.equations d) = true) := by
    rwa [nodesIncluded_iff]
  simp only [renumberDofs, Res.foldlM_cons, renumberStep, mergeOld, hold, DofNumbering.build, if_neg h]
  simp [Res.bind]

/-! two dof types on three nodes; the second call gets a solution, and nodes with leftovers of a failed step -/
def exMesh : Nat → List Nat := fun d => if d = 0 then [1, 2] else [3]
def exStore85 : NodeStore ℚ := fun a =>
  if a = 1 then ⟨[[1, 2]], [-1, -1]⟩ else if a = 2 then ⟨[[3, 4]], [-1, -1]⟩ else ⟨[[5]], [0]⟩
def exStoreLater : NodeStore ℚ := fun a =>
  if a = 1 then ⟨[[77, 77]], [0, 1]⟩ else if a = 2 then ⟨[[77, 77]], [2, 3]⟩ else ⟨[[77]], [0]⟩
def exNone : Constraints ℚ := ⟨[], [], []⟩
def exFix : Constraints ℚ := ⟨[(0, [⟨⟨2, 1, 1⟩, [⟨1, 0, 2⟩], fun t => t⟩])], [(2, 1)], [(1, 0)]⟩
def exOld : DofVec ℚ := [(0, [10, 11, 12, 13]), (1, [14])]

example : [0, 1].Nodup ∧ Ready exMesh exNone [0, 1] [] exStore85 [] ∧
    (renumberDofs exMesh exNone [0, 1] [] 99 ⟨exStore85, [], []⟩).bind (fun r => .ok ((r.1.store 2).dofNumbers, r.1.infos, r.2)) =
      .ok ([2, 3], [(0, ⟨4, 0⟩), (1, ⟨1, 0⟩)], [(0, [1, 2, 3, 4]), (1, [5])]) := by
  refine ⟨by decide, ⟨?_, ?_, ?_, ?_, ?_⟩, by decide +kernel⟩ <;> simp only [List.mem_cons, List.not_mem_nil, or_false]
  · rintro d (rfl | rfl) <;> decide
  · rintro d (rfl | rfl) a ha <;> simp [exMesh, nodes, OMap.find?] at ha <;> (try rcases ha with rfl | rfl) <;>
      simp [exStore85, Node.WF, *]
  · rintro d (rfl | rfl) e (rfl | rfl) <;> simp [exMesh, nodes, OMap.find?]
  · rintro d (rfl | rfl) <;> exact Or.inl rfl
  · rintro d (rfl | rfl) e he <;> simp [exNone, Constraints.equations, OMap.find?] at he

example : Ready exMesh exFix [0, 1] exOld exStoreLater [(0, [1, 2]), (1, [3])] ∧
    (∀ d ∈ [0, 1], (exOld.find? d).getD [] ≠ []) ∧
    (renumberDofs exMesh exFix [0, 1] exOld 99 ⟨exStoreLater, [(0, [1, 2]), (1, [3])], []⟩).bind
      (fun r => .ok ((r.1.store 2).values, r.1.infos, r.2)) =
      .ok ([[12, 13]], [(0, ⟨3, 1⟩), (1, ⟨1, 0⟩)], exOld) := by
  refine ⟨⟨?_, ?_, ?_, ?_, ?_⟩, by decide, by decide +kernel⟩ <;> simp only [List.mem_cons, List.not_mem_nil, or_false]
  · rintro d (rfl | rfl) <;> decide
  · rintro d (rfl | rfl) a ha <;> simp [nodes, OMap.find?] at ha <;> (try rcases ha with rfl | rfl) <;>
      simp [exStoreLater, Node.WF, *]
  · rintro d (rfl | rfl) e (rfl | rfl) <;> simp [nodes, OMap.find?]
  · rintro d (rfl | rfl) <;> (right; simp only [IsNumbering]; decide +kernel)
  · rintro d (rfl | rfl) e he <;> simp [exFix, Constraints.equations, OMap.find?] at he
    subst he
    intro t ht
    simp at ht
    rcases ht with rfl | rfl <;> simp [nodes, OMap.find?]

/-- C85 is false if the mesh has changed since the first numbering: the node groups of the first call are kept.  Node 2 is part
of the mesh now; it gets no dof number (its number stays -1: an index for the assembler), its value is not in the vector, and
constraints on it are rejected. -/
theorem C85_mesh_counterexample :
    ∃ (before after : Nat → List Nat) (c : Constraints ℚ), before 0 = [1] ∧ after 0 = [1, 2] ∧
      TermsIn (after 0) (c.equations 0) ∧
      ((renumberDofs before exNone [0] [] 99 ⟨exStore85, [], []⟩).bind fun r =>
        (renumberDofs after exNone [0] r.2 99 r.1).bind fun q => .ok ((q.1.store 2).dofNumbers, q.1.infos, q.2)) =
        .ok ([-1, -1], [(0, ⟨2, 0⟩)], [(0, [1, 2])]) ∧
      ((renumberDofs before exNone [0] [] 99 ⟨exStore85, [], []⟩).bind fun r =>
        (renumberDofs after c [0] r.2 99 r.1).bind fun q => .ok q.2) = .throw := by
  refine ⟨fun _ => [1], fun _ => [1, 2], exFix, rfl, rfl, ?_, by decide +kernel, by decide +kernel⟩
  intro e he
  simp [exFix, Constraints.equations, OMap.find?] at he
  subst he
  intro t ht
  simp at ht
  rcases ht with rfl | rfl <;> simp

/-- C85, second part: rejected constraints nevertheless replace the old ones, although the solution vector and the numbering of
the old ones stay -/
theorem C85_rejected_constraints_counterexample :
    ∃ (s : Solver ℚ) (c : Constraints ℚ), (setConstraints exMesh 0 [] 99 s c).2 = .throw ∧
      (setConstraints exMesh 0 [] 99 s c).1.constraints = c ∧ s.constraints.equations 0 = [] ∧ c.equations 0 ≠ [] ∧
      (setConstraints exMesh 0 [] 99 s c).1.x = s.x := by
  have h : setConstraints exMesh 0 [] 99 ⟨exNone, [], ⟨exStore85, [], []⟩⟩
      ⟨[(0, [⟨⟨3, 0, 1⟩, [], fun _ => 0⟩])], [(3, 0)], []⟩ =
      (⟨⟨[(0, [⟨⟨3, 0, 1⟩, [], fun _ => 0⟩])], [(3, 0)], []⟩, [], ⟨exStore85, [], []⟩⟩, .throw) := rfl
  refine ⟨⟨exNone, [], ⟨exStore85, [], []⟩⟩, ⟨[(0, [⟨⟨3, 0, 1⟩, [], fun _ => 0⟩])], [(3, 0)], []⟩, ?_⟩
  rw [h]
  refine ⟨rfl, rfl, rfl, ?_, rfl⟩
  simp [Constraints.equations, OMap.find?]

/-- C85: constraints that are accepted are stored together with the renumbered solution -/
theorem C85_set_constraints [Zero K] (mesh : Nat → List Nat) (c : Constraints K) (fill : K) (d0 : Nat) (dofs : List Nat)
    (hdn : (d0 :: dofs).Nodup) (s : Solver K) (hr : Ready mesh c (d0 :: dofs) s.x s.problem.store s.problem.memo)
    (hfull : ∀ d ∈ d0 :: dofs, (s.x.find? d).getD [] ≠ []) :
    (setConstraints mesh d0 dofs fill s c).2 = .ok () ∧ (setConstraints mesh d0 dofs fill s c).1.constraints = c ∧
      ∀ d ∈ d0 :: dofs, (setConstraints mesh d0 dofs fill s c).1.x.find? d = s.x.find? d := by
  obtain ⟨s', r, h1, h2, _⟩ := C85_solution_kept mesh c s.x fill (d0 :: dofs) hdn s.problem hr hfull
  have h0 : ¬ ((s.x.find? d0).getD []).length = 0 := by
    have := hfull d0 (by simp)
    simpa using this
  have : setConstraints mesh d0 dofs fill s c = (⟨c, r, s'⟩, .ok ()) := by
    unfold setConstraints
    rw [if_neg h0, h1]
  rw [this]
  exact ⟨rfl, rfl, h2⟩

end TimeProblem
end NuTo
