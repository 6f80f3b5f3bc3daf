import Verif.Lemmas.Constraints
import Mathlib.Algebra.Field.Rat
import Mathlib.Data.List.Range

/-!
C05, C06 (dof numbering), C07 (nodal values).
-/
set_option linter.unusedSectionVars false
namespace NuTo
variable {K : Type _}

/-- specification: read in group order, component by component, the dof numbers are 0, 1, ..., n-1 -/
def IsNumbering (st : NodeStore K) (nodes : List Nat) (n : Nat) : Prop :=
  (nodes.flatMap fun a => (st a).dofNumbers) = (List.range n).map Int.ofNat

/-- every term of the equations refers to a node of the group -/
def TermsIn (nodes : List Nat) (eqs : List (Equation K)) : Prop := ∀ e ∈ eqs, ∀ t ∈ e.dep :: e.ind, t.node ∈ nodes

theorem nodesIncluded_iff (nodes : List Nat) (eqs : List (Equation K)) :
    DofNumbering.nodesIncluded nodes eqs = true ↔ TermsIn nodes eqs := by
  simp [DofNumbering.nodesIncluded, TermsIn]

/-- C05: the numbering is a bijection onto `0..n-1`, consecutive in group order; values of nodes and nodes outside the group
are untouched; the two counts add up to n. -/
theorem C05_numbering (st : NodeStore K) (nodes : List Nat) (dof : Nat) (c : Constraints K) (hnd : nodes.Nodup)
    (hwf : ∀ a ∈ nodes, (st a).WF) (hc : TermsIn nodes (c.equations dof)) :
    ∃ st' info n, DofNumbering.build st nodes dof c = .ok (st', info) ∧
      n = (nodes.map fun a => (st a).numValues).sum ∧ IsNumbering st' nodes n ∧
      info.numDependent = (c.equations dof).length ∧ info.numIndependent + info.numDependent = n ∧
      (∀ a, (st' a).values = (st a).values) ∧ (∀ a, a ∉ nodes → st' a = st a) ∧
      ∀ a ∈ nodes, (st' a).dofNumbers.length = (st a).numValues := by
  obtain ⟨st', h1, h2, h3, h4, h5⟩ := DofNumbering.initial_ok nodes hnd st 0 hwf
  refine ⟨st', ⟨((nodes.map fun a => (st a).numValues).sum : Int) - c.numEquations dof, c.numEquations dof⟩,
    (nodes.map fun a => (st a).numValues).sum, ?_, rfl, ?_, rfl, by simp, h3, h2, ?_⟩
  · unfold DofNumbering.build
    rw [if_pos ((nodesIncluded_iff nodes _).mpr hc)]
    unfold DofNumbering.initial
    rw [h1]
    simp
  · unfold IsNumbering; rw [h5, List.range_eq_range']
  · intro a ha
    have := Node.numValues_eq (h4 a ha)
    rw [← this, Node.numValues, Node.numValues, h3]

/-- a numbering is injective on (node, component) pairs -/
theorem IsNumbering.injective {st : NodeStore K} {nodes : List Nat} {n : Nat} (h : IsNumbering st nodes n)
    {a b i j : Nat} (ha : a ∈ nodes) (hb : b ∈ nodes)
    (hi : i < (st a).dofNumbers.length) (hj : j < (st b).dofNumbers.length)
    (he : (st a).dofNumbers[i] = (st b).dofNumbers[j]) : a = b ∧ i = j := by
  have hnd : (nodes.flatMap fun a => (st a).dofNumbers).Nodup := by
    rw [h]; exact (List.nodup_range).map (fun x y h => Int.ofNat.inj h)
  rw [List.nodup_flatMap] at hnd
  have hab : a = b := by
    by_contra hab
    have : Std.Symm (Function.onFun List.Disjoint fun a => (st a).dofNumbers) :=
      ⟨fun x y hxy => List.Disjoint.symm hxy⟩
    have := hnd.2.forall ha hb hab
    exact this (List.getElem_mem hi) (he ▸ List.getElem_mem hj)
  subst hab
  exact ⟨rfl, (List.Nodup.getElem_inj_iff (hnd.1 a ha)).mp he⟩

theorem IsNumbering.mem_range {st : NodeStore K} {nodes : List Nat} {n : Nat} (h : IsNumbering st nodes n)
    {a : Nat} (ha : a ∈ nodes) {d : Int} (hd : d ∈ (st a).dofNumbers) : 0 ≤ d ∧ d < n := by
  have : d ∈ nodes.flatMap fun a => (st a).dofNumbers := List.mem_flatMap.mpr ⟨a, ha, hd⟩
  rw [h, List.mem_map] at this
  obtain ⟨k, hk, rfl⟩ := this
  have := List.mem_range.mp hk
  simp only [Int.ofNat_eq_natCast]
  omega

theorem IsNumbering.covers {st : NodeStore K} {nodes : List Nat} {n : Nat} (h : IsNumbering st nodes n)
    {k : Nat} (hk : k < n) : ∃ a ∈ nodes, (k : Int) ∈ (st a).dofNumbers := by
  have : (k : Int) ∈ nodes.flatMap fun a => (st a).dofNumbers := by
    rw [h, List.mem_map]; exact ⟨k, List.mem_range.mpr hk, rfl⟩
  exact List.mem_flatMap.mp this

/-- C05: the reported number of independent dofs is the number of dofs without an own equation. -/
theorem C05_independent_count (st st' : NodeStore K) (nodes : List Nat) (dof : Nat) (c : Constraints K)
    (info : DofNumbering.DofInfo) (hnd : nodes.Nodup) (hwf : ∀ a ∈ nodes, (st a).WF)
    (hc : TermsIn nodes (c.equations dof))
    (hcomp : ∀ e ∈ c.equations dof, 0 ≤ e.dep.comp ∧ e.dep.comp < (st e.dep.node).numValues)
    (hdist : ((c.equations dof).map fun e => (e.dep.node, e.dep.comp)).Nodup)
    (hb : DofNumbering.build st nodes dof c = .ok (st', info)) (n : Nat)
    (hn : n = (nodes.map fun a => (st a).numValues).sum) :
    info.numIndependent = (((List.range n).filter fun (i : Nat) =>
      ∀ e ∈ c.equations dof, e.dep.dofNumber st' ≠ .ok (i : Int)).length : Int) := by
  obtain ⟨st2, info2, n2, h1, h2, h3, h4, h5, h6, h7, h8⟩ := C05_numbering st nodes dof c hnd hwf hc
  rw [hb] at h1
  simp only [Res.ok.injEq, Prod.mk.injEq] at h1
  obtain ⟨rfl, rfl⟩ := h1
  rw [← hn] at h2
  subst h2
  -- the numbers of the dependent terms
  have hnum : ∀ e ∈ c.equations dof, ∃ k : Nat, k < n2 ∧ e.dep.dofNumber st' = .ok (k : Int) := by
    intro e he
    have hin := hc e he e.dep (by simp)
    have hl := h8 _ hin
    have hco := hcomp e he
    have hi : e.dep.comp.toNat < (st' e.dep.node).dofNumbers.length := by omega
    have hr := h3.mem_range hin (List.getElem_mem hi)
    refine ⟨((st' e.dep.node).dofNumbers[e.dep.comp.toNat]).toNat, by omega, ?_⟩
    unfold Term.dofNumber Node.getDofNumber
    rw [if_neg (by omega), List.getElem?_eq_getElem hi]
    simp; omega
  let num : Equation K → Nat := fun e => match e.dep.dofNumber st' with | .ok k => k.toNat | _ => 0
  have hnum' : ∀ e ∈ c.equations dof, num e < n2 ∧ e.dep.dofNumber st' = .ok (num e : Int) := by
    intro e he
    obtain ⟨k, hk, hd⟩ := hnum e he
    have : num e = k := by simp only [num, hd]; simp
    rw [this]; exact ⟨hk, hd⟩
  have hinj : ((c.equations dof).map num).Nodup := by
    have hpw : (c.equations dof).Pairwise fun e f => (e.dep.node, e.dep.comp) ≠ (f.dep.node, f.dep.comp) := by
      have := hdist; unfold List.Nodup at this; rwa [List.pairwise_map] at this
    unfold List.Nodup
    rw [List.pairwise_map]
    refine List.Pairwise.imp_of_mem ?_ hpw
    intro e f he hf hne heq
    apply hne
    have e1 := (hnum' e he).2
    have f1 := (hnum' f hf).2
    rw [heq] at e1
    unfold Term.dofNumber Node.getDofNumber at e1 f1
    have ce := hcomp e he
    have cf := hcomp f hf
    rw [if_neg (by omega)] at e1 f1
    have le : e.dep.comp.toNat < (st' e.dep.node).dofNumbers.length := by
      rw [h8 _ (hc e he e.dep (by simp))]; omega
    have lf : f.dep.comp.toNat < (st' f.dep.node).dofNumbers.length := by
      rw [h8 _ (hc f hf f.dep (by simp))]; omega
    rw [List.getElem?_eq_getElem le] at e1
    rw [List.getElem?_eq_getElem lf] at f1
    simp only [Res.ok.injEq] at e1 f1
    have := h3.injective (hc e he e.dep (by simp)) (hc f hf f.dep (by simp)) le lf (e1.trans f1.symm)
    simp only [Prod.mk.injEq]
    exact ⟨this.1, by omega⟩
  have hcount := count_unlisted n2 ((c.equations dof).map num) hinj (by
    intro x hx
    obtain ⟨e, he, rfl⟩ := List.mem_map.mp hx
    exact (hnum' e he).1)
  have hle : (c.equations dof).length ≤ n2 := by
    have := (List.nodup_range (n := n2)).subperm (l₂ := List.range n2) (fun x hx => hx)
    have hs : ((c.equations dof).map num).Subperm (List.range n2) := hinj.subperm (by
      intro x hx
      obtain ⟨e, he, rfl⟩ := List.mem_map.mp hx
      exact List.mem_range.mpr (hnum' e he).1)
    simpa using hs.length_le
  have hsame : ((List.range n2).filter fun (i : Nat) => ∀ e ∈ c.equations dof, e.dep.dofNumber st' ≠ .ok (i : Int)) =
      (List.range n2).filter fun i => i ∉ (c.equations dof).map num := by
    apply List.filter_congr
    intro i _
    rw [decide_eq_decide, List.mem_map]
    constructor
    · rintro h ⟨e, he, rfl⟩
      exact h e he (hnum' e he).2
    · intro h e he hd
      apply h
      refine ⟨e, he, ?_⟩
      have := (hnum' e he).2
      rw [hd] at this
      simpa using this.symm
  rw [hsame, hcount, List.length_map]
  omega

/-- C06: `Build` raises exactly if some term refers to a node outside the group; then no node is renumbered (the store is not
part of the outcome). -/
theorem C06_throws_iff_foreign (st : NodeStore K) (nodes : List Nat) (dof : Nat) (c : Constraints K) (hnd : nodes.Nodup)
    (hwf : ∀ a ∈ nodes, (st a).WF) :
    DofNumbering.build st nodes dof c = .throw ↔
      ∃ e ∈ c.equations dof, ∃ t ∈ e.dep :: e.ind, t.node ∉ nodes := by
  by_cases hc : TermsIn nodes (c.equations dof)
  · obtain ⟨st', info, n, h, _⟩ := C05_numbering st nodes dof c hnd hwf hc
    rw [h]
    simp only [reduceCtorEq, false_iff]
    rintro ⟨e, he, t, ht, hn⟩
    exact hn (hc e he t ht)
  · have : DofNumbering.build st nodes dof c = .throw := by
      unfold DofNumbering.build
      rw [if_neg (by rw [nodesIncluded_iff]; exact hc)]
    simp only [this, true_iff]
    unfold TermsIn at hc
    push Not at hc
    exact hc

/-- C06: after a successful build every constrained dof has a number in `0..n-1`. -/
theorem C06_numbers_in_range (st st' : NodeStore K) (nodes : List Nat) (dof : Nat) (c : Constraints K)
    (info : DofNumbering.DofInfo) (hnd : nodes.Nodup) (hwf : ∀ a ∈ nodes, (st a).WF)
    (hb : DofNumbering.build st nodes dof c = .ok (st', info))
    (e : Equation K) (he : e ∈ c.equations dof) (t : Term K) (ht : t ∈ e.dep :: e.ind)
    (hcomp : 0 ≤ t.comp ∧ t.comp < (st t.node).numValues) :
    ∃ k : Nat, k < (nodes.map fun a => (st a).numValues).sum ∧ t.dofNumber st' = .ok (k : Int) := by
  have hc : TermsIn nodes (c.equations dof) := by
    by_contra hc
    have : DofNumbering.build st nodes dof c = .throw := by
      unfold DofNumbering.build
      rw [if_neg (by rw [nodesIncluded_iff]; exact hc)]
    rw [this] at hb; cases hb
  obtain ⟨st2, info2, n2, h1, h2, h3, h4, h5, h6, h7, h8⟩ := C05_numbering st nodes dof c hnd hwf hc
  rw [hb] at h1
  simp only [Res.ok.injEq, Prod.mk.injEq] at h1
  obtain ⟨rfl, rfl⟩ := h1
  subst h2
  have hin := hc e he t ht
  have hl := h8 _ hin
  have hi : t.comp.toNat < (st' t.node).dofNumbers.length := by omega
  have hr := h3.mem_range hin (List.getElem_mem hi)
  refine ⟨((st' t.node).dofNumbers[t.comp.toNat]).toNat, by omega, ?_⟩
  unfold Term.dofNumber Node.getDofNumber
  rw [if_neg (by omega), List.getElem?_eq_getElem hi]
  simp; omega

/-- two nodes with 2 and 1 components, one equation: hypotheses hold and the numbering is 0 1 | 2 -/
def exStore : NodeStore ℚ := fun a => if a = 10 then Node.ofVector [3, 4] else Node.ofVector [5]
def exEq : Equation ℚ := ⟨⟨10, 1, 1⟩, [⟨20, 0, 2⟩], fun t => t⟩
def exConstraints : Constraints ℚ := ⟨[(0, [exEq])], [(10, 1)], [(20, 0)]⟩

example : [20, 10].Nodup ∧ (∀ a ∈ [20, 10], (exStore a).WF) ∧ TermsIn [20, 10] (exConstraints.equations 0) ∧
    (∀ e ∈ exConstraints.equations 0, 0 ≤ e.dep.comp ∧ e.dep.comp < (exStore e.dep.node).numValues) ∧
    ((exConstraints.equations 0).map fun e => (e.dep.node, e.dep.comp)).Nodup ∧
    (DofNumbering.build exStore [20, 10] 0 exConstraints).bind (fun r => .ok ((r.1 20).dofNumbers, (r.1 10).dofNumbers, r.2))
      = .ok ([0], [1, 2], ⟨2, 1⟩) ∧
    DofNumbering.build exStore [10] 0 exConstraints = .throw := by
  refine ⟨by decide, ?_, ?_, ?_, by decide +kernel, by decide +kernel, rfl⟩
  · intro a ha; simp at ha; rcases ha with rfl | rfl <;> simp [exStore, Node.ofVector, Node.WF]
  · intro e he t ht
    simp [Constraints.equations, exConstraints, OMap.find?] at he; subst he
    simp [exEq] at ht; rcases ht with rfl | rfl <;> simp
  · intro e he
    simp [Constraints.equations, exConstraints, OMap.find?] at he; subst he
    simp [exEq, exStore, Node.ofVector, Node.numValues]

/-! ### C07 -/

/-- all nodes of the dof types are well formed, have the instance, and are numbered `0..size-1` per dof type; dof types do not
share nodes -/
structure Numbered (nodesOf : Nat → List Nat) (size : Nat → Nat) (dofs : List Nat) (inst : Nat) (st : NodeStore K) : Prop where
  nodup : ∀ d ∈ dofs, (nodesOf d).Nodup
  wf : ∀ d ∈ dofs, ∀ a ∈ nodesOf d, (st a).WF ∧ inst < (st a).values.length
  numbering : ∀ d ∈ dofs, IsNumbering st (nodesOf d) (size d)
  disjoint : ∀ d ∈ dofs, ∀ e ∈ dofs, d ≠ e → ∀ a ∈ nodesOf d, a ∉ nodesOf e

theorem IsNumbering.of_sameNumbers {st st' : NodeStore K} (h : ∀ a, (st' a).dofNumbers = (st a).dofNumbers)
    {nodes : List Nat} {n : Nat} (hn : IsNumbering st nodes n) : IsNumbering st' nodes n := by
  unfold IsNumbering at *; rw [← hn]; congr 1; funext a; exact h a

/-- what `Merge` does: each component of a node of a listed dof type gets the value at its dof number, everything else stays -/
theorem merge_spec [Zero K] (nodesOf : Nat → List Nat) (size : Nat → Nat) (v : DofVec K) (inst : Nat) (dofs : List Nat)
    (hdn : dofs.Nodup) : ∀ (st : NodeStore K), Numbered nodesOf size dofs inst st →
    (∀ d ∈ dofs, ∃ x, v.find? d = some x ∧ x.length = size d) →
    ∃ st', Merger.merge nodesOf v dofs inst st = .ok st' ∧
      (∀ a, (∀ d ∈ dofs, a ∉ nodesOf d) → st' a = st a) ∧
      ∀ d ∈ dofs, ∀ x, v.find? d = some x → ∀ a ∈ nodesOf d, st' a = Merger.merged x inst (st a) := by
  induction dofs with
  | nil => intro st _ _; exact ⟨st, rfl, by simp, by simp⟩
  | cons d dofs ih =>
    intro st hN hv
    obtain ⟨x, hx, hxl⟩ := hv d (by simp)
    have hstep := Merger.mergeNodes_ok v d inst x hx (nodesOf d) (hN.nodup d (by simp)) st (by
      intro a ha
      have := hN.wf d (by simp) a ha
      refine ⟨this.1, this.2, fun k hk => ?_⟩
      rw [hxl]; exact (hN.numbering d (by simp)).mem_range ha hk)
    set st1 : NodeStore K := fun a => if a ∈ nodesOf d then Merger.merged x inst (st a) else st a with hst1
    have hsame : ∀ a, (st1 a).dofNumbers = (st a).dofNumbers := by
      intro a; simp only [hst1]; split <;> simp [Merger.merged]
    have hN1 : Numbered nodesOf size dofs inst st1 := by
      refine ⟨fun e he => hN.nodup e (by simp [he]), ?_, fun e he =>
        (hN.numbering e (by simp [he])).of_sameNumbers hsame, fun e he f hf =>
        hN.disjoint e (by simp [he]) f (by simp [hf])⟩
      intro e he a ha
      have := hN.wf e (by simp [he]) a ha
      simp only [hst1]
      split
      · exact ⟨Merger.merged_wf _ _ _ this.1, by simpa [Merger.merged] using this.2⟩
      · exact this
    obtain ⟨st', h1, h2, h3⟩ := ih (List.nodup_cons.mp hdn).2 st1 hN1 (fun e he => hv e (by simp [he]))
    refine ⟨st', ?_, ?_, ?_⟩
    · unfold Merger.merge at *
      rw [Res.foldlM_cons, hstep]
      exact h1
    · intro a ha
      rw [h2 a (fun e he => ha e (by simp [he]))]
      simp [hst1, ha d (by simp)]
    · intro e he y hy a ha
      simp only [List.mem_cons] at he
      rcases he with rfl | he
      · rw [hx] at hy; cases hy
        have hnot : ∀ f ∈ dofs, a ∉ nodesOf f := by
          intro f hf
          exact hN.disjoint e (by simp) f (by simp [hf])
            (fun h => (List.nodup_cons.mp hdn).1 (h ▸ hf)) a ha
        rw [h2 a hnot]
        simp [hst1, ha]
      · rw [h3 e he y hy a ha]
        have hne : e ≠ d := fun h => (List.nodup_cons.mp hdn).1 (h ▸ he)
        have : a ∉ nodesOf d := hN.disjoint e (by simp [he]) d (by simp) hne a ha
        simp [hst1, this]

/-- what `Extract` does: the entry at the dof number of a component gets the nodal value -/
theorem extract_spec (nodesOf : Nat → List Nat) (size : Nat → Nat) (inst : Nat) (st : NodeStore K) (dofs : List Nat)
    (hdn : dofs.Nodup) (hN : Numbered nodesOf size dofs inst st) : ∀ (dest : DofVec K),
    (∀ d ∈ dofs, ∃ x, dest.find? d = some x ∧ x.length = size d) →
    ∃ r, Merger.extract nodesOf st dofs inst dest = .ok r ∧ (dest.Sorted → r.Sorted) ∧
      (∀ e, e ∉ dofs → r.find? e = dest.find? e) ∧
      ∀ d ∈ dofs, ∃ y, r.find? d = some y ∧ y.length = size d ∧
        ∀ a ∈ nodesOf d, ∀ i (hi : i < (st a).dofNumbers.length),
          y[((st a).dofNumbers[i]).toNat]? = ((st a).values.getD inst [])[i]? := by
  induction dofs with
  | nil => intro dest _; exact ⟨dest, rfl, by simp, by simp, by simp⟩
  | cons d dofs ih =>
    intro dest hd
    obtain ⟨x, hx, hxl⟩ := hd d (by simp)
    have hnum := hN.numbering d (by simp)
    obtain ⟨r1, e1, e2, e3, e4⟩ := Merger.extractNodes_ok d inst st (nodesOf d) dest x (by
      intro a ha
      have := hN.wf d (by simp) a ha
      refine ⟨this.1, this.2, fun k hk => ?_⟩
      rw [hxl]; exact hnum.mem_range ha hk) hx
    have hdn' := List.nodup_cons.mp hdn
    have hN' : Numbered nodesOf size dofs inst st :=
      ⟨fun e he => hN.nodup e (by simp [he]), fun e he => hN.wf e (by simp [he]),
        fun e he => hN.numbering e (by simp [he]), fun e he f hf => hN.disjoint e (by simp [he]) f (by simp [hf])⟩
    obtain ⟨r, g1, g2, g3, g4⟩ := ih hdn'.2 hN' r1 (by
      intro e he
      have hne : e ≠ d := fun h => hdn'.1 (h ▸ he)
      rw [e3 e hne]
      exact hd e (by simp [he]))
    refine ⟨r, ?_, fun hs => g2 (e4 hs), ?_, ?_⟩
    · unfold Merger.extract at *
      rw [Res.foldlM_cons, e1]
      exact g1
    · intro e he
      simp only [List.mem_cons, not_or] at he
      rw [g3 e he.2, e3 e he.1]
    · intro e he
      simp only [List.mem_cons] at he
      rcases he with rfl | he
      · refine ⟨_, (g3 e hdn'.1).trans e2, by rw [Merger.writeAll_length, hxl], ?_⟩
        intro a ha i hi
        have hlen : ∀ b ∈ nodesOf e, ((st b).values.getD inst []).length = (st b).dofNumbers.length := by
          intro b hb
          have := hN.wf e (by simp) b hb
          rw [List.getD_eq_getElem?_getD, List.getElem?_eq_getElem this.2]
          exact this.1.2 _ (List.getElem_mem this.2)
        -- the value belonging to a number
        have hex : ∃ f : Nat → K, ∀ b ∈ nodesOf e, ∀ j (hj : j < (st b).dofNumbers.length)
            (hj' : j < ((st b).values.getD inst []).length),
            ((st b).values.getD inst [])[j] = f ((st b).dofNumbers[j]).toNat := by
          classical
          refine ⟨fun k => if h : ∃ q : Nat × Nat, q.1 ∈ nodesOf e ∧ ∃ hj : q.2 < (st q.1).dofNumbers.length,
              (st q.1).dofNumbers[q.2] = (k : Int) then
              ((st h.choose.1).values.getD inst [])[h.choose.2]'(by
                rw [hlen _ h.choose_spec.1]; exact h.choose_spec.2.choose)
            else ((st a).values.getD inst [])[i]'(by rw [hlen a ha]; exact hi), ?_⟩
          intro b hb j hj hj'
          have hr := hnum.mem_range hb (List.getElem_mem hj)
          have h : ∃ q : Nat × Nat, q.1 ∈ nodesOf e ∧ ∃ hj : q.2 < (st q.1).dofNumbers.length,
              (st q.1).dofNumbers[q.2] = (((st b).dofNumbers[j]).toNat : Int) :=
            ⟨(b, j), hb, hj, by simp only; omega⟩
          simp only [dif_pos h]
          obtain ⟨hs1, hs2, hs3⟩ := h.choose_spec
          have heq : (st h.choose.1).dofNumbers[h.choose.2] = (st b).dofNumbers[j] := by rw [hs3]; omega
          have := hnum.injective hs1 hb hs2 hj heq
          have hb' : h.choose = (b, j) := Prod.ext this.1 this.2
          congr 1
          · rw [hb']
          · rw [hb']
        obtain ⟨f, hf⟩ := hex
        have hr := hnum.mem_range ha (List.getElem_mem hi)
        rw [Merger.writeAll_agree (Merger.pairs st inst (nodesOf e)) f (by
          intro p hp
          simp only [Merger.pairs, List.mem_flatMap] at hp
          obtain ⟨b, hb, hp⟩ := hp
          obtain ⟨j, hj, rfl⟩ := List.mem_iff_getElem.mp hp
          simp only [List.getElem_zip]
          simp only [List.length_zip] at hj
          exact hf b hb j (by omega) (by omega)) x _ (by omega)]
        rw [if_pos]
        · have hi' : i < ((st a).values.getD inst []).length := by rw [hlen a ha]; exact hi
          rw [List.getElem?_eq_getElem hi', hf a ha i hi hi']
        · have hi' : i < ((st a).dofNumbers.zip ((st a).values.getD inst [])).length := by
            rw [List.length_zip, hlen a ha]; omega
          refine ⟨_, List.mem_flatMap.mpr ⟨a, ha, List.getElem_mem hi'⟩, ?_⟩
          simp
      · exact g4 e he

/-- C07: `Extract` after `Merge(v)` returns v; only values of the merged instance of nodes of the listed dof types change. -/
theorem C07_extract_after_merge [Zero K] (nodesOf : Nat → List Nat) (size : Nat → Nat) (v dest : DofVec K) (inst : Nat)
    (dofs : List Nat) (hdn : dofs.Nodup) (st : NodeStore K) (hN : Numbered nodesOf size dofs inst st)
    (hv : ∀ d ∈ dofs, ∃ x, v.find? d = some x ∧ x.length = size d)
    (hdest : ∀ d ∈ dofs, ∃ x, dest.find? d = some x ∧ x.length = size d) :
    ∃ st' r, Merger.merge nodesOf v dofs inst st = .ok st' ∧ Merger.extract nodesOf st' dofs inst dest = .ok r ∧
      (∀ d ∈ dofs, r.find? d = v.find? d) ∧ (∀ d, d ∉ dofs → r.find? d = dest.find? d) ∧
      (∀ a, (∀ d ∈ dofs, a ∉ nodesOf d) → st' a = st a) ∧
      (∀ a, (st' a).dofNumbers = (st a).dofNumbers) ∧
      (∀ a k, k ≠ inst → (st' a).values[k]? = (st a).values[k]?) := by
  obtain ⟨st', h1, h2, h3⟩ := merge_spec nodesOf size v inst dofs hdn st hN hv
  have hcases : ∀ a, st' a = st a ∨ ∃ x, st' a = Merger.merged x inst (st a) := by
    intro a
    by_cases h : ∃ d ∈ dofs, a ∈ nodesOf d
    · obtain ⟨d, hd, ha⟩ := h
      obtain ⟨x, hx, _⟩ := hv d hd
      exact Or.inr ⟨x, h3 d hd x hx a ha⟩
    · push Not at h
      exact Or.inl (h2 a h)
  have hsame : ∀ a, (st' a).dofNumbers = (st a).dofNumbers := by
    intro a
    rcases hcases a with h | ⟨x, h⟩ <;> rw [h]
    rfl
  have hN' : Numbered nodesOf size dofs inst st' := by
    refine ⟨hN.nodup, ?_, fun e he => (hN.numbering e he).of_sameNumbers hsame, hN.disjoint⟩
    intro d hd a ha
    have := hN.wf d hd a ha
    rcases hcases a with h | ⟨x, h⟩ <;> rw [h]
    · exact this
    · exact ⟨Merger.merged_wf _ _ _ this.1, by simpa [Merger.merged] using this.2⟩
  obtain ⟨r, g1, g2, g3, g4⟩ := extract_spec nodesOf size inst st' dofs hdn hN' dest hdest
  refine ⟨st', r, h1, g1, ?_, g3, h2, hsame, ?_⟩
  · intro d hd
    obtain ⟨y, hy, hyl, hval⟩ := g4 d hd
    obtain ⟨x, hx, hxl⟩ := hv d hd
    rw [hy, hx]
    congr 1
    apply List.ext_getElem (by omega)
    intro k hk hk'
    obtain ⟨a, ha, hm⟩ := (hN'.numbering d hd).covers (k := k) (by omega)
    obtain ⟨i, hi, hik⟩ := List.mem_iff_getElem.mp hm
    have hv' := hval a ha i hi
    rw [hik] at hv'
    simp only [Int.toNat_natCast] at hv'
    rw [List.getElem?_eq_getElem hk] at hv'
    have hst : st' a = Merger.merged x inst (st a) := h3 d hd x hx a ha
    have hinst := (hN.wf d hd a ha).2
    have hi0 : i < (st a).dofNumbers.length := by rw [← hsame a]; exact hi
    have hik0 : (st a).dofNumbers[i] = (k : Int) := by
      have : (st' a).dofNumbers[i]? = (st a).dofNumbers[i]? := by rw [hsame]
      rw [List.getElem?_eq_getElem hi, List.getElem?_eq_getElem hi0, Option.some.injEq] at this
      rw [← this, hik]
    rw [hst] at hv'
    simp only [Merger.merged, List.getD_eq_getElem?_getD, List.getElem?_set, if_pos hinst, if_true, Option.getD_some,
      List.getElem?_map, List.getElem?_eq_getElem hi0, Option.map_some, hik0, Int.toNat_natCast,
      List.getElem?_eq_getElem hk', Option.some.injEq] at hv'
    exact hv'
  · intro a k hk
    rcases hcases a with h | ⟨x, h⟩ <;> rw [h]
    simp [Merger.merged, List.getElem?_set_ne (Ne.symm hk)]

/-- C07: merging what was extracted leaves every node as it was. -/
theorem C07_merge_after_extract [Zero K] (nodesOf : Nat → List Nat) (size : Nat → Nat) (dest : DofVec K) (inst : Nat)
    (dofs : List Nat) (hdn : dofs.Nodup) (st : NodeStore K) (hN : Numbered nodesOf size dofs inst st)
    (hdest : ∀ d ∈ dofs, ∃ x, dest.find? d = some x ∧ x.length = size d) :
    ∃ r, Merger.extract nodesOf st dofs inst dest = .ok r ∧ Merger.merge nodesOf r dofs inst st = .ok st := by
  obtain ⟨r, g1, g2, g3, g4⟩ := extract_spec nodesOf size inst st dofs hdn hN dest hdest
  obtain ⟨st', h1, h2, h3⟩ := merge_spec nodesOf size r inst dofs hdn st hN (by
    intro d hd; obtain ⟨y, hy, hyl, _⟩ := g4 d hd; exact ⟨y, hy, hyl⟩)
  refine ⟨r, g1, h1.trans ?_⟩
  congr 1
  funext a
  by_cases h : ∃ d ∈ dofs, a ∈ nodesOf d
  · obtain ⟨d, hd, ha⟩ := h
    obtain ⟨y, hy, hyl, hval⟩ := g4 d hd
    rw [h3 d hd y hy a ha]
    have hw := hN.wf d hd a ha
    have key : ((st a).dofNumbers.map fun k => y.getD k.toNat 0) = (st a).values[inst]'hw.2 := by
      apply List.ext_getElem
      · rw [List.length_map]; exact (hw.1.2 _ (List.getElem_mem hw.2)).symm
      · intro i hi hi'
        rw [List.length_map] at hi
        have := hval a ha i hi
        simp only [List.getElem_map, List.getD_eq_getElem?_getD, this, List.getElem?_eq_getElem hw.2, Option.getD_some,
          List.getElem?_eq_getElem hi']
    unfold Merger.merged
    rw [key, List.set_getElem_self]
  · push Not at h
    exact h2 a h

/-- hypotheses are met: two dof types, three nodes, two instances, merging into instance 1 -/
def exNodes7 : NodeStore ℚ := fun a =>
  if a = 1 then ⟨[[1, 2], [0, 0]], [0, 1]⟩ else if a = 2 then ⟨[[3, 4], [0, 0]], [2, 3]⟩ else ⟨[[5], [7]], [0]⟩
def exNodesOf : Nat → List Nat := fun d => if d = 0 then [1, 2] else [3]

example : [0, 1].Nodup ∧ Numbered exNodesOf (fun d => if d = 0 then 4 else 1) [0, 1] 1 exNodes7 ∧
    (Merger.merge exNodesOf [(0, [10, 11, 12, 13]), (1, [14])] [0, 1] 1 exNodes7).bind
      (fun st => .ok ((st 1).values, (st 2).values, (st 3).values)) =
      .ok ([[1, 2], [10, 11]], [[3, 4], [12, 13]], [[5], [14]]) := by
  refine ⟨by decide, ⟨?_, ?_, ?_, ?_⟩, by decide +kernel⟩ <;> simp only [List.mem_cons, List.not_mem_nil, or_false]
  · rintro d (rfl | rfl) <;> decide
  · rintro d (rfl | rfl) a ha <;> simp [exNodesOf] at ha <;> (try rcases ha with rfl | rfl) <;> 
      simp [exNodes7, Node.WF]
  · rintro d (rfl | rfl) <;> simp only [IsNumbering] <;> decide +kernel
  · rintro d (rfl | rfl) e (rfl | rfl) <;> simp [exNodesOf]

end NuTo
