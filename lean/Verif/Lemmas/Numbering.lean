import Verif.Model.Constraints
import Verif.Lemmas.DofVector
import Mathlib.Data.List.Nodup

set_option linter.unusedSectionVars false
namespace NuTo
variable {K : Type _}

theorem List.take_set_succ {α : Type _} (l : List α) (j : Nat) (x : α) (h : j < l.length) :
    (l.set j x).take (j + 1) = l.take j ++ [x] := by
  rw [List.take_add_one, List.take_set_of_le (Nat.le_refl _), List.getElem?_set_self h]
  rfl

namespace DofNumbering

theorem numberLoop (m : Nat) : ∀ (j : Nat) (n : Node K) (k : Nat), j + m = n.dofNumbers.length →
    Res.foldlM numberStep (n, k) (List.range' j m) =
    .ok ({ n with dofNumbers := n.dofNumbers.take j ++ (List.range' k m).map Int.ofNat }, k + m) := by
  induction m with
  | zero =>
    intro j n k h
    simp only [Nat.add_zero] at h
    cases n
    simp_all
  | succ m ih =>
    intro j n k h
    rw [List.range'_succ]
    simp only [Res.foldlM_cons, numberStep, Node.setDofNumber, Res.require]
    rw [if_pos (by omega)]
    simp only [Res.bind_ok']
    rw [ih _ _ _ (by simp; omega)]
    simp only [List.range'_succ, List.map_cons]
    rw [List.take_set_succ _ _ _ (by omega)]
    congr 2
    · simp
    · omega

theorem numberNode_ok (n : Node K) (hn : n.WF) (k : Nat) :
    n.numValues = n.dofNumbers.length ∧
    numberNode n k = .ok ({ n with dofNumbers := (List.range' k n.numValues).map Int.ofNat }, k + n.numValues) := by
  have hl : n.numValues = n.dofNumbers.length := by
    unfold Node.numValues
    obtain ⟨h1, h2⟩ := hn
    cases h : n.values with
    | nil => exact absurd h h1
    | cons a t => exact h2 a (by simp [h])
  refine ⟨hl, ?_⟩
  unfold numberNode
  rw [List.range_eq_range', numberLoop _ 0 n k (by omega)]
  simp

theorem initial_ok (nodes : List Nat) (hnd : nodes.Nodup) : ∀ (st : NodeStore K) (k : Nat),
    (∀ a ∈ nodes, (st a).WF) → ∃ st' : NodeStore K,
    Res.foldlM (fun (s : NodeStore K × Nat) a =>
      (numberNode (s.1 a) s.2).bind fun r => .ok (Function.update s.1 a r.1, r.2)) (st, k) nodes =
      .ok (st', k + (nodes.map fun a => (st a).numValues).sum) ∧
    (∀ a, a ∉ nodes → st' a = st a) ∧
    (∀ a, (st' a).values = (st a).values) ∧
    (∀ a ∈ nodes, (st' a).WF) ∧
    (nodes.flatMap fun a => (st' a).dofNumbers) =
      (List.range' k (nodes.map fun a => (st a).numValues).sum).map Int.ofNat := by
  induction nodes with
  | nil => intro st k h; exact ⟨st, by simp, by simp, by simp, by simp, by simp⟩
  | cons a nodes ih =>
    intro st k h
    obtain ⟨h1, h2⟩ := numberNode_ok (st a) (h a (by simp)) k
    have hnd' := List.nodup_cons.mp hnd
    have hne : ∀ b ∈ nodes, b ≠ a := fun b hb e => hnd'.1 (e ▸ hb)
    obtain ⟨st', e1, e2, e3, e4, e5⟩ := ih hnd'.2
      (Function.update st a { st a with dofNumbers := (List.range' k (st a).numValues).map Int.ofNat })
      (k + (st a).numValues) (by
        intro b hb
        rw [Function.update_of_ne (hne b hb)]
        exact h b (by simp [hb]))
    have hmap : (nodes.map fun b => ((Function.update st a
        { st a with dofNumbers := (List.range' k (st a).numValues).map Int.ofNat }) b).numValues) =
        nodes.map fun b => (st b).numValues :=
      List.map_congr_left fun b hb => by rw [Function.update_of_ne (hne b hb)]
    rw [hmap] at e1 e5
    refine ⟨st', ?_, ?_, ?_, ?_, ?_⟩
    · simp only [Res.foldlM_cons, h2, Res.bind_ok']
      rw [e1, List.map_cons, List.sum_cons]
      congr 2; omega
    · intro b hb
      simp only [List.mem_cons, not_or] at hb
      rw [e2 b hb.2, Function.update_of_ne hb.1]
    · intro b
      rw [e3]
      by_cases hb : b = a
      · subst hb; simp
      · rw [Function.update_of_ne hb]
    · intro b hb
      simp only [List.mem_cons] at hb
      rcases hb with rfl | hb
      · have hw := h b (by simp)
        rw [e2 b hnd'.1]
        simp only [Function.update_self, Node.WF, List.length_map, List.length_range']
        exact ⟨hw.1, fun v hv => by rw [h1]; exact hw.2 v hv⟩
      · exact e4 b hb
    · rw [List.flatMap_cons, e5, e2 a hnd'.1, List.map_cons, List.sum_cons, ← List.range'_append_1, List.map_append]
      simp

end DofNumbering

namespace Node
theorem numValues_eq {n : Node K} (hn : n.WF) : n.numValues = n.dofNumbers.length := by
    unfold Node.numValues
    obtain ⟨h1, h2⟩ := hn
    cases h : n.values with
    | nil => exact absurd h h1
    | cons a t => exact h2 a (by simp [h])

theorem getDofNumber_nat (n : Node K) (i : Nat) (h : i < n.dofNumbers.length) :
    n.getDofNumber (i : Int) = .ok (n.dofNumbers[i]) := by
  unfold getDofNumber
  rw [if_neg (by omega)]
  simp [h]
end Node

namespace Merger

/-- the node after merging: instance `inst` holds the values at the dof numbers -/
def merged [Zero K] (x : List K) (inst : Nat) (n : Node K) : Node K :=
  { n with values := n.values.set inst (n.dofNumbers.map fun d => x.getD d.toNat 0) }

theorem mergeLoop [Zero K] (v : DofVec K) (dof inst : Nat) (x : List K) (hx : v.find? dof = some x) (m : Nat) :
    ∀ (j : Nat) (n : Node K) (w : List K), j + m = n.dofNumbers.length →
    (∀ d ∈ n.dofNumbers, 0 ≤ d ∧ d < x.length) → n.values[inst]? = some w → w.length = n.dofNumbers.length →
    Res.foldlM (mergeStep v dof inst) n (List.range' j m) =
    .ok { n with values := n.values.set inst (w.take j ++ (n.dofNumbers.drop j).map fun d => x.getD d.toNat 0) } := by
  induction m with
  | zero =>
    intro j n w h _ hv hw
    simp only [Nat.add_zero] at h
    have : n.dofNumbers.drop j = [] := by simp [h]
    have h2 : w.take j = w := by rw [List.take_of_length_le]; omega
    simp only [List.range'_zero, Res.foldlM_nil, this, List.map_nil, List.append_nil, h2]
    congr 1
    cases n
    congr 1
    simp only at hv
    apply List.ext_getElem?
    intro i
    rw [List.getElem?_set]
    split
    · rename_i hi
      rw [← hi, hv, if_pos (List.getElem?_eq_some_iff.mp hv).1]
    · rfl
  | succ m ih =>
    intro j n w h hr hv hw
    rw [List.range'_succ]
    have hj : j < n.dofNumbers.length := by omega
    have hd := hr _ (List.getElem_mem hj)
    have hl : n.dofNumbers[j].toNat < x.length := by omega
    simp only [Res.foldlM_cons, mergeStep, Node.getDofNumber_nat n j hj, Res.bind_ok', OMap.at', hx]
    rw [if_neg (by omega), List.getElem?_eq_getElem hl]
    simp only [Node.setValue, hv, Res.require]
    rw [if_pos ⟨hj, by omega⟩]
    simp only [Res.bind_ok']
    have hinst : inst < n.values.length := (List.getElem?_eq_some_iff.mp hv).1
    have := ih (j+1) { n with values := n.values.set inst (w.set j x[n.dofNumbers[j].toNat]) }
      (w.set j x[n.dofNumbers[j].toNat]) (by simp; omega) hr (by simp [hinst]) (by simp [hw])
    rw [this]
    congr 1
    simp only [List.set_set]
    congr 2
    rw [List.take_set_succ _ _ _ (by omega), List.drop_eq_getElem_cons hj, List.append_assoc, List.map_cons]
    simp only [List.getD_eq_getElem?_getD, List.getElem?_eq_getElem hl, Option.getD_some, List.singleton_append]

theorem mergeNode_ok [Zero K] (v : DofVec K) (dof inst : Nat) (x : List K) (hx : v.find? dof = some x) (n : Node K)
    (hw : n.WF) (hi : inst < n.values.length) (hr : ∀ d ∈ n.dofNumbers, 0 ≤ d ∧ d < x.length) :
    mergeNode v dof inst n = .ok (merged x inst n) := by
  unfold mergeNode
  rw [List.range_eq_range', mergeLoop v dof inst x hx _ 0 n n.values[inst] (by rw [Node.numValues_eq hw]; omega) hr
    (by simp [hi]) (hw.2 _ (List.getElem_mem hi))]
  simp [merged]

theorem merged_wf [Zero K] (x : List K) (inst : Nat) (n : Node K) (hw : n.WF) : (merged x inst n).WF := by
  refine ⟨?_, ?_⟩
  · have := hw.1
    intro h
    simp only [merged, List.set_eq_nil_iff] at h
    exact this h
  · intro u hu
    simp only [merged] at *
    rcases List.mem_or_eq_of_mem_set hu with h | h
    · exact hw.2 u h
    · simp [h]

/-- merging over a duplicate free list of nodes -/
theorem mergeNodes_ok [Zero K] (v : DofVec K) (dof inst : Nat) (x : List K) (hx : v.find? dof = some x)
    (nodes : List Nat) (hnd : nodes.Nodup) : ∀ st : NodeStore K,
    (∀ a ∈ nodes, (st a).WF ∧ inst < (st a).values.length ∧ ∀ d ∈ (st a).dofNumbers, 0 ≤ d ∧ d < x.length) →
    Res.foldlM (fun (st : NodeStore K) a =>
      (mergeNode v dof inst (st a)).bind fun n => .ok (Function.update st a n)) st nodes =
      .ok (fun a => if a ∈ nodes then merged x inst (st a) else st a) := by
  induction nodes with
  | nil => intro st _; simp
  | cons a nodes ih =>
    intro st h
    have hnd' := List.nodup_cons.mp hnd
    have ha := h a (by simp)
    simp only [Res.foldlM_cons, mergeNode_ok v dof inst x hx (st a) ha.1 ha.2.1 ha.2.2, Res.bind_ok']
    have hne : ∀ b ∈ nodes, b ≠ a := fun b hb e => hnd'.1 (e ▸ hb)
    rw [ih hnd'.2 _ (by intro b hb; rw [Function.update_of_ne (hne b hb)]; exact h b (by simp [hb]))]
    congr 1
    funext b
    by_cases hb : b = a
    · subst hb; simp [hnd'.1]
    · simp [hb]

/-- value written to a block by extracting the pairs (number, value) in order -/
def writeAll (ps : List (Int × K)) (block : List K) : List K :=
  ps.foldl (fun b p => b.set p.1.toNat p.2) block

theorem writeAll_length (ps : List (Int × K)) : ∀ block : List K, (writeAll ps block).length = block.length := by
  induction ps with
  | nil => intro b; rfl
  | cons p ps ih => intro b; simp only [writeAll, List.foldl_cons] at *; rw [ih]; simp

theorem extractLoop (dof inst : Nat) (n : Node K) (w : List K) (hv : n.values[inst]? = some w)
    (hw : w.length = n.dofNumbers.length) (m : Nat) : ∀ (j : Nat) (r : DofVec K) (block : List K),
    j + m = n.dofNumbers.length → (∀ d ∈ n.dofNumbers, 0 ≤ d ∧ d < block.length) → r.find? dof = some block →
    ∃ r' : DofVec K, Res.foldlM (extractStep dof inst n) r (List.range' j m) = .ok r' ∧
      r'.find? dof = some (writeAll ((n.dofNumbers.drop j).zip (w.drop j)) block) ∧
      (∀ e, e ≠ dof → r'.find? e = r.find? e) ∧ (r.Sorted → r'.Sorted) := by
  induction m with
  | zero =>
    intro j r block h hr hb
    refine ⟨r, by simp, ?_, by simp, by simp⟩
    have : n.dofNumbers.drop j = [] := by simp; omega
    rw [this]; simpa [writeAll] using hb
  | succ m ih =>
    intro j r block h hr hb
    have hj : j < n.dofNumbers.length := by omega
    have hjw : j < w.length := by omega
    have hd := hr _ (List.getElem_mem hj)
    obtain ⟨r', h1, h2, h3, h4⟩ := ih (j+1) (r.set dof (block.set n.dofNumbers[j].toNat w[j]))
      (block.set n.dofNumbers[j].toNat w[j]) (by omega) (by simpa using hr) (by rw [OMap.find?_set]; simp)
    refine ⟨r', ?_, ?_, ?_, ?_⟩
    · rw [List.range'_succ]
      simp only [Res.foldlM_cons, extractStep, Node.getDofNumber_nat n j hj, Res.bind_ok', Node.getValue, hv,
        List.getElem?_eq_getElem hjw, hb, Option.getD_some, Res.require]
      rw [if_pos hd]
      exact h1
    · rw [h2, List.drop_eq_getElem_cons hj, List.drop_eq_getElem_cons hjw]
      rfl
    · intro e he
      rw [h3 e he, OMap.find?_set, if_neg he]
    · intro hs; exact h4 (OMap.sorted_set hs _ _)

theorem extractNode_ok (dof inst : Nat) (n : Node K) (hw : n.WF) (hi : inst < n.values.length) (r : DofVec K)
    (block : List K) (hr : ∀ d ∈ n.dofNumbers, 0 ≤ d ∧ d < block.length) (hb : r.find? dof = some block) :
    ∃ r', extractNode dof inst n r = .ok r' ∧
      r'.find? dof = some (writeAll (n.dofNumbers.zip n.values[inst]) block) ∧
      (∀ e, e ≠ dof → r'.find? e = r.find? e) ∧ (r.Sorted → r'.Sorted) := by
  obtain ⟨r', h1, h2⟩ := extractLoop dof inst n n.values[inst] (by simp [hi]) (hw.2 _ (List.getElem_mem hi))
    n.numValues 0 r block (by rw [Node.numValues_eq hw]; omega) hr hb
  refine ⟨r', ?_, by simpa using h2⟩
  unfold extractNode
  rw [List.range_eq_range']
  exact h1

/-- (number, value) pairs of a list of nodes -/
def pairs (st : NodeStore K) (inst : Nat) (nodes : List Nat) : List (Int × K) :=
  nodes.flatMap fun a => (st a).dofNumbers.zip ((st a).values.getD inst [])

theorem extractNodes_ok (dof inst : Nat) (st : NodeStore K) (nodes : List Nat) : ∀ (r : DofVec K) (block : List K),
    (∀ a ∈ nodes, (st a).WF ∧ inst < (st a).values.length ∧ ∀ d ∈ (st a).dofNumbers, 0 ≤ d ∧ d < block.length) →
    r.find? dof = some block →
    ∃ r', Res.foldlM (fun (r : DofVec K) a => extractNode dof inst (st a) r) r nodes = .ok r' ∧
      r'.find? dof = some (writeAll (pairs st inst nodes) block) ∧
      (∀ e, e ≠ dof → r'.find? e = r.find? e) ∧ (r.Sorted → r'.Sorted) := by
  induction nodes with
  | nil => intro r block _ hb; exact ⟨r, by simp, by simpa [pairs, writeAll] using hb, by simp, by simp⟩
  | cons a nodes ih =>
    intro r block h hb
    have ha := h a (by simp)
    obtain ⟨r1, h1, h2, h3, h4⟩ := extractNode_ok dof inst (st a) ha.1 ha.2.1 r block ha.2.2 hb
    obtain ⟨r2, g1, g2, g3, g4⟩ := ih r1 (writeAll ((st a).dofNumbers.zip (st a).values[inst]) block) (by
      intro b hb'
      have := h b (by simp [hb'])
      rw [writeAll_length]
      exact this) h2
    refine ⟨r2, by simp [h1, g1], ?_, ?_, ?_⟩
    · rw [g2]
      congr 1
      simp only [pairs, List.flatMap_cons, writeAll, List.foldl_append]
      simp [List.getD_eq_getElem?_getD, ha.2.1]
    · intro e he; rw [g3 e he, h3 e he]
    · intro hs; exact g4 (h4 hs)

/-- a function that all pairs agree with determines the written block at covered positions -/
theorem writeAll_agree (ps : List (Int × K)) (f : Nat → K) (hf : ∀ p ∈ ps, p.2 = f p.1.toNat) :
    ∀ block : List K, ∀ i (_ : i < block.length),
      (writeAll ps block)[i]? = if (∃ p ∈ ps, p.1.toNat = i) then some (f i) else block[i]? := by
  induction ps with
  | nil => intro b i h; simp [writeAll]
  | cons p ps ih =>
    intro b i h
    have := ih (fun q hq => hf q (by simp [hq])) (b.set p.1.toNat p.2) i (by simpa using h)
    simp only [writeAll, List.foldl_cons] at *
    rw [this]
    by_cases h1 : ∃ q ∈ ps, q.1.toNat = i
    · have h2 : ∃ q ∈ p :: ps, q.1.toNat = i := by
        obtain ⟨q, hq, e⟩ := h1; exact ⟨q, by simp [hq], e⟩
      rw [if_pos h1, if_pos h2]
    · rw [if_neg h1]
      by_cases h3 : p.1.toNat = i
      · rw [if_pos ⟨p, by simp, h3⟩, ← h3, List.getElem?_set_self (by omega), hf p (by simp)]
      · rw [if_neg, List.getElem?_set_ne h3]
        rintro ⟨q, hq, e⟩
        simp only [List.mem_cons] at hq
        rcases hq with rfl | hq
        · exact h3 e
        · exact h1 ⟨q, hq, e⟩

end Merger
end NuTo
