/-
C47: memoisation does not change results.
-/
import Verif.Model.Cell
import Verif.Lemmas.OMap
import Mathlib.Data.List.GetD

set_option linter.unusedSectionVars false

namespace NuTo

/-! ### Node values of a cell -/

namespace CellData

variable {V : Type} {extract : Nat → Nat → Res (Option V)}

/-- Stored values are the values of the uncached computation. -/
def Inv (extract : Nat → Nat → Res (Option V)) (c : Cache V) : Prop :=
  ∀ d l, c.find? d = some l → ∀ (i : Nat) v, l[i]? = some (some v) → extract d i = .ok (some v)

theorem grown_getElem? (old : List (Option V)) (inst : Int) (i : Nat) (v : V)
    (h : (if inst ≥ (old.length : Int) then
      old ++ List.replicate (inst.toNat + 1 - old.length) none else old)[i]? = some (some v)) :
    old[i]? = some (some v) := by
  split at h
  · rw [List.getElem?_append] at h
    split at h
    · exact h
    · rw [List.getElem?_replicate] at h
      split at h <;> simp at h
  · exact h

theorem grown_length (old : List (Option V)) (inst : Int) (h0 : 0 ≤ inst) :
    inst.toNat < (if inst ≥ (old.length : Int) then
      old ++ List.replicate (inst.toNat + 1 - old.length) none else old).length := by
  split
  · simp only [List.length_append, List.length_replicate]; omega
  · omega

theorem step (c : Cache V) (hc : Inv extract c) (d : Nat) (inst : Int) :
    Inv extract (getNodeValues extract c d inst).1 ∧
    (getNodeValues extract c d inst).2 = if inst < 0 then .ub else extract d inst.toNat := by
  unfold getNodeValues
  set old := (c.find? d).getD [] with hold
  have hlen := grown_length old inst
  have hget := grown_getElem? old inst
  dsimp only
  set grown := (if inst ≥ (old.length : Int) then
      old ++ List.replicate (inst.toNat + 1 - old.length) none else old) with hgrown
  have hc1 : Inv extract (c.set d grown) := by
    intro d' l hl i v hv
    rw [OMap.find?_set] at hl
    split at hl
    · next he =>
      simp only [Option.some.injEq] at hl
      subst hl
      have h1 := hget i v hv
      rw [he]
      cases hf : c.find? d with
      | none => rw [hold, hf] at h1; simp at h1
      | some l0 =>
        rw [hold, hf] at h1
        exact hc d l0 hf i v h1
    · exact hc d' l hl i v hv
  by_cases hneg : inst < 0
  · simp only [if_pos hneg]
    exact ⟨hc1, trivial⟩
  · simp only [if_neg hneg]
    have hl : inst.toNat < grown.length := hlen (by omega)
    have hg : grown[inst.toNat]? = some (grown.getD inst.toNat none) := by
      rw [List.getD_eq_getElem?_getD, List.getElem?_eq_getElem hl]; rfl
    cases hv : grown.getD inst.toNat none with
    | some v =>
      refine ⟨hc1, ?_⟩
      rw [hv] at hg
      exact (hc1 d grown (by rw [OMap.find?_set, if_pos rfl]) _ v hg).symm
    | none =>
      cases he : extract d inst.toNat with
      | ok v =>
        refine ⟨?_, rfl⟩
        intro d' l hl' i w hw
        rw [OMap.find?_set] at hl'
        split at hl'
        · next hd =>
          simp only [Option.some.injEq] at hl'
          subst hl'
          subst hd
          rw [List.getElem?_set] at hw
          split at hw
          · next hi =>
            subst hi
            rw [Option.some.injEq] at hw
            rw [he, hw]
          · exact hc1 d' grown (by rw [OMap.find?_set, if_pos rfl]) i w hw
        · exact hc1 d' l hl' i w hw
      | throw => exact ⟨hc1, rfl⟩
      | ub => exact ⟨hc1, rfl⟩

theorem run_eq (c : Cache V) (hc : Inv extract c) (qs : List (Nat × Int)) :
    run extract c qs = qs.map fun q => if q.2 < 0 then .ub else extract q.1 q.2.toNat := by
  induction qs generalizing c with
  | nil => rfl
  | cons q qs ih =>
    obtain ⟨h1, h2⟩ := step c hc q.1 q.2
    rw [run, h2, ih _ h1, List.map_cons]

end CellData

/-- C47: for every sequence of calls of `CellData::GetNodeValues` every call returns what
`ExtractNodeValues` of the element returns (or throws what it throws); negative instances are
undefined. -/
theorem C47_node_values {V : Type} (extract : Nat → Nat → Res (Option V)) (qs : List (Nat × Int)) :
    CellData.run extract [] qs = qs.map fun q => if q.2 < 0 then .ub else extract q.1 q.2.toNat :=
  CellData.run_eq [] (fun _ _ h => by simp [OMap.find?] at h) qs

theorem CellData.length_mono {V : Type} (extract : Nat → Nat → Res (Option V)) (c : Cache V) (d d' : Nat)
    (inst : Int) : ((c.find? d').getD []).length ≤
      (((getNodeValues extract c d inst).1.find? d').getD []).length := by
  unfold getNodeValues
  dsimp only
  set old := (c.find? d).getD [] with hold
  set grown := (if inst ≥ (old.length : Int) then
      old ++ List.replicate (inst.toNat + 1 - old.length) none else old) with hgrown
  have hgl : old.length ≤ grown.length := by
    rw [hgrown]; split <;> simp
  have h1 : ((c.find? d').getD []).length ≤ (((c.set d grown).find? d').getD []).length := by
    rw [OMap.find?_set]
    split
    · next h => subst h; exact hgl
    · exact le_rfl
  split
  · exact h1
  · split
    · exact h1
    · split
      · refine h1.trans ?_
        rw [OMap.find?_set, OMap.find?_set]
        by_cases hd : d' = d
        · rw [if_pos hd, if_pos hd]; simp
        · simp only [OMap.find?_set, if_neg hd, le_refl]
      · exact h1
      · exact h1

theorem CellData.length_after {V : Type} (extract : Nat → Nat → Res (Option V)) (c : Cache V) (d : Nat)
    (inst : Int) (h0 : 0 ≤ inst) :
    inst.toNat < (((getNodeValues extract c d inst).1.find? d).getD []).length := by
  unfold getNodeValues
  dsimp only
  have hl := grown_length ((c.find? d).getD []) inst h0
  rw [if_neg (by omega)]
  split
  · rw [OMap.find?_set, if_pos rfl]; exact hl
  · split <;> rw [OMap.find?_set, if_pos rfl]
    · simpa using hl
    · exact hl
    · exact hl

/-- C47 for the returned references, the provable part: the reference returned for the instance `i`
of dof type `d` stays valid as long as only instances up to `i` of `d` are requested. -/
theorem C47_references_partial {V : Type} (extract : Nat → Nat → Res (Option V)) (c : CellData.Cache V)
    (d : Nat) (i : Int) (hi : 0 ≤ i) (qs : List (Nat × Int)) (hq : ∀ q ∈ qs, q.1 = d → q.2 ≤ i) :
    CellData.Stable extract d (CellData.getNodeValues extract c d i).1 qs := by
  have key : ∀ (qs : List (Nat × Int)) (c : CellData.Cache V), i.toNat < ((c.find? d).getD []).length →
      (∀ q ∈ qs, q.1 = d → q.2 ≤ i) → CellData.Stable extract d c qs := by
    intro qs
    induction qs with
    | nil => intros; trivial
    | cons q qs ih =>
      intro c hc hq
      refine ⟨?_, ih _ (hc.trans_le (CellData.length_mono extract c q.1 d q.2))
        fun q' h' => hq q' (List.mem_cons_of_mem _ h')⟩
      rintro ⟨h1, h2⟩
      have := hq q List.mem_cons_self h1
      omega
  exact key qs _ (CellData.length_after extract c d i hi) hq

/-- C47 for the returned references, counterexample: asking for the second instance enlarges the
vector that holds the values of the first one, so the reference to these is lost. -/
theorem C47_references_counterexample (extract : Nat → Nat → Res (Option Nat)) :
    ¬ CellData.Stable extract 0 (CellData.getNodeValues extract [] 0 0).1 [(0, 1)] := by
  rintro ⟨h, -⟩
  apply h
  refine ⟨rfl, ?_⟩
  have h1 : ((CellData.getNodeValues extract [] 0 0).1.find? 0).getD [] = [none] ∨
      ∃ v, ((CellData.getNodeValues extract [] 0 0).1.find? 0).getD [] = [v] := by
    unfold CellData.getNodeValues
    simp only [OMap.find?, Option.getD_none, List.length_nil, Nat.cast_zero, ge_iff_le, le_refl, if_true,
      lt_self_iff_false, if_false, OMap.set]
    rcases h0 : extract 0 (Int.toNat 0) with v | _ | _ <;> simp [OMap.find?]
  rcases h1 with h1 | ⟨v, h1⟩ <;> rw [h1] <;> simp

/-! ### Matrices of an integration point -/

namespace CellIpData

variable {M Op : Type}

theorem stepN (compute : Nat → Res (Option M)) (c : OMap Nat (Option M))
    (hc : ∀ d m, c.find? d = some (some m) → compute d = .ok (some m)) (d : Nat) :
    (∀ d' m, (getN compute c d).1.find? d' = some (some m) →
      c.find? d' = some (some m) ∨ d' = d ∧ compute d' = .ok (some m)) ∧
    (getN compute c d).2 = compute d := by
  unfold getN
  dsimp only
  have hc1 : ∀ d' m, (match c.find? d with | some _ => c | none => c.set d none).find? d' = some (some m) →
      c.find? d' = some (some m) := by
    intro d' m h
    split at h
    · exact h
    · rw [OMap.find?_set] at h
      split at h
      · simp at h
      · exact h
  set c1 := (match c.find? d with | some _ => c | none => c.set d none)
  cases hm : (c1.find? d).getD none with
  | some m =>
    refine ⟨fun d' m' h => Or.inl (hc1 d' m' h), ?_⟩
    cases hf : c1.find? d with
    | none => rw [hf] at hm; simp at hm
    | some o =>
      rw [hf] at hm
      simp only [Option.getD_some] at hm
      subst hm
      exact (hc d m (hc1 d m hf)).symm
  | none =>
    cases he : compute d with
    | ok m =>
      refine ⟨fun d' m' h => ?_, rfl⟩
      dsimp only at h
      rw [OMap.find?_set] at h
      split at h
      · next hd =>
        simp only [Option.some.injEq] at h
        subst h
        exact Or.inr ⟨hd, by rw [hd, he]⟩
      · exact Or.inl (hc1 d' m' h)
    | throw => exact ⟨fun d' m' h => Or.inl (hc1 d' m' h), rfl⟩
    | ub => exact ⟨fun d' m' h => Or.inl (hc1 d' m' h), rfl⟩

end CellIpData

/-- C47: `CellIpData::N` returns the matrix of shape functions of the dof type for every sequence of
calls. -/
theorem C47_N {M : Type} (compute : Nat → Res (Option M)) (qs : List Nat) :
    CellIpData.runN compute [] qs = qs.map compute := by
  have key : ∀ (qs : List Nat) (c : OMap Nat (Option M)),
      (∀ d m, c.find? d = some (some m) → compute d = .ok (some m)) →
      CellIpData.runN compute c qs = qs.map compute := by
    intro qs
    induction qs with
    | nil => intros; rfl
    | cons d qs ih =>
      intro c hc
      obtain ⟨h1, h2⟩ := CellIpData.stepN compute c hc d
      rw [CellIpData.runN, h2, List.map_cons, ih]
      intro d' m h
      rcases h1 d' m h with h | ⟨_, h⟩
      · exact hc d' m h
      · exact h
  exact key qs [] (by simp [OMap.find?])

/-- C47: `CellIpData::B`, the provable part: if every dof type is always used with the same
operator, every call returns the operator applied to the derivatives of the shape functions. -/
theorem C47_B_partial {M Op : Type} (compute : Nat → Op → Res (Option M)) (op : Nat → Op)
    (qs : List (Nat × Op)) (hq : ∀ q ∈ qs, q.2 = op q.1) :
    CellIpData.runB compute [] qs = qs.map fun q => compute q.1 q.2 := by
  have key : ∀ (qs : List (Nat × Op)) (c : OMap Nat (Option M)), (∀ q ∈ qs, q.2 = op q.1) →
      (∀ d m, c.find? d = some (some m) → compute d (op d) = .ok (some m)) →
      CellIpData.runB compute c qs = qs.map fun q => compute q.1 q.2 := by
    intro qs
    induction qs with
    | nil => intros; rfl
    | cons q qs ih =>
      intro c hq hc
      obtain ⟨d, b⟩ := q
      have hb : b = op d := hq (d, b) List.mem_cons_self
      have hstep : (CellIpData.getB compute c d b).2 = compute d b ∧
          ∀ d' m, (CellIpData.getB compute c d b).1.find? d' = some (some m) →
            compute d' (op d') = .ok (some m) := by
        have h := CellIpData.stepN (fun d' => compute d' (op d')) c hc d
        have heq : CellIpData.getB compute c d b = CellIpData.getN (fun d' => compute d' (op d')) c d := by
          subst hb; rfl
        rw [heq, hb]
        refine ⟨h.2, fun d' m h' => ?_⟩
        rcases h.1 d' m h' with h'' | ⟨_, h''⟩
        · exact hc d' m h''
        · exact h''
      rw [CellIpData.runB, hstep.1, List.map_cons, ih _ (fun q h => hq q (List.mem_cons_of_mem _ h)) hstep.2]
  exact key qs [] hq (by simp [OMap.find?])

/-- C47: `CellIpData::B`, counterexample: a second operator on the same dof type gets the matrix of
the first one.  Any two operators with different non-empty results for some dof type disagree. -/
theorem C47_B_counterexample {M Op : Type} (compute : Nat → Op → Res (Option M)) (d : Nat) (a b : Op)
    (ma mb : M) (ha : compute d a = .ok (some ma)) (hb : compute d b = .ok (some mb)) (hne : ma ≠ mb) :
    CellIpData.runB compute [] [(d, a), (d, b)] = [.ok (some ma), .ok (some ma)] ∧
    CellIpData.runB compute [] [(d, a), (d, b)] ≠ [compute d a, compute d b] := by
  have h : CellIpData.runB compute [] [(d, a), (d, b)] = [.ok (some ma), .ok (some ma)] := by
    simp [CellIpData.runB, CellIpData.getB, CellIpData.getN, OMap.find?, OMap.set, ha]
  refine ⟨h, ?_⟩
  rw [h, ha, hb]
  simp [hne]

/-- Gradient and strain of a displacement field in the plane are such operators. -/
example : ∃ (dNdX : DMat ℚ) (B : DMat ℚ), Nabla.strain dNdX = .ok B ∧ (Nabla.gradient dNdX).rows ≠ B.rows :=
  ⟨⟨3, 2, fun _ _ => 1⟩, _, rfl, by decide⟩

/-! ### Memoizer over natural coordinates -/

namespace Memoizer

variable {K : Type} [LinearOrder K] {R : Type}

/-- The sizes the comparison accepts. -/
def Dim (n : Nat) : Prop := n = 1 ∨ n = 2 ∨ n = 3

theorem less_spec {n : Nat} (hn : Dim n) (a b : List K) (ha : a.length = n) (hb : b.length = n) :
    ∃ r, less a b = .ok r ∧ (r = true ↔ a < b) := by
  rcases hn with rfl | rfl | rfl
  · match a, b, ha, hb with
    | [a0], [b0], _, _ =>
      refine ⟨_, rfl, ?_⟩
      simp [List.cons_lt_cons_iff]
  · match a, b, ha, hb with
    | [a0, a1], [b0, b1], _, _ =>
      refine ⟨_, rfl, ?_⟩
      simp only [decide_eq_true_eq, List.cons_lt_cons_iff]
      simp only [List.not_lt_nil, and_false, or_false]
      constructor
      · rintro (h | ⟨h1, h2⟩)
        · exact Or.inl h
        · rcases (not_lt.1 h1).lt_or_eq with h | h
          · exact Or.inl h
          · exact Or.inr ⟨h, h2⟩
      · rintro (h | ⟨h1, h2⟩)
        · exact Or.inl h
        · exact Or.inr ⟨not_lt.2 h1.le, h2⟩
  · match a, b, ha, hb with
    | [a0, a1, a2], [b0, b1, b2], _, _ =>
      refine ⟨_, rfl, ?_⟩
      simp only [decide_eq_true_eq, List.cons_lt_cons_iff]
      simp only [List.not_lt_nil, and_false, or_false]
      constructor
      · rintro (h | ⟨h1, h | ⟨h2, h3⟩⟩)
        · exact Or.inl h
        · rcases (not_lt.1 h1).lt_or_eq with h' | h'
          · exact Or.inl h'
          · exact Or.inr ⟨h', Or.inl h⟩
        · rcases (not_lt.1 h1).lt_or_eq with h' | h'
          · exact Or.inl h'
          · rcases (not_lt.1 h2).lt_or_eq with h'' | h''
            · exact Or.inr ⟨h', Or.inl h''⟩
            · exact Or.inr ⟨h', Or.inr ⟨h'', h3⟩⟩
      · rintro (h | ⟨h1, h | ⟨h2, h3⟩⟩)
        · exact Or.inl h
        · exact Or.inr ⟨not_lt.2 h1.le, Or.inl h⟩
        · exact Or.inr ⟨not_lt.2 h1.le, Or.inr ⟨not_lt.2 h2.le, h3⟩⟩

/-- The cache: keys of one size in increasing order, each with the value of the function. -/
structure Inv (n : Nat) (function : List K → Res R) (c : List (List K × R)) : Prop where
  size : ∀ e ∈ c, e.1.length = n
  sorted : c.Pairwise fun a b => a.1 < b.1
  value : ∀ e ∈ c, function e.1 = .ok e.2

theorem find_spec {n : Nat} (hn : Dim n) (v : List K) (hv : v.length = n) (c : List (List K × R))
    (hs : ∀ e ∈ c, e.1.length = n) (hp : c.Pairwise fun a b => a.1 < b.1) :
    (∃ r, (v, r) ∈ c ∧ find v c = .ok (some r)) ∨ ((∀ e ∈ c, e.1 ≠ v) ∧ find v c = .ok none) := by
  induction c with
  | nil => exact Or.inr ⟨by simp, rfl⟩
  | cons e t ih =>
    obtain ⟨k, r⟩ := e
    have hk : k.length = n := hs (k, r) List.mem_cons_self
    obtain ⟨a, ha1, ha2⟩ := less_spec hn k v hk hv
    obtain ⟨b, hb1, hb2⟩ := less_spec hn v k hv hk
    have hp' := List.pairwise_cons.1 hp
    rw [find, ha1, Res.bind_ok']
    by_cases hkv : k < v
    · rw [if_pos (ha2.2 hkv)]
      rcases ih (fun e he => hs e (List.mem_cons_of_mem _ he)) hp'.2 with ⟨r', h1, h2⟩ | ⟨h1, h2⟩
      · exact Or.inl ⟨r', List.mem_cons_of_mem _ h1, h2⟩
      · refine Or.inr ⟨?_, h2⟩
        intro e he
        rcases List.mem_cons.1 he with rfl | he
        · exact ne_of_lt hkv
        · exact h1 e he
    · rw [if_neg (fun h => hkv (ha2.1 h)), hb1, Res.bind_ok']
      by_cases hvk : v < k
      · rw [if_pos (hb2.2 hvk)]
        refine Or.inr ⟨?_, rfl⟩
        intro e he
        rcases List.mem_cons.1 he with rfl | he
        · exact ne_of_gt hvk
        · exact ne_of_gt (hvk.trans (hp'.1 e he))
      · rw [if_neg (fun h => hvk (hb2.1 h))]
        have hkeq : k = v := le_antisymm (not_lt.1 hvk) (not_lt.1 hkv)
        subst hkeq
        exact Or.inl ⟨r, List.mem_cons_self, rfl⟩

theorem insert_spec {n : Nat} (hn : Dim n) (v : List K) (hv : v.length = n) (r : R) (c : List (List K × R))
    (hs : ∀ e ∈ c, e.1.length = n) (hp : c.Pairwise fun a b => a.1 < b.1) (hnew : ∀ e ∈ c, e.1 ≠ v) :
    ∃ c', insert v r c = .ok c' ∧ (∀ e, e ∈ c' ↔ e = (v, r) ∨ e ∈ c) ∧ c'.Pairwise fun a b => a.1 < b.1 := by
  induction c with
  | nil => exact ⟨[(v, r)], rfl, by simp, by simp⟩
  | cons e t ih =>
    obtain ⟨k, r'⟩ := e
    have hk : k.length = n := hs (k, r') List.mem_cons_self
    obtain ⟨a, ha1, ha2⟩ := less_spec hn k v hk hv
    have hp' := List.pairwise_cons.1 hp
    rw [insert, ha1, Res.bind_ok']
    by_cases hkv : k < v
    · rw [if_pos (ha2.2 hkv)]
      obtain ⟨c', h1, h2, h3⟩ := ih (fun e he => hs e (List.mem_cons_of_mem _ he)) hp'.2
        (fun e he => hnew e (List.mem_cons_of_mem _ he))
      refine ⟨(k, r') :: c', by rw [h1]; rfl, ?_, ?_⟩
      · intro e
        rw [List.mem_cons, h2, List.mem_cons]
        tauto
      · refine List.pairwise_cons.2 ⟨?_, h3⟩
        intro e he
        rcases (h2 e).1 he with rfl | he
        · exact hkv
        · exact hp'.1 e he
    · rw [if_neg (fun h => hkv (ha2.1 h))]
      refine ⟨_, rfl, by intro e; rw [List.mem_cons], ?_⟩
      have hvk : v < k := lt_of_le_of_ne (not_lt.1 hkv) (Ne.symm (hnew (k, r') List.mem_cons_self))
      refine List.pairwise_cons.2 ⟨?_, hp⟩
      intro e he
      rcases List.mem_cons.1 he with rfl | he
      · exact hvk
      · exact hvk.trans (hp'.1 e he)

theorem get_spec {n : Nat} (hn : Dim n) (function : List K → Res R) (c : List (List K × R))
    (hc : Inv n function c) (v : List K) (hv : v.length = n) :
    match function v with
    | .ok r => ∃ c', get function c v = .ok (c', r) ∧ Inv n function c' ∧ (v, r) ∈ c' ∧ ∀ e ∈ c, e ∈ c'
    | .throw => get function c v = .throw
    | .ub => get function c v = .ub := by
  rcases find_spec hn v hv c hc.size hc.sorted with ⟨r, h1, h2⟩ | ⟨h1, h2⟩
  · have hf : function v = .ok r := hc.value _ h1
    rw [hf]
    exact ⟨c, by rw [get, h2]; rfl, hc, h1, fun e he => he⟩
  · cases hf : function v with
    | ok r =>
      obtain ⟨c', h3, h4, h5⟩ := insert_spec hn v hv r c hc.size hc.sorted h1
      refine ⟨c', by rw [get, h2, Res.bind_ok']; simp only [hf, Res.bind_ok', h3], ⟨?_, h5, ?_⟩, (h4 _).2 (Or.inl rfl),
        fun e he => (h4 e).2 (Or.inr he)⟩
      · intro e he
        rcases (h4 e).1 he with rfl | he
        · exact hv
        · exact hc.size e he
      · intro e he
        rcases (h4 e).1 he with rfl | he
        · exact hf
        · exact hc.value e he
    | throw => show get function c v = _; rw [get, h2, Res.bind_ok']; simp only [hf, Res.bind_throw']
    | ub => show get function c v = _; rw [get, h2, Res.bind_ok']; simp only [hf, Res.bind_ub']

/-- The arguments of the `get` calls of a sequence. -/
def arguments : List (Query K) → List (List K)
  | [] => []
  | .get v :: qs => v :: arguments qs
  | .clear :: qs => arguments qs

end Memoizer

open Memoizer in
/-- C47: a memoizer used with coordinates of one size (1, 2 or 3) returns the value of the function for
every sequence of calls, with and without clearing the cache. -/
theorem C47_memoizer {K R : Type} [LinearOrder K] (function : List K → Res R) (n : Nat) (hn : Dim n)
    (qs : List (Query K)) (hq : ∀ v ∈ arguments qs, v.length = n) :
    Memoizer.run function [] qs = (arguments qs).map function := by
  have key : ∀ (qs : List (Query K)) (c : List (List K × R)), Memoizer.Inv n function c →
      (∀ v ∈ arguments qs, v.length = n) → Memoizer.run function c qs = (arguments qs).map function := by
    intro qs
    induction qs with
    | nil => intros; rfl
    | cons q qs ih =>
      intro c hc hq
      cases q with
      | clear => exact ih [] ⟨by simp, by simp, by simp⟩ hq
      | get v =>
        have hv : v.length = n := hq v (by simp [arguments])
        have hq' : ∀ w ∈ arguments qs, w.length = n := fun w hw => hq w (by simp [arguments, hw])
        have hs := get_spec hn function c hc v hv
        rw [arguments, List.map_cons, Memoizer.run]
        cases hf : function v with
        | ok r =>
          rw [hf] at hs
          obtain ⟨c', h1, h2, _⟩ := hs
          rw [h1]
          exact congrArg _ (ih c' h2 hq')
        | throw =>
          rw [hf] at hs
          rw [hs]
          exact congrArg _ (ih c hc hq')
        | ub =>
          rw [hf] at hs
          rw [hs]
          exact congrArg _ (ih c hc hq')
  exact key qs [] ⟨by simp, by simp, by simp⟩ hq

open Memoizer in
/-- C47: the function is evaluated at most once per argument: after a successful call the value is
found in the cache, also after calls with other arguments. -/
theorem C47_computed_once {K R : Type} [LinearOrder K] (function : List K → Res R) (n : Nat) (hn : Dim n)
    (c c1 c2 : List (List K × R)) (hc : Memoizer.Inv n function c) (v w : List K) (hv : v.length = n)
    (hw : w.length = n) (r s : R) (h1 : Memoizer.get function c v = .ok (c1, r))
    (h2 : Memoizer.get function c1 w = .ok (c2, s)) :
    Memoizer.find v c2 = .ok (some r) ∧ Memoizer.Inv n function c2 := by
  have hs := get_spec hn function c hc v hv
  cases hf : function v with
  | ok r' =>
    rw [hf] at hs
    obtain ⟨c', h3, h4, h5, h6⟩ := hs
    rw [h1, Res.ok.injEq, Prod.mk.injEq] at h3
    obtain ⟨rfl, rfl⟩ := h3
    have hs' := get_spec hn function c1 h4 w hw
    cases hf' : function w with
    | ok s' =>
      rw [hf'] at hs'
      obtain ⟨c'', h7, h8, h9, h10⟩ := hs'
      rw [h2, Res.ok.injEq, Prod.mk.injEq] at h7
      obtain ⟨rfl, rfl⟩ := h7
      refine ⟨?_, h8⟩
      rcases find_spec hn v hv c2 h8.size h8.sorted with ⟨r', h11, h12⟩ | ⟨h11, _⟩
      · have := h8.value _ h11
        rw [hf, Res.ok.injEq] at this
        rw [h12, this]
      · exact absurd rfl (h11 _ (h10 _ h5))
    | throw => rw [hf'] at hs'; rw [hs'] at h2; cases h2
    | ub => rw [hf'] at hs'; rw [hs'] at h2; cases h2
  | throw => rw [hf] at hs; rw [hs] at h1; cases h1
  | ub => rw [hf] at hs; rw [hs] at h1; cases h1

/-- C47: coordinates with other sizes work once (no comparison in the empty map) and end the program
at the second call; coordinates of different sizes are undefined. -/
theorem C47_sizes_counterexample :
    Memoizer.run (fun v : List ℤ => Res.ok v) [] [.get [0, 0, 0, 0], .get [0, 0, 0, 0]] =
      [.ok [0, 0, 0, 0], .throw] ∧
    Memoizer.run (fun v : List ℤ => Res.ok v) [] [.get [0, 0], .get [0]] = [.ok [0, 0], .ub] := by
  decide

/-- A sequence of calls that meets the hypotheses of `C47_memoizer`. -/
example : ∀ v ∈ Memoizer.arguments [.get [0, 1], .get [1, 0], .clear, .get [(0 : ℤ), 1]], v.length = 2 := by
  decide

end NuTo
