import Verif.Model.DofVector
import Verif.Lemmas.OMap
import Mathlib.Tactic.Ring

set_option linter.unusedSectionVars false
namespace NuTo

section merge
variable {κ α : Type _} [LinearOrder κ] {P : α → α → Prop} [∀ x y, Decidable (P x y)]
  {F : α → α → α} {g : α → α}

/-- pointwise description of `mergeWith` -/
def mergeEntry (F : α → α → α) (g : α → α) : Option α → Option α → Option α
  | some x, some y => some (F x y)
  | some x, none => some x
  | none, some y => some (g y)
  | none, none => none

theorem OMap.mergeWith_ok (m rhs : OMap κ α) (hm : m.Sorted) (hr : rhs.Sorted)
    (hc : ∀ k x y, m.find? k = some x → rhs.find? k = some y → P x y) :
    ∃ c, OMap.mergeWith P F g m rhs = .ok c ∧ c.Sorted ∧
      ∀ k, c.find? k = mergeEntry F g (m.find? k) (rhs.find? k) := by
  unfold OMap.mergeWith
  induction rhs generalizing m with
  | nil =>
    refine ⟨m, rfl, hm, ?_⟩
    intro k
    simp only [OMap.find?]
    cases m.find? k <;> rfl
  | cons e t ih =>
    obtain ⟨k0, v0⟩ := e
    have hr' := List.pairwise_cons.mp hr
    have hnone : OMap.find? t k0 = none := OMap.find?_eq_none_of_lt fun e he => hr'.1 e he
    rw [Res.foldlM_cons]
    have key : ∃ w, OMap.mergeStep P F g m (k0, v0) = Res.ok (m.set k0 w) ∧
        mergeEntry F g (m.find? k0) (some v0) = some w := by
      cases hf : m.find? k0 with
      | none => exact ⟨g v0, by simp [OMap.mergeStep, hf], rfl⟩
      | some x =>
        refine ⟨F x v0, ?_, rfl⟩
        have : P x v0 := hc k0 x v0 hf (by simp [OMap.find?])
        simp [OMap.mergeStep, hf, Res.require, this]
    obtain ⟨w, hw, hw2⟩ := key
    simp only [hw, Res.bind_ok']
    obtain ⟨c, h1, h2, h3⟩ := ih (m.set k0 w) (OMap.sorted_set hm k0 w) hr'.2 (by
      intro k x y hx hy
      rw [OMap.find?_set] at hx
      by_cases hk : k = k0
      · subst hk; rw [hnone] at hy; simp at hy
      · rw [if_neg hk] at hx
        exact hc k x y hx (by simp [OMap.find?, hk, hy]))
    refine ⟨c, h1, h2, ?_⟩
    intro k
    rw [h3 k, OMap.find?_set]
    by_cases hk : k = k0
    · subst hk
      simp only [if_true, hnone, OMap.find?]
      rw [hw2]; rfl
    · simp [OMap.find?, hk]

theorem OMap.mergeWith_ub (m rhs : OMap κ α) (hm : m.Sorted) (hr : rhs.Sorted)
    (hc : ∃ k x y, m.find? k = some x ∧ rhs.find? k = some y ∧ ¬ P x y) :
    OMap.mergeWith P F g m rhs = .ub := by
  unfold OMap.mergeWith
  induction rhs generalizing m with
  | nil => obtain ⟨k, x, y, _, h, _⟩ := hc; simp [OMap.find?] at h
  | cons e t ih =>
    obtain ⟨k0, v0⟩ := e
    have hr' := List.pairwise_cons.mp hr
    obtain ⟨k, x, y, hx, hy, hp⟩ := hc
    rw [Res.foldlM_cons]
    by_cases hk : k = k0
    · subst hk
      have : v0 = y := by simpa [OMap.find?] using hy
      subst this
      simp [OMap.mergeStep, hx, Res.require, hp]
    · have hy' : OMap.find? t k = some y := by simpa [OMap.find?, hk] using hy
      have step : ∀ w, (Res.foldlM (OMap.mergeStep P F g) (m.set k0 w) t) = .ub := by
        intro w
        apply ih _ (OMap.sorted_set hm k0 w) hr'.2
        exact ⟨k, x, y, by rw [OMap.find?_set, if_neg hk]; exact hx, hy', hp⟩
      cases hf : m.find? k0 with
      | none => simpa [OMap.mergeStep, hf] using step _
      | some z =>
        by_cases hpz : P z v0
        · simpa [OMap.mergeStep, hf, Res.require, hpz] using step _
        · simp [OMap.mergeStep, hf, Res.require, hpz]

end merge

theorem OMap.find?_map {κ α β : Type _} [LinearOrder κ] (m : OMap κ α) (f : α → β) (k : κ) :
    OMap.find? (m.map fun e => (e.1, f e.2)) k = (m.find? k).map f := by
  induction m with
  | nil => rfl
  | cons e t ih =>
    simp only [List.map_cons, OMap.find?]
    by_cases h : k = e.1 <;> simp [h, ih]

theorem OMap.sorted_map {κ α β : Type _} [LinearOrder κ] {m : OMap κ α} (hm : m.Sorted) (f : α → β) :
    OMap.Sorted (m.map fun e => (e.1, f e.2)) := by
  unfold OMap.Sorted at *
  rw [List.pairwise_map]; exact hm

namespace DofVec
variable {K : Type _} [Field K]

theorem totalRows_aux (v : DofVec K) (blocks : Nat → List K) (dofs : List Nat)
    (h : ∀ d ∈ dofs, v.find? d = some (blocks d)) (n : Nat) :
    Res.foldlM (fun n d => (v.at' d).bind fun x => .ok (n + x.length)) n dofs
      = .ok (n + (dofs.flatMap blocks).length) := by
  induction dofs generalizing n with
  | nil => simp
  | cons d ds ih =>
    have hd := h d List.mem_cons_self
    simp only [Res.foldlM_cons, OMap.at', hd, Res.bind_ok', List.flatMap_cons, List.length_append]
    have := ih (fun d hd => h d (List.mem_cons_of_mem _ hd)) (n + (blocks d).length)
    simp only [OMap.at'] at this
    rw [this, Nat.add_assoc]

theorem totalRows_eq (v : DofVec K) (blocks : Nat → List K) (dofs : List Nat)
    (h : ∀ d ∈ dofs, v.find? d = some (blocks d)) :
    v.totalRows dofs = .ok (dofs.flatMap blocks).length := by
  unfold totalRows
  rw [totalRows_aux v blocks dofs h 0, Nat.zero_add]

theorem toEigen_aux (v : DofVec K) (blocks : Nat → List K) (dofs : List Nat)
    (h : ∀ d ∈ dofs, v.find? d = some (blocks d)) (pre rest : List K)
    (hlen : rest.length = (dofs.flatMap blocks).length) :
    (Res.foldlM (fun (s : List K × Nat) d => (v.at' d).bind fun x =>
      (writeSegment s.1 s.2 x).bind fun c => .ok (c, s.2 + x.length)) (pre ++ rest, pre.length) dofs)
      = .ok (pre ++ dofs.flatMap blocks, pre.length + (dofs.flatMap blocks).length) := by
  induction dofs generalizing pre rest with
  | nil =>
    simp at hlen
    simp [hlen]
  | cons d ds ih =>
    have hd := h d List.mem_cons_self
    simp only [List.flatMap_cons, List.length_append] at hlen
    rw [Res.foldlM_cons]
    have hat : v.at' d = .ok (blocks d) := by simp [OMap.at', hd]
    have hw : writeSegment (pre ++ rest) pre.length (blocks d)
        = .ok ((pre ++ blocks d) ++ rest.drop (blocks d).length) := by
      unfold writeSegment Res.require
      rw [if_pos (by simp; omega)]
      simp [List.drop_append]
    simp only [hat, Res.bind_ok', hw]
    have := ih (fun d hd => h d (List.mem_cons_of_mem _ hd)) (pre ++ blocks d)
      (rest.drop (blocks d).length) (by rw [List.length_drop]; omega)
    rw [List.length_append] at this
    rw [this]
    simp [List.flatMap_cons, Nat.add_assoc]

theorem toEigen_eq (v : DofVec K) (blocks : Nat → List K) (dofs : List Nat)
    (h : ∀ d ∈ dofs, v.find? d = some (blocks d)) :
    v.toEigen dofs = .ok (dofs.flatMap blocks) := by
  unfold toEigen
  rw [totalRows_eq v blocks dofs h]
  have := toEigen_aux v blocks dofs h [] (List.replicate (dofs.flatMap blocks).length 0) (by simp)
  simp only [List.nil_append, List.length_nil] at this
  simp only [Res.bind_ok', this]

theorem totalRows_throw (v : DofVec K) (dofs : List Nat) (h : ∃ d ∈ dofs, v.find? d = none) :
    v.totalRows dofs = .throw := by
  unfold totalRows
  suffices hs : ∀ n, Res.foldlM (fun n d => (v.at' d).bind fun x => .ok (n + x.length)) n dofs = .throw from hs 0
  induction dofs with
  | nil => obtain ⟨d, hd, _⟩ := h; simp at hd
  | cons e ds ih =>
    intro n
    rw [Res.foldlM_cons]
    cases hf : v.find? e with
    | none => simp [OMap.at', hf]
    | some x =>
      simp only [OMap.at', hf, Res.bind_ok']
      have : ∃ d ∈ ds, v.find? d = none := by
        obtain ⟨d, hd, hn⟩ := h
        rcases List.mem_cons.mp hd with rfl | hd
        · rw [hf] at hn; simp at hn
        · exact ⟨d, hd, hn⟩
      have := ih this (n + x.length)
      simpa only [OMap.at'] using this

/-- the reading loop of `fromEigen` -/
theorem fromEigen_aux (source : List K) (size : Nat → Nat) (dofs : List Nat) (dest : DofVec K) (start : Nat)
    (hd : ∀ d ∈ dofs, ((dest.find? d).getD []).length = size d)
    (hlen : start + (dofs.map size).sum ≤ source.length) :
    ∃ r, Res.foldlM (fun (s : DofVec K × Nat) d =>
      Res.require (s.2 + ((s.1.find? d).getD []).length ≤ source.length)
        (.ok (s.1.set d ((source.drop s.2).take ((s.1.find? d).getD []).length), s.2 + ((s.1.find? d).getD []).length)))
        (dest, start) dofs = .ok (r, start + (dofs.map size).sum) ∧
      (dest.Sorted → r.Sorted) ∧
      (∀ d, d ∉ dofs → r.find? d = dest.find? d) ∧
      (∀ d ∈ dofs, ∃ pre post, dofs = pre ++ d :: post ∧ d ∉ post ∧
        r.find? d = some ((source.drop (start + (pre.map size).sum)).take (size d))) := by
  induction dofs generalizing dest start with
  | nil => exact ⟨dest, by simp, id, by simp, by simp⟩
  | cons e ds ih =>
    have he := hd e List.mem_cons_self
    simp only [List.map_cons, List.sum_cons] at hlen
    have hl : ((source.drop start).take (size e)).length = size e := by simp; omega
    obtain ⟨r, h1, h0, h2, h3⟩ := ih (dest.set e ((source.drop start).take (size e))) (start + size e) (by
      intro d hds
      rw [OMap.find?_set]
      by_cases hde : d = e
      · rw [if_pos hde, hde]; simpa using hl
      · rw [if_neg hde]; exact hd d (List.mem_cons_of_mem _ hds)) (by omega)
    refine ⟨r, ?_, ?_, ?_, ?_⟩
    · rw [Res.foldlM_cons]
      simp only [Res.require]
      rw [he, if_pos (by omega)]
      simp only [Res.bind_ok', List.map_cons, List.sum_cons]
      rw [← Nat.add_assoc]
      exact h1
    · intro hs; exact h0 (OMap.sorted_set hs _ _)
    · intro d hdn
      rw [h2 d (fun hc => hdn (List.mem_cons_of_mem _ hc)), OMap.find?_set,
        if_neg (fun hc : d = e => hdn (hc ▸ List.mem_cons_self))]
    · intro d hdm
      by_cases hds : d ∈ ds
      · obtain ⟨pre, post, hp, hn, hf⟩ := h3 d hds
        refine ⟨e :: pre, post, by simp [hp], hn, ?_⟩
        rw [hf]; simp [Nat.add_assoc]
      · rcases List.mem_cons.mp hdm with rfl | hc
        · refine ⟨[], ds, rfl, hds, ?_⟩
          rw [h2 d hds, OMap.find?_set, if_pos rfl]; simp
        · exact absurd hc hds

theorem fromEigen_ok (source : List K) (size : Nat → Nat) (dofs : List Nat) (dest : DofVec K)
    (hd : ∀ d ∈ dofs, ∃ x, dest.find? d = some x ∧ x.length = size d)
    (hlen : (dofs.map size).sum = source.length) :
    ∃ r, fromEigen source dofs dest = .ok r ∧
      (dest.Sorted → r.Sorted) ∧
      (∀ d, d ∉ dofs → r.find? d = dest.find? d) ∧
      (∀ d ∈ dofs, ∃ pre post, dofs = pre ++ d :: post ∧ d ∉ post ∧
        r.find? d = some ((source.drop ((pre.map size).sum)).take (size d))) := by
  obtain ⟨r, h1, h0, h2, h3⟩ := fromEigen_aux source size dofs dest 0 (by
    intro d hm; obtain ⟨x, hx, hl⟩ := hd d hm; simp [hx, hl]) (by omega)
  refine ⟨r, ?_, h0, h2, by simpa using h3⟩
  unfold fromEigen
  have hb : ∀ d ∈ dofs, dest.find? d = some ((dest.find? d).getD []) := by
    intro d hm; obtain ⟨x, hx, _⟩ := hd d hm; simp [hx]
  rw [totalRows_eq dest (fun d => (dest.find? d).getD []) dofs hb]
  have hsum : (dofs.flatMap fun d => (dest.find? d).getD []).length = source.length := by
    rw [← hlen, List.length_flatMap]
    congr 1
    apply List.map_congr_left
    intro d hm; obtain ⟨x, hx, hl⟩ := hd d hm; simp [hx, hl]
  simp only [hsum, Res.require, if_true]
  simp only [Res.require] at h1
  rw [h1]; rfl

end DofVec
end NuTo
