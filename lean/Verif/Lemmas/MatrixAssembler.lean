import Verif.Lemmas.Assembler

/-! Effects of the calls of `MatrixAssembler` and `VectorAssembler`, whenever the call is defined. -/
set_option linter.unusedSectionVars false
namespace NuTo
variable {K : Type _} [Field K]
open Assembly

theorem Res.bind_eq_ok {α β : Type _} {r : Res α} {f : α → Res β} {b : β} (h : r.bind f = .ok b) :
    ∃ a, r = .ok a ∧ f a = .ok b := by
  cases r with
  | ok a => exact ⟨a, rfl, h⟩
  | throw => cases h
  | ub => cases h

theorem Res.require_eq_ok {β : Type _} {c : Prop} [Decidable c] {r : Res β} {b : β} (h : Res.require c r = .ok b) :
    c ∧ r = .ok b := by
  unfold Res.require at h
  split at h
  · exact ⟨by assumption, h⟩
  · cases h

theorem Res.foldlM_append {α β : Type _} (f : β → α → Res β) (xs ys : List α) (b : β) :
    Res.foldlM f b (xs ++ ys) = (Res.foldlM f b xs).bind fun b' => Res.foldlM f b' ys := by
  induction xs generalizing b with
  | nil => rfl
  | cons x xs ih =>
    simp only [List.cons_append, Res.foldlM_cons]
    cases f b x with
    | ok a => exact ih a
    | throw => rfl
    | ub => rfl

theorem OMap.at'_eq_ok {κ α : Type _} [LinearOrder κ] {m : OMap κ α} {k : κ} {a : α} (h : m.at' k = .ok a) :
    m.find? k = some a := by
  unfold OMap.at' at h
  split at h
  · rename_i b hb
    cases h
    exact hb
  · cases h

/-- `accumulate`, whenever it is defined -/
theorem accumulate_eq_ok {numbers : List Int} {vals t t' : List K} (h : accumulate numbers vals t = .ok t') :
    t'.length = t.length ∧ ∀ i, t'.getD i 0 = t.getD i 0 + scatter numbers vals i := by
  unfold accumulate at h
  unfold scatter
  generalize List.range numbers.length = ks at h ⊢
  induction ks generalizing t with
  | nil => simp only [Res.foldlM_nil, Res.ok.injEq] at h; subst h; simp
  | cons k ks ih =>
    rw [Res.foldlM_cons] at h
    obtain ⟨t1, h1, h2⟩ := Res.bind_eq_ok h
    obtain ⟨l1, e1⟩ := ih h2
    unfold accStep at h1
    split at h1
    · rename_i g y hg hy
      obtain ⟨hc, h1⟩ := Res.require_eq_ok h1
      simp only [Res.ok.injEq] at h1
      subst h1
      rw [List.length_set] at l1
      refine ⟨l1, ?_⟩
      intro i
      rw [e1 i, List.map_cons, List.sum_cons]
      have hgk : numbers.getD k 0 = g := by rw [List.getD_eq_getElem?_getD, hg]; rfl
      have hyk : vals.getD k 0 = y := by rw [List.getD_eq_getElem?_getD, hy]; rfl
      rw [hgk, hyk]
      by_cases hi : g = (i : Int)
      · subst hi
        simp only [Int.toNat_natCast] at hc ⊢
        simp only [List.getD_eq_getElem?_getD, List.getElem?_set, hc.2, Option.getD_some, if_pos]
        ring
      · have : g.toNat ≠ i := by omega
        simp only [List.getD_eq_getElem?_getD, List.getElem?_set, if_neg this, if_neg hi]
        ring
    · cases h1

namespace MatrixAssembler

/-- the block a user sees; an absent block is an empty one -/
def blk (h : DofSpMat K) (p : Nat × Nat) : SpMat K := (h.find? (toLex p)).getD ⟨0, 0, []⟩

/-- what one block of an `Add` contributes to entry `(r, c)` of block `p` -/
def pairAdds (m : DofDMat K) (n : OMap Nat (List Int)) (p : Nat × Nat) (r c : Nat) : K :=
  match m.find? (toLex p), n.find? p.1, n.find? p.2 with
  | some b, some rows, some cols => scatter2 rows cols b r c
  | _, _, _ => 0

theorem blk_set (h : DofSpMat K) (q p : Nat × Nat) (m : SpMat K) :
    blk (OMap.set h (toLex q) m) p = if p = q then m else blk h p := by
  unfold blk
  rw [OMap.find?_set]
  by_cases hp : p = q
  · subst hp; simp
  · have : toLex p ≠ toLex q := fun h' => hp (toLex.injective h')
    rw [if_neg this, if_neg hp]

theorem addPairTriplets_ok {m : DofDMat K} {n : OMap Nat (List Int)} {t t' : TripMap K} {p : Nat × Nat}
    (h : addPairTriplets m n t p = .ok t') (q : Nat × Nat) (r c : Nat) :
    tsum t' q r c = tsum t q r c + if q = p then pairAdds m n p r c else 0 := by
  unfold addPairTriplets at h
  obtain ⟨b, hb, h⟩ := Res.bind_eq_ok h
  obtain ⟨rows, hr, h⟩ := Res.bind_eq_ok h
  obtain ⟨cols, hc, h⟩ := Res.bind_eq_ok h
  obtain ⟨l, hl, h⟩ := Res.bind_eq_ok h
  simp only [Res.ok.injEq] at h
  subst h
  rw [tsum_append]
  unfold pairAdds
  have hb' : m.find? (toLex p) = some b := OMap.at'_eq_ok hb
  rw [hb', OMap.at'_eq_ok hr, OMap.at'_eq_ok hc]
  simp only
  rw [← blockTriplets_sum rows cols b l hl]

theorem addLoopTriplets {m : DofDMat K} {n : OMap Nat (List Int)} (P : List (Nat × Nat)) : ∀ {t t' : TripMap K},
    Res.foldlM (addPairTriplets m n) t P = .ok t' → ∀ q r c,
      tsum t' q r c = tsum t q r c + (P.count q : K) * pairAdds m n q r c := by
  induction P with
  | nil => intro t t' h q r c; simp only [Res.foldlM_nil, Res.ok.injEq] at h; subst h; simp
  | cons p P ih =>
    intro t t' h q r c
    rw [Res.foldlM_cons] at h
    obtain ⟨t1, h1, h2⟩ := Res.bind_eq_ok h
    rw [ih h2, addPairTriplets_ok h1, List.count_cons]
    by_cases hq : q = p
    · subst hq; simp; ring
    · have : ¬ p = q := fun e => hq e.symm
      simp [hq, this]

theorem addPairMatrix_ok {m : DofDMat K} {n : OMap Nat (List Int)} {t t' : DofSpMat K} {p : Nat × Nat}
    (h : addPairMatrix m n t p = .ok t') (q : Nat × Nat) :
    (blk t' q).rows = (blk t q).rows ∧ (blk t' q).cols = (blk t q).cols ∧ ((blk t q).WF → (blk t' q).WF) ∧
    (∀ d, d ∈ dofTypes2 t → d ∈ dofTypes2 t') ∧
    ∀ r c, (blk t' q).entry r c = (blk t q).entry r c + if q = p then pairAdds m n p r c else 0 := by
  unfold addPairMatrix at h
  obtain ⟨b, hb, h⟩ := Res.bind_eq_ok h
  obtain ⟨rows, hr, h⟩ := Res.bind_eq_ok h
  obtain ⟨cols, hc, h⟩ := Res.bind_eq_ok h
  obtain ⟨l, hl, h⟩ := Res.bind_eq_ok h
  simp only at h
  obtain ⟨hin, h⟩ := Res.require_eq_ok h
  simp only [Res.ok.injEq] at h
  subst h
  have hmono : ∀ (x : SpMat K) d, d ∈ dofTypes2 t → d ∈ dofTypes2 (OMap.set t (toLex p) x) := by
    intro x d hd
    rw [mem_dofTypes2] at hd ⊢
    obtain ⟨k, hk, hk'⟩ := hd
    refine ⟨k, ?_, hk'⟩
    rw [← OMap.find?_isSome_iff] at hk ⊢
    rw [OMap.find?_set]
    split
    · rfl
    · exact hk
  rw [blk_set]
  by_cases hq : q = p
  · subst hq
    rw [if_pos rfl]
    refine ⟨rfl, rfl, ?_, hmono _, ?_⟩
    · intro hw x hx
      rcases List.mem_append.mp hx with hx | hx
      · exact hw x hx
      · exact hin x hx
    · intro r c
      unfold pairAdds
      have hb' : m.find? (toLex q) = some b := OMap.at'_eq_ok hb
      rw [hb', OMap.at'_eq_ok hr, OMap.at'_eq_ok hc]
      simp only
      rw [← blockTriplets_sum rows cols b l hl]
      simp only [SpMat.entry, List.map_append, List.sum_append, blk, if_true]
  · rw [if_neg hq]
    exact ⟨rfl, rfl, id, hmono _, by simp [hq]⟩

theorem addLoopMatrix {m : DofDMat K} {n : OMap Nat (List Int)} (P : List (Nat × Nat)) : ∀ {t t' : DofSpMat K},
    Res.foldlM (addPairMatrix m n) t P = .ok t' → ∀ q,
    (blk t' q).rows = (blk t q).rows ∧ (blk t' q).cols = (blk t q).cols ∧ ((blk t q).WF → (blk t' q).WF) ∧
    (∀ d, d ∈ dofTypes2 t → d ∈ dofTypes2 t') ∧
      ∀ r c, (blk t' q).entry r c = (blk t q).entry r c + (P.count q : K) * pairAdds m n q r c := by
  induction P with
  | nil => intro t t' h q; simp only [Res.foldlM_nil, Res.ok.injEq] at h; subst h; simp
  | cons p P ih =>
    intro t t' h q
    rw [Res.foldlM_cons] at h
    obtain ⟨t1, h1, h2⟩ := Res.bind_eq_ok h
    obtain ⟨a1, a2, a3, a4, a5⟩ := ih h2 q
    obtain ⟨b1, b2, b3, b4, b5⟩ := addPairMatrix_ok h1 q
    refine ⟨a1.trans b1, a2.trans b2, fun hw => a3 (b3 hw), fun d hd => a4 d (b4 d hd), ?_⟩
    intro r c
    rw [a5, b5, List.count_cons]
    by_cases hq : q = p
    · subst hq; simp; ring
    · have : ¬ p = q := fun e => hq e.symm
      simp [hq, this]

theorem setZeroLoop (P : List (Nat × Nat)) : ∀ (t : DofSpMat K) (q : Nat × Nat),
    (blk (P.foldl setZeroStep t) q).rows = (blk t q).rows ∧ (blk (P.foldl setZeroStep t) q).cols = (blk t q).cols ∧
    (blk (P.foldl setZeroStep t) q).entries = if q ∈ P then [] else (blk t q).entries := by
  induction P with
  | nil => intro t q; simp
  | cons p P ih =>
    intro t q
    obtain ⟨a1, a2, a3⟩ := ih (setZeroStep t p) q
    have hb : blk (setZeroStep t p) q = if q = p then ⟨(blk t p).rows, (blk t p).cols, []⟩ else blk t q := by
      unfold setZeroStep
      exact blk_set _ _ _ _
    rw [List.foldl_cons, a1, a2, a3, hb]
    by_cases hq : q = p
    · subst hq; simp
    · simp [hq]

theorem mem_dofTypes2_set (t : DofSpMat K) (p : Nat × Nat) (x : SpMat K) (d : Nat) :
    d ∈ dofTypes2 (OMap.set t (toLex p) x) ↔ d ∈ dofTypes2 t ∨ d = p.1 ∨ d = p.2 := by
  rw [mem_dofTypes2, mem_dofTypes2]
  have key : ∀ k, k ∈ OMap.keys (OMap.set t (toLex p) x) ↔ k = toLex p ∨ k ∈ OMap.keys t := by
    intro k
    rw [← OMap.find?_isSome_iff, ← OMap.find?_isSome_iff, OMap.find?_set]
    by_cases hk : k = toLex p
    · simp [hk]
    · simp [hk]
  constructor
  · rintro ⟨k, hk, h⟩
    rcases (key k).mp hk with rfl | hk
    · rcases h with h | h
      · exact Or.inr (Or.inl h.symm)
      · exact Or.inr (Or.inr h.symm)
    · exact Or.inl ⟨k, hk, h⟩
  · rintro (⟨k, hk, h⟩ | h | h)
    · exact ⟨k, (key k).mpr (Or.inr hk), h⟩
    · exact ⟨toLex p, (key _).mpr (Or.inl rfl), Or.inl h.symm⟩
    · exact ⟨toLex p, (key _).mpr (Or.inl rfl), Or.inr h.symm⟩

theorem setZeroLoop_types (P : List (Nat × Nat)) : ∀ (t : DofSpMat K) d, d ∈ dofTypes2 t →
    d ∈ dofTypes2 (P.foldl setZeroStep t) := by
  induction P with
  | nil => intro t d h; exact h
  | cons p P ih =>
    intro t d h
    rw [List.foldl_cons]
    apply ih
    unfold setZeroStep
    exact (mem_dofTypes2_set _ _ _ _).mpr (Or.inl h)

theorem finishLoop (P : List (Nat × Nat)) : P.Nodup → ∀ {s s' : TripMap K × DofSpMat K},
    Res.foldlM finishStep s P = .ok s' →
    (∀ d, d ∈ dofTypes2 s.2 → d ∈ dofTypes2 s'.2) ∧
    ∀ q, (blk s'.2 q).rows = (blk s.2 q).rows ∧ (blk s'.2 q).cols = (blk s.2 q).cols ∧
      ((blk s.2 q).WF → (blk s'.2 q).WF) ∧
      ∀ r c, (blk s'.2 q).entry r c = if q ∈ P then tsum s.1 q r c else (blk s.2 q).entry r c := by
  induction P with
  | nil => intro _ s s' h; simp only [Res.foldlM_nil, Res.ok.injEq] at h; subst h; simp
  | cons p P ih =>
    intro hnd s s' h
    rw [Res.foldlM_cons] at h
    obtain ⟨s1, h1, h2⟩ := Res.bind_eq_ok h
    obtain ⟨a0, a⟩ := ih (List.nodup_cons.mp hnd).2 h2
    have hp : p ∉ P := (List.nodup_cons.mp hnd).1
    unfold finishStep at h1
    simp only at h1
    obtain ⟨m, hm, h1⟩ := Res.bind_eq_ok h1
    simp only [Res.ok.injEq] at h1
    subst h1
    unfold SpMat.setFromTriplets at hm
    obtain ⟨hin, hm⟩ := Res.require_eq_ok hm
    simp only [Res.ok.injEq] at hm
    subst hm
    refine ⟨fun d hd => a0 d ((mem_dofTypes2_set _ _ _ _).mpr (Or.inl hd)), ?_⟩
    intro q
    obtain ⟨a1, a2, a3, a4⟩ := a q
    simp only [blk_set] at a1 a2 a3 a4
    rw [a1, a2]
    by_cases hq : q = p
    · subst hq
      simp only [if_true] at a3 ⊢
      refine ⟨rfl, rfl, fun _ => a3 hin, ?_⟩
      intro r c
      rw [a4, if_neg hp, if_pos rfl, if_pos List.mem_cons_self]
      rfl
    · simp only [if_neg hq] at a3 a4 ⊢
      refine ⟨trivial, trivial, a3, ?_⟩
      intro r c
      rw [a4]
      simp only [List.mem_cons, hq, false_or]
      have : tsum (OMap.set s.1 (toLex p) []) q r c = tsum s.1 q r c := by
        unfold tsum
        have hne : toLex q ≠ toLex p := fun h' => hq (toLex.injective h')
        rw [OMap.find?_set, if_neg hne]
      rw [this]

theorem resizeLoop {sizes : OMap Nat Nat} (P : List (Nat × Nat)) : ∀ {h h' : DofSpMat K},
    Res.foldlM (resizeStep sizes) h P = .ok h' →
    (∀ d, d ∈ dofTypes2 h → d ∈ dofTypes2 h') ∧ (∀ p ∈ P, p.1 ∈ dofTypes2 h' ∧ p.2 ∈ dofTypes2 h') ∧
    ∀ q, (q ∉ P → blk h' q = blk h q) ∧ (q ∈ P → ∃ a b, sizes.find? q.1 = some a ∧ sizes.find? q.2 = some b ∧
      blk h' q = ⟨a, b, []⟩) := by
  induction P with
  | nil => intro h h' e; simp only [Res.foldlM_nil, Res.ok.injEq] at e; subst e; simp
  | cons p P ih =>
    intro h h' e
    rw [Res.foldlM_cons] at e
    obtain ⟨h1, e1, e2⟩ := Res.bind_eq_ok e
    obtain ⟨i1, i2, i3⟩ := ih e2
    unfold resizeStep at e1
    obtain ⟨a, ha, e1⟩ := Res.bind_eq_ok e1
    obtain ⟨b, hb, e1⟩ := Res.bind_eq_ok e1
    simp only [Res.ok.injEq] at e1
    subst e1
    refine ⟨fun d hd => i1 d ((mem_dofTypes2_set _ _ _ _).mpr (Or.inl hd)), ?_, ?_⟩
    · intro q hq
      rcases List.mem_cons.mp hq with rfl | hq
      · exact ⟨i1 _ ((mem_dofTypes2_set _ _ _ _).mpr (Or.inr (Or.inl rfl))),
          i1 _ ((mem_dofTypes2_set _ _ _ _).mpr (Or.inr (Or.inr rfl)))⟩
      · exact i2 q hq
    · intro q
      constructor
      · intro hq
        simp only [List.mem_cons, not_or] at hq
        rw [(i3 q).1 hq.2, blk_set, if_neg hq.1]
      · intro hq
        by_cases hqP : q ∈ P
        · exact (i3 q).2 hqP
        · rcases List.mem_cons.mp hq with rfl | hq
          · exact ⟨a, b, OMap.at'_eq_ok ha, OMap.at'_eq_ok hb, by rw [(i3 q).1 hqP, blk_set, if_pos rfl]⟩
          · exact absurd hq hqP

end MatrixAssembler
end NuTo
