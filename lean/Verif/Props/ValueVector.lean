/-
C99: references to the values of a `ValueVector` stay valid.
-/
import Verif.Model.ValueVector
import Verif.Lemmas.MatrixAssembler
import Mathlib.Data.List.Nodup
import Mathlib.Tactic.Linarith

namespace NuTo
namespace ValueVector

variable {T : Type}

/-- The invariant: no value belongs to two pointers, the values on the heap are the ones that some container owns, new addresses are unused. -/
structure Inv (s : State T) : Prop where
  nodup : ∀ v d, s.vec v = some d → d.data.Nodup
  disjoint : ∀ v w d e, v ≠ w → s.vec v = some d → s.vec w = some e → ∀ a ∈ d.data, a ∉ e.data
  owned : ∀ a, (∃ t, s.value a = some t) ↔ ∃ v d, s.vec v = some d ∧ a ∈ d.data
  fresh : ∀ a t, s.value a = some t → a < s.nextAddress

/-- What the documentation asks of the caller: containers exist, references are valid, iterators are in the range they have to be in. -/
def Pre (s : State T) : Op T → Prop
  | .construct v => s.vec v = none
  | .add v _ => ∃ d, s.vec v = some d
  | .write a _ => ∃ t, s.value a = some t
  | .erase v it => ∃ d, s.vec v = some d ∧ it.buffer = d.buffer ∧ it.pos < d.data.length
  | .eraseRange v first last =>
    ∃ d, s.vec v = some d ∧ first.buffer = d.buffer ∧ last.buffer = d.buffer ∧ first.pos ≤ last.pos ∧ last.pos ≤ d.data.length
  | .destroy v => ∃ d, s.vec v = some d
  | .moveConstruct t u => (∃ d, s.vec u = some d) ∧ s.vec t = none
  | .moveAssign t u => (∃ d, s.vec u = some d) ∧ ∃ d, s.vec t = some d

/-- Operation `op` ends the life of the value `a`: it is at the erased place, or the container dies or gets other values. -/
def Kills (s : State T) (a : Nat) : Op T → Prop
  | .erase v it => ∃ d, s.vec v = some d ∧ d.data[it.pos]? = some a
  | .eraseRange v first last => ∃ d, s.vec v = some d ∧ ∃ i, first.pos ≤ i ∧ i < last.pos ∧ d.data[i]? = some a
  | .destroy v | .moveAssign v _ => ∃ d, s.vec v = some d ∧ a ∈ d.data
  | _ => False

/-- Operation `op` writes through reference `a`. -/
def Writes (a : Nat) : Op T → Prop
  | .write b _ => b = a
  | _ => False

/-- The pointers of container `v` after the operation. -/
def Contents (s : State T) (v : Nat) : Op T → Option (List Nat)
  | .construct w => if v = w then some [] else (s.vec v).map (·.data)
  | .add w _ => if v = w then (s.vec v).map (·.data ++ [s.nextAddress]) else (s.vec v).map (·.data)
  | .write _ _ => (s.vec v).map (·.data)
  | .erase w it => if v = w then (s.vec v).map (·.data.eraseIdx it.pos) else (s.vec v).map (·.data)
  | .eraseRange w first last =>
    if v = w then (s.vec v).map (fun d => d.data.take first.pos ++ d.data.drop last.pos) else (s.vec v).map (·.data)
  | .destroy w => if v = w then none else (s.vec v).map (·.data)
  | .moveConstruct t u => if v = t then (s.vec u).map (·.data) else if v = u then some [] else (s.vec v).map (·.data)
  | .moveAssign t u => if v = u then some [] else if v = t then (s.vec u).map (·.data) else (s.vec v).map (·.data)

theorem deleteAll_spec (as : List Nat) : ∀ value : Nat → Option T, as.Nodup → (∀ a ∈ as, ∃ t, value a = some t) →
    ∃ h, deleteAll value as = .ok h ∧ (∀ a ∈ as, h a = none) ∧ ∀ a, a ∉ as → h a = value a := by
  induction as with
  | nil => intro value _ _; exact ⟨value, rfl, by simp, fun _ _ => rfl⟩
  | cons b as ih =>
    intro value hn hl
    obtain ⟨t, ht⟩ := hl b List.mem_cons_self
    obtain ⟨hb, hn⟩ := List.nodup_cons.mp hn
    obtain ⟨h, e, h1, h2⟩ := ih (Function.update value b none) hn (by
      intro a ha
      have : a ≠ b := fun e => hb (e ▸ ha)
      rw [Function.update_of_ne this]
      exact hl a (List.mem_cons_of_mem _ ha))
    refine ⟨h, ?_, ?_, ?_⟩
    · have : delete value b = .ok (Function.update value b none) := by rw [delete, ht]
      rw [deleteAll, Res.foldlM_cons, this, Res.bind_ok']
      exact e
    · intro a ha
      rcases List.mem_cons.mp ha with rfl | ha
      · rw [h2 a hb, Function.update_self]
      · exact h1 a ha
    · intro a ha
      rw [List.mem_cons, not_or] at ha
      rw [h2 a ha.2, Function.update_of_ne ha.1]

theorem moveDown_spec (gap tail : List Nat) : ∀ value : Nat → Option T, gap.Nodup → (∀ a ∈ gap, ∃ t, value a = some t) →
    ∃ h, moveDown value gap tail = .ok (h, tail) ∧ (∀ a ∈ gap, h a = none) ∧ ∀ a, a ∉ gap → h a = value a := by
  induction tail generalizing gap with
  | nil =>
    intro value hn hl
    obtain ⟨h, e, h1, h2⟩ := deleteAll_spec gap value hn hl
    refine ⟨h, ?_, h1, h2⟩
    cases gap <;> rw [moveDown, e] <;> rfl
  | cons y tail ih =>
    intro value hn hl
    cases gap with
    | nil =>
      obtain ⟨h, e, h1, h2⟩ := ih [] value hn hl
      exact ⟨h, by rw [moveDown, e]; rfl, h1, h2⟩
    | cons g gap =>
      obtain ⟨t, ht⟩ := hl g List.mem_cons_self
      obtain ⟨hb, hn⟩ := List.nodup_cons.mp hn
      obtain ⟨h, e, h1, h2⟩ := ih gap (Function.update value g none) hn (by
        intro a ha
        have : a ≠ g := fun e => hb (e ▸ ha)
        rw [Function.update_of_ne this]
        exact hl a (List.mem_cons_of_mem _ ha))
      refine ⟨h, ?_, ?_, ?_⟩
      · have : delete value g = .ok (Function.update value g none) := by rw [delete, ht]
        rw [moveDown, this, Res.bind_ok', e]
        rfl
      · intro a ha
        rcases List.mem_cons.mp ha with rfl | ha
        · rw [h2 a hb, Function.update_self]
        · exact h1 a ha
      · intro a ha
        rw [List.mem_cons, not_or] at ha
        rw [h2 a ha.2, Function.update_of_ne ha.1]

/-- Everything about one operation. -/
theorem step_spec (growth : Nat → Nat) (s : State T) (op : Op T) (h : Inv s) (hp : Pre s op) :
    ∃ s', step growth s op = .ok s' ∧
      (∀ v, (s'.vec v).map (·.data) = Contents s v op) ∧
      (∀ a, Kills s a op → s'.value a = none) ∧
      (∀ a t, s.value a = some t → ¬ Kills s a op → ¬ Writes a op → s'.value a = some t) ∧
      (∀ a t, op = .write a t → s'.value a = some t) ∧
      (∀ a t', s'.value a = some t' → (∃ t, s.value a = some t) ∨ ∃ v, op = .add v t' ∧ a = s.nextAddress) ∧
      (∀ v t, op = .add v t → s'.value s.nextAddress = some t) ∧
      s.nextAddress ≤ s'.nextAddress ∧ (∀ v t, op = .add v t → s.nextAddress < s'.nextAddress) := by
  have hget : ∀ v d, s.vec v = some d → get s v = .ok d := by intro v d e; rw [get, e]
  have hlive : ∀ v d, s.vec v = some d → ∀ a ∈ d.data, ∃ t, s.value a = some t := fun v d e a ha => (h.owned a).mpr ⟨v, d, e, ha⟩
  cases op with
  | construct v =>
    refine ⟨{ s with vec := Function.update s.vec v (some ⟨[], s.nextBuffer, 0⟩), nextBuffer := s.nextBuffer + 1 },
      by rw [step, construct, show s.vec v = none from hp], ?_, by simp [Kills], by simp_all, by simp, ?_, by simp, le_refl _, by simp⟩
    · intro w
      by_cases e : w = v
      · subst e; simp [Contents]
      · simp [Contents, e]
    · intro a t ht; exact .inl ⟨t, ht⟩
  | add v t =>
    obtain ⟨d, hd⟩ := hp
    refine ⟨_, by rw [step, add, hget v d hd]; rfl, ?_, by simp [Kills], ?_, by simp, ?_, ?_, Nat.le_succ _, fun _ _ _ => Nat.lt_succ_self _⟩
    · intro w
      by_cases e : w = v
      · subst e
        simp only [Contents, Function.update_self, if_true, hd]
        split_ifs <;> rfl
      · simp [Contents, e]
    · intro a t' ht _ _
      have := h.fresh a t' ht
      change Function.update s.value s.nextAddress (some t) a = some t'
      rw [Function.update_of_ne (by omega), ht]
    · intro a t' ht
      change Function.update s.value s.nextAddress (some t) a = some t' at ht
      by_cases e : a = s.nextAddress
      · subst e
        rw [Function.update_self] at ht
        exact .inr ⟨v, by rw [Option.some.inj ht], rfl⟩
      · rw [Function.update_of_ne e] at ht
        exact .inl ⟨t', ht⟩
    · rintro w t' ⟨⟩
      exact Function.update_self ..
  | write b t =>
    obtain ⟨t₀, hb⟩ := hp
    refine ⟨{ s with value := Function.update s.value b (some t) }, by rw [step, write, hb], fun _ => rfl, by simp [Kills], ?_, ?_, ?_, by simp, le_refl _, by simp⟩
    · intro a t' ht _ hw
      change Function.update s.value b (some t) a = some t'
      rw [Function.update_of_ne (fun e => hw e.symm), ht]
    · rintro a t' ⟨⟩
      exact Function.update_self ..
    · intro a t' ht
      change Function.update s.value b (some t) a = some t' at ht
      by_cases e : a = b
      · subst e; exact .inl ⟨t₀, hb⟩
      · rw [Function.update_of_ne e] at ht
        exact .inl ⟨t', ht⟩
  | erase v it =>
    obtain ⟨d, hd, hb, hpos⟩ := hp
    have hgap : (d.data.drop it.pos).take 1 = [d.data[it.pos]] := by
      rw [List.drop_eq_getElem_cons hpos]; rfl
    obtain ⟨m, e, h1, h2⟩ := moveDown_spec [d.data[it.pos]] (d.data.drop (it.pos + 1)) s.value (List.nodup_singleton _) (by
      intro a ha
      rw [List.mem_singleton.mp ha]
      exact hlive v d hd _ (List.getElem_mem _))
    refine ⟨{ s with value := m, vec := Function.update s.vec v (some { d with data := d.data.take it.pos ++ d.data.drop (it.pos + 1) }) },
      by rw [step, erase, hget v d hd, Res.bind_ok', if_pos ⟨hb, hpos⟩, hgap, e]; rfl, ?_, ?_, ?_, by simp, ?_, by simp, le_refl _, by simp⟩
    · intro w
      by_cases e : w = v
      · subst e
        simp only [Contents, Function.update_self, if_true, hd, Option.map_some]
        rw [List.eraseIdx_eq_take_drop_succ]
      · simp [Contents, e]
    · rintro a ⟨d', hd', ha⟩
      obtain rfl : d' = d := Option.some.inj (hd'.symm.trans hd)
      refine h1 a ?_
      rw [List.getElem?_eq_getElem hpos] at ha
      rw [← Option.some.inj ha]
      exact List.mem_singleton_self _
    · intro a t ht hk _
      refine (h2 a fun ha => hk ⟨d, hd, ?_⟩).trans ht
      rw [List.mem_singleton.mp ha]
      exact List.getElem?_eq_getElem hpos
    · intro a t ht
      by_cases ha : a ∈ [d.data[it.pos]]
      · exact absurd ((h1 a ha).symm.trans ht) (by simp)
      · exact .inl ⟨t, (h2 a ha).symm.trans ht⟩
  | eraseRange v first last =>
    obtain ⟨d, hd, hb, hb', hle, hlast⟩ := hp
    have hgap : ∀ a, a ∈ (d.data.take last.pos).drop first.pos ↔ ∃ i, first.pos ≤ i ∧ i < last.pos ∧ d.data[i]? = some a := by
      intro a
      rw [List.mem_iff_getElem?]
      constructor
      · rintro ⟨i, hi⟩
        rw [List.getElem?_drop, List.getElem?_take] at hi
        split_ifs at hi with hlt
        exact ⟨first.pos + i, by omega, hlt, hi⟩
      · rintro ⟨i, h1, h2, h3⟩
        refine ⟨i - first.pos, ?_⟩
        rw [List.getElem?_drop, List.getElem?_take, show first.pos + (i - first.pos) = i by omega, if_pos h2, h3]
    by_cases heq : first.pos = last.pos
    · refine ⟨s, by rw [step, eraseRange, hget v d hd, Res.bind_ok', if_pos ⟨hb, hb', hle, hlast⟩, if_pos heq]; rfl, ?_, ?_, fun a t ht _ _ => ht, by simp,
        fun a t ht => .inl ⟨t, ht⟩, by simp, le_refl _, by simp⟩
      · intro w
        by_cases e : w = v
        · subst e
          simp [Contents, hd, heq]
        · simp [Contents, e]
      · rintro a ⟨d', hd', i, h1, h2, -⟩
        omega
    · obtain ⟨m, e, h1, h2⟩ := moveDown_spec ((d.data.take last.pos).drop first.pos) (d.data.drop last.pos) s.value
        (((h.nodup v d hd).sublist (List.take_sublist _ _)).sublist (List.drop_sublist _ _)) (by
        intro a ha
        exact hlive v d hd _ (List.mem_of_mem_take (List.mem_of_mem_drop ha)))
      refine ⟨{ s with value := m, vec := Function.update s.vec v (some { d with data := d.data.take first.pos ++ d.data.drop last.pos }) },
        by rw [step, eraseRange, hget v d hd, Res.bind_ok', if_pos ⟨hb, hb', hle, hlast⟩, if_neg heq, e]; rfl, ?_, ?_, ?_, by simp, ?_, by simp,
        le_refl _, by simp⟩
      · intro w
        by_cases e : w = v
        · subst e
          simp only [Contents, Function.update_self, if_true, hd, Option.map_some]
        · simp [Contents, e]
      · rintro a ⟨d', hd', ha⟩
        obtain rfl : d' = d := Option.some.inj (hd'.symm.trans hd)
        exact h1 a ((hgap a).mpr ha)
      · intro a t ht hk _
        exact (h2 a fun ha => hk ⟨d, hd, (hgap a).mp ha⟩).trans ht
      · intro a t ht
        by_cases ha : a ∈ (d.data.take last.pos).drop first.pos
        · exact absurd ((h1 a ha).symm.trans ht) (by simp)
        · exact .inl ⟨t, (h2 a ha).symm.trans ht⟩
  | destroy v =>
    obtain ⟨d, hd⟩ := hp
    obtain ⟨m, e, h1, h2⟩ := deleteAll_spec d.data s.value (h.nodup v d hd) (hlive v d hd)
    refine ⟨{ s with value := m, vec := Function.update s.vec v none }, by rw [step, destroy, hget v d hd, Res.bind_ok', e]; rfl, ?_, ?_, ?_, by simp, ?_, by simp, le_refl _, by simp⟩
    · intro w
      by_cases e : w = v
      · subst e; simp [Contents]
      · simp [Contents, e]
    · rintro a ⟨d', hd', ha⟩
      obtain rfl : d' = d := Option.some.inj (hd'.symm.trans hd)
      exact h1 a ha
    · intro a t ht hk _
      exact (h2 a fun ha => hk ⟨d, hd, ha⟩).trans ht
    · intro a t ht
      by_cases ha : a ∈ d.data
      · exact absurd ((h1 a ha).symm.trans ht) (by simp)
      · exact .inl ⟨t, (h2 a ha).symm.trans ht⟩
  | moveConstruct t u =>
    obtain ⟨⟨d, hd⟩, ht⟩ := hp
    have hne : u ≠ t := by rintro rfl; rw [hd] at ht; cases ht
    refine ⟨{ s with vec := Function.update (Function.update s.vec u (some ⟨[], s.nextBuffer, 0⟩)) t (some d), nextBuffer := s.nextBuffer + 1 },
      by rw [step, moveConstruct, hget u d hd, Res.bind_ok', ht], ?_, by simp [Kills], fun a t ht _ _ => ht, by simp,
      fun a t ht => .inl ⟨t, ht⟩, by simp, le_refl _, by simp⟩
    intro w
    by_cases e : w = t
    · subst e; simp [Contents, hd]
    · by_cases e' : w = u
      · subst e'; simp [Contents, e]
      · simp [Contents, e, e']
  | moveAssign t u =>
    obtain ⟨⟨d, hd⟩, old, ho⟩ := hp
    obtain ⟨m, e, h1, h2⟩ := deleteAll_spec old.data s.value (h.nodup t old ho) (hlive t old ho)
    refine ⟨{ s with value := m, nextBuffer := s.nextBuffer + 1,
                      vec := Function.update (Function.update s.vec t (some d)) u (some ⟨[], s.nextBuffer, 0⟩) },
      by rw [step, moveAssign, hget u d hd, Res.bind_ok', hget t old ho, Res.bind_ok', e]; rfl, ?_, ?_, ?_, by simp, ?_, by simp, le_refl _,
      by simp⟩
    · intro w
      by_cases e : w = u
      · subst e; simp [Contents]
      · by_cases e' : w = t
        · subst e'; simp [Contents, e, hd]
        · simp [Contents, e, e']
    · rintro a ⟨d', hd', ha⟩
      obtain rfl : d' = old := Option.some.inj (hd'.symm.trans ho)
      exact h1 a ha
    · intro a t' ht hk _
      exact (h2 a fun ha => hk ⟨old, ho, ha⟩).trans ht
    · intro a t' ht
      by_cases ha : a ∈ old.data
      · exact absurd ((h1 a ha).symm.trans ht) (by simp)
      · exact .inl ⟨t', (h2 a ha).symm.trans ht⟩

/-- the container the values of container `v` were in before the operation -/
def source (v : Nat) : Op T → Nat
  | .moveConstruct t u | .moveAssign t u => if v = t then u else v
  | _ => v

/-- where the values of a container come from -/
theorem contents_source (s : State T) (op : Op T) (h : Inv s) (hp : Pre s op) (v : Nat) (l : List Nat) (hl : Contents s v op = some l) :
    l.Nodup ∧ ∀ a ∈ l, ((∃ d, s.vec (source v op) = some d ∧ a ∈ d.data) ∧ ¬ Kills s a op) ∨ (a = s.nextAddress ∧ ∃ t, op = .add v t) := by
  have hsome : ∀ {w : Nat}, (s.vec w).map (·.data) = some l → l.Nodup ∧ ∀ a ∈ l, ∃ d, s.vec w = some d ∧ a ∈ d.data := by
    intro w hw
    obtain ⟨d, hd, rfl⟩ := Option.map_eq_some_iff.mp hw
    exact ⟨h.nodup w d hd, fun a ha => ⟨d, hd, ha⟩⟩
  have hdis : ∀ {w u : Nat} {a : Nat}, w ≠ u → (∃ d, s.vec w = some d ∧ a ∈ d.data) → ¬ ∃ d, s.vec u = some d ∧ a ∈ d.data := by
    rintro w u a hne ⟨d, hd, ha⟩ ⟨e, he, hb⟩
    exact h.disjoint w u d e hne hd he a ha hb
  have hnil : ∀ {P : Nat → Prop}, some [] = some l → l.Nodup ∧ ∀ a ∈ l, P a := by
    rintro P hn
    cases hn
    exact ⟨List.nodup_nil, by simp⟩
  cases op with
  | construct w =>
    rw [Contents] at hl; split_ifs at hl
    · exact hnil hl
    · exact ⟨(hsome hl).1, fun a ha => .inl ⟨(hsome hl).2 a ha, by simp [Kills]⟩⟩
  | add w t =>
    rw [Contents] at hl; split_ifs at hl with e
    · obtain ⟨d, hd, rfl⟩ := Option.map_eq_some_iff.mp hl
      constructor
      · refine List.Nodup.append (h.nodup v d hd) (List.nodup_singleton _) ?_
        intro a ha hb
        obtain ⟨t', ht'⟩ := (h.owned a).mpr ⟨v, d, hd, ha⟩
        have := h.fresh a t' ht'
        rw [List.mem_singleton.mp hb] at this
        omega
      · intro a ha
        rcases List.mem_append.mp ha with ha | ha
        · exact .inl ⟨⟨d, hd, ha⟩, by simp [Kills]⟩
        · exact .inr ⟨List.mem_singleton.mp ha, t, by rw [e]⟩
    · exact ⟨(hsome hl).1, fun a ha => .inl ⟨(hsome hl).2 a ha, by simp [Kills]⟩⟩
  | write b t => exact ⟨(hsome hl).1, fun a ha => .inl ⟨(hsome hl).2 a ha, by simp [Kills]⟩⟩
  | erase w it =>
    rw [Contents] at hl; split_ifs at hl with e
    · obtain ⟨d, hd, rfl⟩ := Option.map_eq_some_iff.mp hl
      refine ⟨(h.nodup v d hd).sublist (List.eraseIdx_sublist _ _), fun a ha => .inl ⟨⟨d, hd, (List.eraseIdx_sublist _ _).subset ha⟩, ?_⟩⟩
      rintro ⟨d', hd', ha'⟩
      obtain rfl : d' = d := Option.some.inj (hd'.symm.trans (e ▸ hd))
      obtain ⟨i, hi, hget⟩ := List.mem_eraseIdx_iff_getElem?.mp ha
      have hlt : i < d'.data.length := (List.getElem?_eq_some_iff.mp hget).1
      exact hi ((List.getElem?_inj hlt (h.nodup v d' hd)).mp (hget.trans ha'.symm))
    · exact ⟨(hsome hl).1, fun a ha => .inl ⟨(hsome hl).2 a ha, fun ⟨d, hd, ha'⟩ =>
        hdis e ((hsome hl).2 a ha) ⟨d, hd, List.mem_of_getElem? ha'⟩⟩⟩
  | eraseRange w f la =>
    rw [Contents] at hl; split_ifs at hl with e
    · obtain ⟨d, hd, rfl⟩ := Option.map_eq_some_iff.mp hl
      obtain ⟨d', hd', -, -, hle, -⟩ := hp
      have hsub : (d.data.take f.pos ++ d.data.drop la.pos).Sublist d.data := by
        conv_rhs => rw [← List.take_append_drop f.pos d.data]
        refine List.Sublist.append_left ?_ _
        rw [show la.pos = f.pos + (la.pos - f.pos) by omega, ← List.drop_drop]
        exact List.drop_sublist _ _
      refine ⟨(h.nodup v d hd).sublist hsub, fun a ha => .inl ⟨⟨d, hd, hsub.subset ha⟩, ?_⟩⟩
      rintro ⟨d'', hd'', i, h1, h2, ha'⟩
      obtain rfl : d'' = d := Option.some.inj (hd''.symm.trans (e ▸ hd))
      have hlt : i < d''.data.length := (List.getElem?_eq_some_iff.mp ha').1
      rcases List.mem_append.mp ha with ha | ha
      · obtain ⟨j, hj⟩ := List.mem_iff_getElem?.mp ha
        rw [List.getElem?_take] at hj
        split_ifs at hj with hjf
        have := (List.getElem?_inj hlt (h.nodup v d'' hd)).mp (ha'.trans hj.symm)
        omega
      · obtain ⟨j, hj⟩ := List.mem_iff_getElem?.mp ha
        rw [List.getElem?_drop] at hj
        have := (List.getElem?_inj hlt (h.nodup v d'' hd)).mp (ha'.trans hj.symm)
        omega
    · exact ⟨(hsome hl).1, fun a ha => .inl ⟨(hsome hl).2 a ha, fun ⟨d, hd, i, _, _, ha'⟩ =>
        hdis e ((hsome hl).2 a ha) ⟨d, hd, List.mem_of_getElem? ha'⟩⟩⟩
  | destroy w =>
    rw [Contents] at hl; split_ifs at hl with e
    exact ⟨(hsome hl).1, fun a ha => .inl ⟨(hsome hl).2 a ha, fun hk => hdis e ((hsome hl).2 a ha) hk⟩⟩
  | moveConstruct t u =>
    rw [Contents] at hl; split_ifs at hl with e e'
    · refine ⟨(hsome hl).1, fun a ha => .inl ⟨?_, by simp [Kills]⟩⟩
      rw [source, if_pos e]
      exact (hsome hl).2 a ha
    · exact hnil hl
    · refine ⟨(hsome hl).1, fun a ha => .inl ⟨?_, by simp [Kills]⟩⟩
      rw [source, if_neg e]
      exact (hsome hl).2 a ha
  | moveAssign t u =>
    rw [Contents] at hl; split_ifs at hl with e e'
    · exact hnil hl
    · refine ⟨(hsome hl).1, fun a ha => .inl ⟨?_, fun hk => hdis (fun h => e (e'.trans h.symm)) ((hsome hl).2 a ha) hk⟩⟩
      rw [source, if_pos e']
      exact (hsome hl).2 a ha
    · refine ⟨(hsome hl).1, fun a ha => .inl ⟨?_, fun hk => hdis e' ((hsome hl).2 a ha) hk⟩⟩
      rw [source, if_neg e']
      exact (hsome hl).2 a ha

/-- two different containers do not get values from one -/
theorem source_inj (s : State T) (op : Op T) (hp : Pre s op) (v w : Nat) (l k : List Nat) (hl : Contents s v op = some l) (hk : Contents s w op = some k)
    (hl0 : l ≠ []) (hk0 : k ≠ []) (h : source v op = source w op) : v = w := by
  cases op with
  | moveConstruct t u =>
    simp only [source] at h
    simp only [Contents] at hl hk
    split_ifs at h hl hk <;> first | exact h | (cases hl; exact absurd rfl hl0) | (cases hk; exact absurd rfl hk0) | omega
  | moveAssign t u =>
    simp only [source] at h
    simp only [Contents] at hl hk
    split_ifs at h hl hk <;> first | exact h | (cases hl; exact absurd rfl hl0) | (cases hk; exact absurd rfl hk0) | omega
  | _ => exact h

/-- every value that lives on is in a container -/
theorem contents_complete (s : State T) (op : Op T) (h : Inv s) (hp : Pre s op) (a : Nat)
    (ha : ((∃ t, s.value a = some t) ∧ ¬ Kills s a op) ∨ (a = s.nextAddress ∧ ∃ v t, op = .add v t)) :
    ∃ v l, Contents s v op = some l ∧ a ∈ l := by
  rcases ha with ⟨hlive, hk⟩ | ⟨rfl, v, t, rfl⟩
  · obtain ⟨v, d, hd, ha⟩ := (h.owned a).mp hlive
    have same : Contents s v op = (s.vec v).map (·.data) → ∃ v l, Contents s v op = some l ∧ a ∈ l :=
      fun e => ⟨v, d.data, by rw [e, hd]; rfl, ha⟩
    cases op with
    | construct w =>
      have : v ≠ w := by rintro rfl; rw [show s.vec v = none from hp] at hd; cases hd
      exact same (by rw [Contents, if_neg this])
    | add w t =>
      by_cases e : v = w
      · exact ⟨v, d.data ++ [s.nextAddress], by rw [Contents, if_pos e, hd]; rfl, List.mem_append_left _ ha⟩
      · exact same (by rw [Contents, if_neg e])
    | write b t => exact same rfl
    | erase w it =>
      by_cases e : v = w
      · refine ⟨v, d.data.eraseIdx it.pos, by rw [Contents, if_pos e, hd]; rfl, ?_⟩
        obtain ⟨i, hi⟩ := List.mem_iff_getElem?.mp ha
        exact List.mem_eraseIdx_iff_getElem?.mpr ⟨i, fun e' => hk ⟨d, e ▸ hd, e' ▸ hi⟩, hi⟩
      · exact same (by rw [Contents, if_neg e])
    | eraseRange w f la =>
      by_cases e : v = w
      · refine ⟨v, _, by rw [Contents, if_pos e, hd]; rfl, ?_⟩
        obtain ⟨i, hi⟩ := List.mem_iff_getElem?.mp ha
        rcases lt_or_ge i f.pos with h1 | h1
        · exact List.mem_append_left _ (List.mem_iff_getElem?.mpr ⟨i, by rw [List.getElem?_take, if_pos h1, hi]⟩)
        · rcases lt_or_ge i la.pos with h2 | h2
          · exact absurd ⟨d, e ▸ hd, i, h1, h2, hi⟩ hk
          · exact List.mem_append_right _ (List.mem_iff_getElem?.mpr
              ⟨i - la.pos, by rw [List.getElem?_drop, show la.pos + (i - la.pos) = i by omega, hi]⟩)
      · exact same (by rw [Contents, if_neg e])
    | destroy w =>
      have : v ≠ w := by rintro rfl; exact hk ⟨d, hd, ha⟩
      exact same (by rw [Contents, if_neg this])
    | moveConstruct t u =>
      have h1 : v ≠ t := by rintro rfl; rw [hp.2] at hd; cases hd
      by_cases e : v = u
      · exact ⟨t, d.data, by rw [Contents, if_pos rfl, ← e, hd]; rfl, ha⟩
      · exact same (by rw [Contents, if_neg h1, if_neg e])
    | moveAssign t u =>
      have h1 : v ≠ t := by rintro rfl; exact hk ⟨d, hd, ha⟩
      by_cases e : v = u
      · exact ⟨t, d.data, by rw [Contents, if_neg (fun h => h1 (e.trans h.symm)), if_pos rfl, ← e, hd]; rfl, ha⟩
      · exact same (by rw [Contents, if_neg e, if_neg h1])
  · obtain ⟨d, hd⟩ := hp
    exact ⟨v, d.data ++ [s.nextAddress], by rw [Contents, if_pos rfl, hd]; rfl, by simp⟩

/-- the operations keep the invariant -/
theorem inv_step (growth : Nat → Nat) (s s' : State T) (op : Op T) (h : Inv s) (hp : Pre s op) (hs : step growth s op = .ok s') : Inv s' := by
  obtain ⟨s'', e, h1, h2, h3, h4, h5, h6, h7, h8⟩ := step_spec growth s op h hp
  obtain rfl : s'' = s' := Res.ok.inj (e.symm.trans hs)
  have hdata : ∀ {v d}, s''.vec v = some d → Contents s v op = some d.data := by
    intro v d hd
    rw [← h1 v, hd]; rfl
  constructor
  · intro v d hd
    exact (contents_source s op h hp v _ (hdata hd)).1
  · intro v w d e' hne hd he a ha hb
    have hsrc := (contents_source s op h hp v _ (hdata hd)).2 a ha
    have hsrc' := (contents_source s op h hp w _ (hdata he)).2 a hb
    have hnew : ∀ u d, s.vec u = some d → s.nextAddress ∉ d.data := by
      intro u d hu hm
      obtain ⟨t, ht⟩ := (h.owned _).mpr ⟨u, d, hu, hm⟩
      exact lt_irrefl _ (h.fresh _ _ ht)
    rcases hsrc with ⟨⟨d1, hd1, ha1⟩, -⟩ | ⟨rfl, t, rfl⟩
    · rcases hsrc' with ⟨⟨d2, hd2, ha2⟩, -⟩ | ⟨rfl, t, rfl⟩
      · by_cases hss : source v op = source w op
        · exact hne (source_inj s op hp v w _ _ (hdata hd) (hdata he) (List.ne_nil_of_mem ha) (List.ne_nil_of_mem hb) hss)
        · exact h.disjoint _ _ d1 d2 hss hd1 hd2 a ha1 ha2
      · exact hnew _ _ hd1 ha1
    · rcases hsrc' with ⟨⟨d2, hd2, ha2⟩, -⟩ | ⟨-, t', ht'⟩
      · exact hnew _ _ hd2 ha2
      · exact hne (Op.add.inj ht').1
  · intro a
    constructor
    · rintro ⟨t, ht⟩
      have : ((∃ t, s.value a = some t) ∧ ¬ Kills s a op) ∨ (a = s.nextAddress ∧ ∃ v t, op = .add v t) := by
        rcases h5 a t ht with hl | ⟨v, e1, e2⟩
        · refine .inl ⟨hl, fun hk => ?_⟩
          rw [h2 a hk] at ht; cases ht
        · exact .inr ⟨e2, v, t, e1⟩
      obtain ⟨v, l, hl, ha⟩ := contents_complete s op h hp a this
      rw [← h1 v] at hl
      obtain ⟨d, hd, rfl⟩ := Option.map_eq_some_iff.mp hl
      exact ⟨v, d, hd, ha⟩
    · rintro ⟨v, d, hd, ha⟩
      rcases (contents_source s op h hp v _ (hdata hd)).2 a ha with ⟨⟨d', hd', ha'⟩, hk⟩ | ⟨rfl, t, e1⟩
      · obtain ⟨t, ht⟩ := (h.owned a).mpr ⟨_, d', hd', ha'⟩
        by_cases hw : Writes a op
        · cases op with
          | write b t' =>
            obtain rfl : b = a := hw
            exact ⟨t', h4 b t' rfl⟩
          | _ => exact hw.elim
        · exact ⟨t, h3 a t ht hk hw⟩
      · exact ⟨t, h6 v t e1⟩
  · intro a t ht
    rcases h5 a t ht with ⟨t', ht'⟩ | ⟨v, e1, e2⟩
    · exact lt_of_lt_of_le (h.fresh a t' ht') h7
    · rw [e2]; exact h8 v t e1

/-- C99: an operation is defined exactly if it is used as it should be. -/
theorem C99_defined (growth : Nat → Nat) (s : State T) (op : Op T) (h : Inv s) : (∃ s', step growth s op = .ok s') ↔ Pre s op := by
  constructor
  · rintro ⟨s', hs⟩
    have hget : ∀ v (f : Vec → Res (State T)), (get s v).bind f = .ok s' → ∃ d, s.vec v = some d ∧ f d = .ok s' := by
      intro v f he
      obtain ⟨d, h1, h2⟩ := Res.bind_eq_ok he
      rw [get] at h1
      split at h1
      · rename_i d' hd; cases h1; exact ⟨d, hd, h2⟩
      · cases h1
    cases op with
    | construct v =>
      simp only [step, construct] at hs
      split at hs
      · cases hs
      · assumption
    | add v t =>
      obtain ⟨r, h1, -⟩ := Res.bind_eq_ok hs
      obtain ⟨d, h2, -⟩ := Res.bind_eq_ok h1
      rw [get] at h2
      split at h2
      · exact ⟨_, by assumption⟩
      · cases h2
    | write a t =>
      simp only [step, write] at hs
      split at hs
      · exact ⟨_, by assumption⟩
      · cases hs
    | erase v it =>
      obtain ⟨r, h1, -⟩ := Res.bind_eq_ok hs
      obtain ⟨d, h2, h3⟩ := Res.bind_eq_ok h1
      rw [get] at h2
      split at h2
      · rename_i d' hd
        cases h2
        split_ifs at h3 with hc
        · exact ⟨d, hd, hc⟩
      · cases h2
    | eraseRange v f l =>
      obtain ⟨r, h1, -⟩ := Res.bind_eq_ok hs
      obtain ⟨d, h2, h3⟩ := Res.bind_eq_ok h1
      rw [get] at h2
      split at h2
      · rename_i d' hd
        cases h2
        split_ifs at h3 with hc
        · exact ⟨d, hd, hc⟩
        · exact ⟨d, hd, hc⟩
      · cases h2
    | destroy v =>
      obtain ⟨d, hd, -⟩ := hget v _ hs
      exact ⟨d, hd⟩
    | moveConstruct t u =>
      obtain ⟨d, hd, h3⟩ := hget u _ hs
      refine ⟨⟨d, hd⟩, ?_⟩
      split at h3
      · cases h3
      · assumption
    | moveAssign t u =>
      obtain ⟨d, hd, h3⟩ := hget u _ hs
      obtain ⟨d', hd', -⟩ := hget t _ h3
      exact ⟨⟨d, hd⟩, d', hd'⟩
  · intro hp
    obtain ⟨s', e, -⟩ := step_spec growth s op h hp
    exact ⟨s', e⟩

/-- C99: the states of programs.  No value is ever owned twice, leaked or deleted twice. -/
theorem C99_invariant (growth : Nat → Nat) (ops : List (Op T)) (s : State T) (hs : run growth start ops = .ok s) : Inv s := by
  have key : ∀ (ops : List (Op T)) (s₀ : State T), Inv s₀ → run growth s₀ ops = .ok s → Inv s := by
    intro ops
    induction ops with
    | nil => rintro s₀ h ⟨⟩; exact h
    | cons op ops ih =>
      intro s₀ h hr
      obtain ⟨s₁, h1, h2⟩ := Res.bind_eq_ok hr
      exact ih s₁ (inv_step growth s₀ s₁ op h ((C99_defined growth s₀ op h).mp ⟨s₁, h1⟩) h1) h2
  refine key ops start ⟨by simp [start], by simp [start], by simp [start], by simp [start]⟩ hs

/-- C99: one operation keeps the value behind every reference, unless it ends the life of this value or writes to it; afterwards the
containers have the pointers one expects. -/
theorem C99_step (growth : Nat → Nat) (s s' : State T) (op : Op T) (h : Inv s) (hs : step growth s op = .ok s') :
    (∀ v, (s'.vec v).map (·.data) = Contents s v op) ∧ (∀ a, Kills s a op → read s' a = .ub) ∧
    (∀ a t, read s a = .ok t → ¬ Kills s a op → ¬ Writes a op → read s' a = .ok t) ∧ (∀ a t, op = .write a t → read s' a = .ok t) := by
  obtain ⟨s'', e, h1, h2, h3, h4, -⟩ := step_spec growth s op h ((C99_defined growth s op h).mp ⟨s', hs⟩)
  obtain rfl : s'' = s' := Res.ok.inj (e.symm.trans hs)
  have hread : ∀ (s : State T) a t, read s a = .ok t ↔ s.value a = some t := by
    intro s a t
    rw [read]
    split <;> simp_all
  refine ⟨h1, fun a hk => by rw [read, h2 a hk], fun a t ht hk hw => ?_, fun a t e => ?_⟩
  · rw [hread] at ht ⊢
    exact h3 a t ht hk hw
  · rw [hread]; exact h4 a t e

/-- no operation of a program ends the life of a value, or writes to it -/
def Keeps (growth : Nat → Nat) (a : Nat) : State T → List (Op T) → Prop
  | _, [] => True
  | s, op :: ops => ¬ Kills s a op ∧ ¬ Writes a op ∧ ∀ s', step growth s op = .ok s' → Keeps growth a s' ops

/-- C99: the reference that `Add` returns can be used, and gives the same value, after any sequence of further operations that do not end the life
of the value or write to it: adding any number of values to its container or others, erasing others, moving the container. -/
theorem C99_reference (growth : Nat → Nat) (before after : List (Op T)) (s s₁ s₂ : State T) (v : Nat) (t : T) (a : Nat)
    (h₁ : run growth start before = .ok s) (h₂ : add growth s v t = .ok (s₁, a)) (h₃ : run growth s₁ after = .ok s₂)
    (hk : Keeps growth a s₁ after) : read s₂ a = .ok t := by
  have hi := C99_invariant growth before s h₁
  have hstep : step growth s (.add v t) = .ok s₁ := by rw [step, h₂]; rfl
  have hp := (C99_defined growth s (.add v t) hi).mp ⟨s₁, hstep⟩
  have ha : a = s.nextAddress := by
    obtain ⟨d, -, h4⟩ := Res.bind_eq_ok h₂
    exact ((Prod.mk.inj (Res.ok.inj h4)).2).symm
  have hread : read s₁ a = .ok t := by
    obtain ⟨s'', e, -, -, -, -, -, h6, -⟩ := step_spec growth s (.add v t) hi hp
    obtain rfl : s'' = s₁ := Res.ok.inj (e.symm.trans hstep)
    rw [read, ha, h6 v t rfl]
  have hi₁ := inv_step growth s s₁ _ hi hp hstep
  clear h₁ h₂ hstep hp ha hi
  induction after generalizing s₁ with
  | nil => cases h₃; exact hread
  | cons op ops ih =>
    obtain ⟨s₃, h4, h5⟩ := Res.bind_eq_ok h₃
    have hpre := (C99_defined growth s₁ op hi₁).mp ⟨s₃, h4⟩
    exact ih s₃ h5 (hk.2.2 s₃ h4) ((C99_step growth s₁ s₃ op hi₁ h4).2.2.1 a t hread hk.1 hk.2.1) (inv_step growth s₁ s₃ op hi₁ hpre h4)

/-- C99: the values are in the order they were added in, and `operator[]` gives the references `Add` returned. -/
theorem C99_order (growth : Nat → Nat) (v : Nat) (ts : List T) (s : State T) (h : Inv s) (d : Vec) (hd : s.vec v = some d) :
    ∃ s' d', run growth s (ts.map (.add v)) = .ok s' ∧ s'.vec v = some d' ∧ size s' v = .ok (d.data.length + ts.length) ∧
      (∀ i < d.data.length, at_ s' v i = at_ s v i) ∧
      ∀ i (hi : i < ts.length), ∃ a, at_ s' v ((d.data.length + i : Nat) : Int) = .ok a ∧ read s' a = .ok ts[i] := by
  have key : ∀ (ts : List T) (s : State T) (d : Vec), Inv s → s.vec v = some d → ∃ s' d' new, run growth s (ts.map (.add v)) = .ok s' ∧
      s'.vec v = some d' ∧ d'.data = d.data ++ new ∧ new.length = ts.length ∧
      (∀ i (hi : i < ts.length), ∃ a, new[i]? = some a ∧ s'.value a = some ts[i]) ∧
      ∀ a t, s.value a = some t → s'.value a = some t := by
    intro ts
    induction ts with
    | nil => intro s d h hd; exact ⟨s, d, [], rfl, hd, by simp, rfl, by simp, fun _ _ h => h⟩
    | cons t ts ih =>
      intro s d h hd
      obtain ⟨s₁, e, h1, h2, h3, h4, h5, h6, -⟩ := step_spec growth s (.add v t) h ⟨d, hd⟩
      have hi := inv_step growth s s₁ (.add v t) h ⟨d, hd⟩ e
      have hv := h1 v
      rw [Contents, if_pos rfl, hd, Option.map_some] at hv
      obtain ⟨d₁, hd₁, hdata⟩ := Option.map_eq_some_iff.mp hv
      obtain ⟨s', d', new, e', hd', hdata', hlen, hnew, hold⟩ := ih s₁ d₁ hi hd₁
      refine ⟨s', d', s.nextAddress :: new, ?_, hd', ?_, by simp [hlen], ?_, ?_⟩
      · rw [List.map_cons, run, Res.foldlM_cons, e, Res.bind_ok']; exact e'
      · rw [hdata', hdata, List.append_assoc]; rfl
      · intro i hi'
        cases i with
        | zero => exact ⟨s.nextAddress, rfl, hold _ _ (h6 v t rfl)⟩
        | succ i =>
          obtain ⟨a, h7, h8⟩ := hnew i (by simpa using hi')
          exact ⟨a, by simpa using h7, by simpa using h8⟩
      · intro a t' ht
        exact hold a t' (h3 a t' ht (by simp [Kills]) (by simp [Writes]))
  obtain ⟨s', d', new, e, hd', hdata, hlen, hnew, -⟩ := key ts s d h hd
  have hat : ∀ i : Nat, at_ s' v i = match d'.data[i]? with | some a => .ok a | none => .ub := by
    intro i
    rw [at_, get, hd', Res.bind_ok', if_neg (by omega)]; rfl
  refine ⟨s', d', e, hd', ?_, ?_, ?_⟩
  · rw [size, get, hd', Res.bind_ok', hdata, List.length_append, hlen]
  · intro i hi
    rw [hat, hdata, List.getElem?_append_left hi, at_, get, hd, Res.bind_ok', if_neg (by omega)]; rfl
  · intro i hi
    obtain ⟨a, h1, h2⟩ := hnew i hi
    refine ⟨a, ?_, by rw [read, h2]⟩
    rw [hat, hdata, List.getElem?_append_right (by omega), Nat.add_sub_cancel_left, h1]

/-- C99: `Erase` returns an iterator to the value behind the erased one. -/
theorem C99_erase (s s' : State T) (v : Nat) (it it' : Iter) (h : Inv s) (hs : erase s v it = .ok (s', it')) :
    deref s' v it' = deref s v ⟨it.buffer, it.pos + 1⟩ ∧ deref s v it ≠ .ub := by
  obtain ⟨d, h1, h2⟩ := Res.bind_eq_ok hs
  have hd : s.vec v = some d := by
    rw [get] at h1
    split at h1
    · rename_i d' hd; cases h1; exact hd
    · cases h1
  split_ifs at h2 with hc
  · have hgap : (d.data.drop it.pos).take 1 = [d.data[it.pos]] := by
      rw [List.drop_eq_getElem_cons hc.2]; rfl
    obtain ⟨m, e, -, -⟩ := moveDown_spec [d.data[it.pos]] (d.data.drop (it.pos + 1)) s.value (List.nodup_singleton _) (by
      intro a ha
      rw [List.mem_singleton.mp ha]
      exact (h.owned _).mpr ⟨v, d, hd, List.getElem_mem _⟩)
    rw [hgap, e, Res.bind_ok'] at h2
    obtain ⟨rfl, rfl⟩ := Prod.mk.inj (Res.ok.inj h2)
    constructor
    · simp only [deref, get, Function.update_self, hd, Res.bind_ok', if_pos hc.1]
      rw [List.getElem?_append_right (by simp), List.length_take, min_eq_left hc.2.le, Nat.sub_self, List.getElem?_drop]
    · rw [deref, h1, Res.bind_ok', if_pos hc.1, List.getElem?_eq_getElem hc.2]
      simp

/-- C99: moving a container keeps its references and iterators, which now belong to the target. -/
theorem C99_move (s s' : State T) (target source : Nat) (hs : moveConstruct s target source = .ok s') :
    (∀ a, read s' a = read s a) ∧ (∀ i, at_ s' target i = at_ s source i) ∧ (∀ it, deref s' target it = deref s source it) ∧
    size s' source = .ok 0 := by
  obtain ⟨d, h1, h2⟩ := Res.bind_eq_ok hs
  have hd : s.vec source = some d := by
    rw [get] at h1
    split at h1
    · rename_i d' hd; cases h1; exact hd
    · cases h1
  split at h2
  · cases h2
  · rename_i ht
    have hne : source ≠ target := by rintro rfl; rw [hd] at ht; cases ht
    cases h2
    refine ⟨fun _ => rfl, ?_, ?_, ?_⟩
    · intro i; simp [at_, get, hd]
    · intro i; simp [deref, get, hd]
    · simp [size, get, Function.update_of_ne hne]

/-- C99: iterators do not have this property: one obtained before `Add` is invalid if the vector has grown.  A loop over a container that adds to
it is undefined. -/
theorem C99_iterator_counterexample : ∃ (s s' : State Nat) (it : Iter) (a : Nat), run (fun n => 2 * n + 1) start [.construct 0, .add 0 7] = .ok s ∧
    begin_ s 0 = .ok it ∧ deref s 0 it = .ok 0 ∧ add (fun n => 2 * n + 1) s 0 8 = .ok (s', a) ∧ deref s' 0 it = .ub ∧ read s' 0 = .ok 7 :=
  ⟨_, _, _, _, rfl, rfl, rfl, rfl, rfl, rfl⟩

/-- C99: iterators stay valid as long as the capacity is not used up. -/
theorem C99_iterator (growth : Nat → Nat) (s s' : State T) (v : Nat) (t : T) (a : Nat) (d : Vec) (hd : s.vec v = some d)
    (hc : d.data.length < d.capacity) (hs : add growth s v t = .ok (s', a)) (it : Iter) (b : Nat) (hb : deref s v it = .ok b) :
    deref s' v it = .ok b := by
  rw [add, get, hd, Res.bind_ok'] at hs
  obtain ⟨rfl, -⟩ := Prod.mk.inj (Res.ok.inj hs)
  rw [deref, get, hd, Res.bind_ok'] at hb
  simp only [deref, get, Function.update_self, hc, if_true, Res.bind_ok']
  split_ifs at hb with h1
  · rw [if_pos h1]
    split at hb
    · rename_i x hx
      rw [List.getElem?_append_left (List.getElem?_eq_some_iff.mp hx).1, hx]
      exact hb
    · cases hb

/-- C99: `Erase(std::find(begin, end, x))` without such an `x` is undefined, as is a negative or too large index. -/
theorem C99_misuse_counterexample : ∃ s : State Nat, run (fun n => 2 * n + 1) start [.construct 0, .add 0 7] = .ok s ∧
    (end_ s 0).bind (fun it => (erase s 0 it).bind fun r => .ok r.2) = .ub ∧ at_ s 0 1 = .ub ∧ at_ s 0 (-1) = .ub :=
  ⟨_, rfl, rfl, rfl, rfl⟩

/-- a program as in `C99_reference`: three values, the second is erased, the container is moved -/
example : ∃ s s₁ s₂ a, run (fun n => 2 * n + 1) (start : State Nat) [.construct 0] = .ok s ∧ add (fun n => 2 * n + 1) s 0 7 = .ok (s₁, a) ∧
    run (fun n => 2 * n + 1) s₁ [.add 0 8, .add 0 9, .erase 0 ⟨2, 1⟩, .moveConstruct 1 0] = .ok s₂ ∧ read s₂ a = .ok 7 ∧ at_ s₂ 1 1 = .ok 2 :=
  ⟨_, _, _, _, rfl, rfl, rfl, rfl, rfl⟩

end ValueVector
end NuTo
