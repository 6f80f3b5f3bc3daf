/-
C50: the order of events.  C51: the event lists stay consistent.
-/
import Verif.Model.EventList
import Mathlib.Order.Lattice
import Mathlib.Order.MinMax
import Mathlib.Tactic.Linarith
import Mathlib.Data.List.Pairwise
import Mathlib.Data.List.Nodup

namespace NuTo.Collision

variable {K A : Type} [LinearOrder K] [LinearOrder A]

/-! ### C50 -/

/-- the pair of partners, without order -/
def SamePartners (a b : Event K A) : Prop :=
  (a.first = b.first ∧ a.second = b.second) ∨ (a.first = b.second ∧ a.second = b.first)

theorem lt_iff (a b : Event K A) : a.lt b = true ↔
    a.time < b.time ∨ (a.time = b.time ∧ (min b.first b.second < min a.first a.second ∨
      (min a.first a.second = min b.first b.second ∧ max b.first b.second < max a.first a.second))) := by
  have hmin : ∀ x y : A, (if x < y then x else y) = min x y := fun x y => by
    rcases lt_or_ge x y with h | h
    · rw [if_pos h, min_eq_left h.le]
    · rw [if_neg (not_lt.2 h), min_eq_right h]
  have hmax : ∀ x y : A, (if x < y then y else x) = max x y := fun x y => by
    rcases lt_or_ge x y with h | h
    · rw [if_pos h, max_eq_right h.le]
    · rw [if_neg (not_lt.2 h), max_eq_left h]
  simp only [Event.lt, hmin, hmax]
  by_cases h1 : a.time = b.time
  · rw [if_neg (not_not.2 h1)]
    by_cases h2 : min a.first a.second = min b.first b.second
    · rw [if_neg (not_not.2 h2), decide_eq_true_eq]
      simp [h1, h2]
    · rw [if_pos h2, decide_eq_true_eq]
      simp [h1, h2]
  · rw [if_pos h1, decide_eq_true_eq]
    simp [h1]

theorem samePartners_iff (a b : Event K A) : SamePartners a b ↔
    min a.first a.second = min b.first b.second ∧ max a.first a.second = max b.first b.second := by
  unfold SamePartners
  constructor
  · rintro (⟨h1, h2⟩ | ⟨h1, h2⟩)
    · rw [h1, h2]; exact ⟨rfl, rfl⟩
    · rw [h1, h2, min_comm, max_comm]; exact ⟨rfl, rfl⟩
  · rintro ⟨h1, h2⟩
    rcases le_total a.first a.second with h3 | h3 <;> rcases le_total b.first b.second with h4 | h4 <;>
      simp only [min_eq_left, min_eq_right, max_eq_left, max_eq_right, h3, h4] at h1 h2
    · exact Or.inl ⟨h1, h2⟩
    · exact Or.inr ⟨h1, h2⟩
    · exact Or.inr ⟨h2, h1⟩
    · exact Or.inl ⟨h2, h1⟩

theorem eq_iff (a b : Event K A) : a.eq b = true ↔ a.time = b.time ∧ SamePartners a b := by
  unfold Event.eq SamePartners
  split_ifs with h1 h2 h3
  · simp [h1]
  · simp only [true_iff]
    exact ⟨not_not.1 h1, Or.inl h2⟩
  · simp only [true_iff]
    exact ⟨not_not.1 h1, Or.inr h3⟩
  · simp [h2, h3]

/-- `operator==` compares time and the unordered pair of partners. -/
theorem C50_equal (a b : Event K A) : a.eq b = true ↔ a.time = b.time ∧ SamePartners a b := eq_iff a b

/-- No event precedes itself. -/
theorem C50_irreflexive (a : Event K A) : a.lt a = false := by
  rw [← Bool.not_eq_true, lt_iff]
  simp

theorem C50_transitive (a b c : Event K A) (h1 : a.lt b = true) (h2 : b.lt c = true) : a.lt c = true := by
  rw [lt_iff] at *
  rcases h1 with h1 | ⟨h1, h1'⟩
  · rcases h2 with h2 | ⟨h2, -⟩
    · exact Or.inl (h1.trans h2)
    · exact Or.inl (h2 ▸ h1)
  · rcases h2 with h2 | ⟨h2, h2'⟩
    · exact Or.inl (h1 ▸ h2)
    · refine Or.inr ⟨h1.trans h2, ?_⟩
      rcases h1' with h1' | ⟨h1', h1''⟩
      · rcases h2' with h2' | ⟨h2', -⟩
        · exact Or.inl (h2'.trans h1')
        · exact Or.inl (h2' ▸ h1')
      · rcases h2' with h2' | ⟨h2', h2''⟩
        · exact Or.inl (h1' ▸ h2')
        · exact Or.inr ⟨h1'.trans h2', h2''.trans h1''⟩

theorem C50_asymmetric (a b : Event K A) (h : a.lt b = true) : b.lt a = false := by
  rw [← Bool.not_eq_true]
  intro h'
  have := C50_transitive a b a h h'
  rw [C50_irreflexive] at this
  cases this

/-- Two events are equivalent in the queue exactly if they are the same event. -/
theorem C50_equivalent (a b : Event K A) : (a.lt b = false ∧ b.lt a = false) ↔ a.eq b = true := by
  rw [eq_iff, samePartners_iff, ← Bool.not_eq_true, ← Bool.not_eq_true, lt_iff, lt_iff]
  constructor
  · rintro ⟨h1, h2⟩
    push Not at h1 h2
    obtain ⟨h1, h1'⟩ := h1
    obtain ⟨h2, h2'⟩ := h2
    have ht : a.time = b.time := le_antisymm h2 h1
    obtain ⟨h3, h3'⟩ := h1' ht
    obtain ⟨h4, h4'⟩ := h2' ht.symm
    have hm : min a.first a.second = min b.first b.second := le_antisymm h3 h4
    exact ⟨ht, hm, le_antisymm (h3' hm) (h4' hm.symm)⟩
  · rintro ⟨h1, h2, h3⟩
    simp [h1, h2, h3]

/-- Incomparability is transitive, so the order is a strict weak order as `std::set` requires. -/
theorem C50_strict_weak (a b c : Event K A) (h1 : a.lt b = false ∧ b.lt a = false)
    (h2 : b.lt c = false ∧ c.lt b = false) : a.lt c = false ∧ c.lt a = false := by
  rw [C50_equivalent, eq_iff, samePartners_iff] at *
  exact ⟨h1.1.trans h2.1, h1.2.1.trans h2.2.1, h1.2.2.trans h2.2.2⟩

/-- An earlier event precedes a later one, whatever its partners. -/
theorem C50_time_first (a b : Event K A) (h : a.time < b.time) : a.lt b = true :=
  (lt_iff a b).2 (Or.inl h)

theorem lt_total (a b : Event K A) (h : a.eq b = false) : a.lt b = true ∨ b.lt a = true := by
  by_contra hc
  push Not at hc
  have := (C50_equivalent a b).1 ⟨by simpa using hc.1, by simpa using hc.2⟩
  rw [this] at h
  cases h

example : (⟨1, 5, 7, 0⟩ : Event ℕ ℕ).lt ⟨1, 7, 5, 1⟩ = false ∧ (⟨1, 5, 7, 0⟩ : Event ℕ ℕ).eq ⟨1, 7, 5, 1⟩ = true ∧
    (⟨1, 6, 7, 0⟩ : Event ℕ ℕ).lt ⟨1, 7, 5, 1⟩ = true ∧ (⟨1, 5, 8, 0⟩ : Event ℕ ℕ).lt ⟨1, 7, 5, 1⟩ = true := by decide

/-! ### C51 -/

/-- The queue is strictly ordered, addresses are unique, and the local list of every collidable holds exactly the
queued events it takes part in, each once. -/
structure Consistent (s : EventList K A) : Prop where
  sorted : s.queue.Pairwise fun x y => x.2.lt y.2 = true
  ids : (s.queue.map Prod.fst).Nodup
  fresh : ∀ x ∈ s.queue, x.1 < s.next
  partners : ∀ x ∈ s.queue, x.2.first ≠ x.2.second
  once : ∀ c, (s.loc c).Nodup
  mem : ∀ c id, id ∈ s.loc c ↔ ∃ e, (id, e) ∈ s.queue ∧ (c = e.first ∨ c = e.second)

theorem unique_id {q : List (Nat × Event K A)} (h : (q.map Prod.fst).Nodup) {x y : Nat × Event K A} (hx : x ∈ q)
    (hy : y ∈ q) (hxy : x.1 = y.1) : x = y :=
  List.inj_on_of_nodup_map h hx hy hxy

theorem insertSet_perm {id : Nat} {e : Event K A} {q q' : List (Nat × Event K A)} (h : insertSet id e q = some q') :
    q'.Perm ((id, e) :: q) := by
  induction q generalizing q' with
  | nil =>
    rw [insertSet] at h
    rw [← Option.some.inj h]
  | cons x xs ih =>
    rw [insertSet] at h
    split_ifs at h with h1 h2
    · rw [← Option.some.inj h]
    · rw [Option.map_eq_some_iff] at h
      obtain ⟨q'', h3, rfl⟩ := h
      exact ((ih h3).cons x).trans (List.Perm.swap _ _ _)

theorem insertSet_sorted {id : Nat} {e : Event K A} {q q' : List (Nat × Event K A)} (h : insertSet id e q = some q')
    (hs : q.Pairwise fun x y => x.2.lt y.2 = true) : q'.Pairwise fun x y => x.2.lt y.2 = true := by
  induction q generalizing q' with
  | nil =>
    rw [insertSet] at h
    rw [← Option.some.inj h]
    exact List.pairwise_singleton _ _
  | cons x xs ih =>
    rw [insertSet] at h
    rw [List.pairwise_cons] at hs
    split_ifs at h with h1 h2
    · rw [← Option.some.inj h]
      refine List.Pairwise.cons ?_ (List.Pairwise.cons hs.1 hs.2)
      intro y hy
      rcases List.mem_cons.1 hy with rfl | hy
      · exact h1
      · exact C50_transitive _ _ _ h1 (hs.1 y hy)
    · rw [Option.map_eq_some_iff] at h
      obtain ⟨q'', h3, rfl⟩ := h
      refine List.Pairwise.cons ?_ (ih h3 hs.2)
      intro y hy
      rcases List.mem_cons.1 ((insertSet_perm h3).mem_iff.1 hy) with rfl | hy
      · exact h2
      · exact hs.1 y hy

theorem insertSet_none {id : Nat} {e : Event K A} {q : List (Nat × Event K A)} (h : insertSet id e q = none) :
    ∃ x ∈ q, x.2.eq e = true := by
  induction q with
  | nil => cases h
  | cons x xs ih =>
    rw [insertSet] at h
    split_ifs at h with h1 h2
    · rw [Option.map_eq_none_iff] at h
      obtain ⟨y, hy, hy'⟩ := ih h
      exact ⟨y, List.mem_cons_of_mem _ hy, hy'⟩
    · exact ⟨x, List.mem_cons_self, (C50_equivalent _ _).1 ⟨by simpa using h2, by simpa using h1⟩⟩

theorem equiv_unique {q : List (Nat × Event K A)} (hs : q.Pairwise fun x y => x.2.lt y.2 = true)
    {x y : Nat × Event K A} (hx : x ∈ q) (hy : y ∈ q) (h : equiv x.2 y.2 = true) : x = y := by
  by_contra hne
  rw [equiv, Bool.and_eq_true, Bool.not_eq_true', Bool.not_eq_true'] at h
  have hsymm : q.Pairwise fun x y => x.2.lt y.2 = true ∨ y.2.lt x.2 = true := hs.imp Or.inl
  have : x.2.lt y.2 = true ∨ y.2.lt x.2 = true := by
    haveI : Std.Symm (fun x y : Nat × Event K A => x.2.lt y.2 = true ∨ y.2.lt x.2 = true) := ⟨fun _ _ h => h.symm⟩
    exact List.Pairwise.forall hsymm hx hy hne
  rcases this with h1 | h1
  · rw [h.1] at h1; cases h1
  · rw [h.2] at h1; cases h1

theorem equiv_self (a : Event K A) : equiv a a = true := by
  rw [equiv, C50_irreflexive]
  rfl

theorem mem_destroy (l : List (Nat × Event K A)) (loc : A → List Nat) (c : A) (id : Nat) :
    id ∈ (l.foldl destroy loc) c ↔
      id ∈ loc c ∧ ∀ x ∈ l, x.1 = id → ¬ (c = x.2.first ∨ c = x.2.second) := by
  induction l generalizing loc with
  | nil => simp
  | cons x l ih =>
    rw [List.foldl_cons, ih]
    by_cases hc : c = x.2.first ∨ c = x.2.second
    · simp only [destroy, if_pos hc, List.mem_filter, decide_eq_true_eq, List.mem_cons, forall_eq_or_imp]
      constructor
      · rintro ⟨⟨h1, h2⟩, h3⟩
        exact ⟨h1, fun h => absurd h.symm h2, h3⟩
      · rintro ⟨h1, h2, h3⟩
        exact ⟨⟨h1, fun h => h2 h.symm hc⟩, h3⟩
    · simp only [destroy, if_neg hc, List.mem_cons, forall_eq_or_imp]
      constructor
      · rintro ⟨h1, h3⟩
        exact ⟨h1, fun _ => hc, h3⟩
      · rintro ⟨h1, -, h3⟩
        exact ⟨h1, h3⟩

theorem nodup_destroy (l : List (Nat × Event K A)) (loc : A → List Nat) (c : A) (h : (loc c).Nodup) :
    ((l.foldl destroy loc) c).Nodup := by
  induction l generalizing loc with
  | nil => exact h
  | cons x l ih =>
    rw [List.foldl_cons]
    apply ih
    unfold destroy
    split_ifs
    · exact h.filter _
    · exact h

theorem mem_addLocal (loc : A → List Nat) (id : Nat) (e : Event K A) (c : A) (i : Nat) :
    i ∈ addLocal loc id e c ↔ i ∈ loc c ∨ (i = id ∧ (c = e.first ∨ c = e.second)) := by
  unfold addLocal
  dsimp only
  split_ifs with h1 h2 h2
  · rw [List.mem_append, List.mem_append, List.mem_singleton]
    tauto
  · rw [List.mem_append, List.mem_singleton]
    tauto
  · rw [List.mem_append, List.mem_singleton]
    tauto
  · tauto

theorem consistent_addEvent [Zero K] {s : EventList K A} (hs : Consistent s) (r : Request K A)
    (hr : r.collidable1 ≠ r.collidable2) : Consistent (addEvent s r) := by
  unfold addEvent
  split_ifs with h
  · exact hs
  · dsimp only
    split
    · exact hs
    · rename_i q hq
      have hp := insertSet_perm hq
      have hfresh : ∀ x ∈ s.queue, x.1 ≠ s.next := fun x hx => (hs.fresh x hx).ne
      refine ⟨insertSet_sorted hq hs.sorted, ?_, ?_, ?_, ?_, ?_⟩
      · dsimp only
        rw [(hp.map Prod.fst).nodup_iff, List.map_cons, List.nodup_cons]
        refine ⟨?_, hs.ids⟩
        rw [List.mem_map]
        rintro ⟨x, hx, hx'⟩
        exact hfresh x hx hx'
      · intro x hx
        rcases List.mem_cons.1 (hp.mem_iff.1 hx) with rfl | hx
        · exact Nat.lt_succ_self _
        · exact (hs.fresh x hx).trans (Nat.lt_succ_self _)
      · intro x hx
        rcases List.mem_cons.1 (hp.mem_iff.1 hx) with rfl | hx
        · exact hr.symm
        · exact hs.partners x hx
      · intro c
        have hn : s.next ∉ s.loc c := by
          intro hc
          obtain ⟨e, he, -⟩ := (hs.mem c _).1 hc
          exact hfresh _ he rfl
        have h1 : (s.loc c ++ [s.next]).Nodup := by
          rw [List.nodup_append]
          refine ⟨hs.once c, List.nodup_singleton _, ?_⟩
          intro a ha b hb hab
          rw [List.mem_singleton] at hb
          exact hn (hb ▸ hab ▸ ha)
        simp only [addLocal]
        split_ifs with h2 h3 h3
        · exact absurd (h3.symm.trans h2) hr.symm
        · exact h1
        · exact h1
        · exact hs.once c
      · intro c id
        dsimp only
        rw [mem_addLocal, hs.mem]
        constructor
        · rintro (⟨e, he, hc⟩ | ⟨rfl, hc⟩)
          · exact ⟨e, hp.mem_iff.2 (List.mem_cons_of_mem _ he), hc⟩
          · exact ⟨_, hp.mem_iff.2 List.mem_cons_self, hc⟩
        · rintro ⟨e, he, hc⟩
          rcases List.mem_cons.1 (hp.mem_iff.1 he) with h | h
          · rw [Prod.mk.injEq] at h
            obtain ⟨rfl, rfl⟩ := h
            exact Or.inr ⟨rfl, hc⟩
          · exact Or.inl ⟨e, h, hc⟩

theorem consistent_addEvents [Zero K] {s : EventList K A} (hs : Consistent s) (new : List (Request K A))
    (hr : ∀ r ∈ new, r.collidable1 ≠ r.collidable2) : Consistent (new.foldl addEvent s) := by
  induction new generalizing s with
  | nil => exact hs
  | cons r new ih =>
    exact ih (consistent_addEvent hs r (hr r List.mem_cons_self)) fun r' hr' => hr r' (List.mem_cons_of_mem _ hr')

theorem consistent_filter {s : EventList K A} (hs : Consistent s) (p : Nat × Event K A → Bool) :
    Consistent { s with queue := s.queue.filter fun y => !p y, loc := (s.queue.filter p).foldl destroy s.loc } := by
  refine ⟨hs.sorted.filter _, ?_, ?_, ?_, ?_, ?_⟩
  · exact (List.filter_sublist.map Prod.fst).nodup hs.ids
  · exact fun x hx => hs.fresh x (List.mem_of_mem_filter hx)
  · exact fun x hx => hs.partners x (List.mem_of_mem_filter hx)
  · exact fun c => nodup_destroy _ _ _ (hs.once c)
  · intro c id
    dsimp only
    rw [mem_destroy, hs.mem]
    constructor
    · rintro ⟨⟨e, he, hc⟩, h⟩
      refine ⟨e, ?_, hc⟩
      rw [List.mem_filter]
      refine ⟨he, ?_⟩
      rw [Bool.not_eq_true', ← Bool.not_eq_true]
      intro hp
      exact h (id, e) (List.mem_filter.2 ⟨he, hp⟩) rfl hc
    · rintro ⟨e, he, hc⟩
      rw [List.mem_filter] at he
      refine ⟨⟨e, he.1, hc⟩, ?_⟩
      intro x hx hid _
      rw [List.mem_filter] at hx
      have : x = (id, e) := unique_id hs.ids hx.1 he.1 hid
      rw [this] at hx
      rw [hx.2] at he
      exact absurd he.2 (by simp)

theorem consistent_clear {s : EventList K A} (hs : Consistent s) : Consistent (clear s) := by
  have h := consistent_filter hs (fun _ => true)
  have e1 : (s.queue.filter fun y => !(fun _ => true) y) = [] := by simp
  have e2 : (s.queue.filter fun _ => true) = s.queue := by simp
  rw [e1, e2] at h
  exact h

theorem consistent_deleteOne {s s' : EventList K A} (hs : Consistent s) (id : Nat) (h : deleteOne s id = .ok s') :
    Consistent s' := by
  unfold deleteOne at h
  split at h
  · cases h
  · rw [← Res.ok.inj h]
    exact consistent_filter hs _

theorem consistent_deleteOldEvents {s s' : EventList K A} (hs : Consistent s) (old : List Nat)
    (h : deleteOldEvents s old = .ok s') : Consistent s' := by
  induction old generalizing s with
  | nil => rw [← Res.ok.inj h]; exact hs
  | cons id old ih =>
    rw [deleteOldEvents, Res.foldlM_cons] at h
    cases h1 : deleteOne s id with
    | ok s1 =>
      rw [h1] at h
      exact ih (consistent_deleteOne hs id h1) h
    | throw => rw [h1] at h; cases h
    | ub => rw [h1] at h; cases h

/-- The partners of an operation's requests differ.  (`PredictCollision` returns no event for a sphere with itself and
for two walls.) -/
def Op.Proper : Op K A → Prop
  | .add r => r.collidable1 ≠ r.collidable2
  | .perform new => ∀ r ∈ new, r.collidable1 ≠ r.collidable2
  | .setBarrier _ new => ∀ r ∈ new, r.collidable1 ≠ r.collidable2
  | .clear => True

theorem consistent_step [Zero K] (isSphere : A → Bool) {s s' : EventList K A} (hs : Consistent s) (op : Op K A)
    (hop : op.Proper) (h : step isSphere s op = .ok s') : Consistent s' := by
  cases op with
  | add r => rw [← Res.ok.inj h]; exact consistent_addEvent hs r hop
  | clear => rw [← Res.ok.inj h]; exact consistent_clear hs
  | setBarrier b new =>
    rw [← Res.ok.inj h]
    refine consistent_addEvents ?_ new hop
    have := consistent_clear hs
    exact ⟨this.sorted, this.ids, this.fresh, this.partners, this.once, this.mem⟩
  | perform new =>
    simp only [step, performNextEvent] at h
    split at h
    · cases h
    · rename_i x xs hq
      cases h1 : eraseOldEvents isSphere s x.2 with
      | ok s1 =>
        rw [h1, Res.bind_ok'] at h
        rw [← Res.ok.inj h]
        exact consistent_addEvents (consistent_deleteOldEvents hs _ h1) new hop
      | throw => rw [h1] at h; cases h
      | ub => rw [h1] at h; cases h

/-- In every state reached without undefined behaviour the local lists hold exactly the queued events. -/
theorem C51_consistent [Zero K] (isSphere : A → Bool) (ops : List (Op K A)) (hops : ∀ op ∈ ops, op.Proper)
    (s : EventList K A) (h : Res.foldlM (step isSphere) EventList.initial ops = .ok s) : Consistent s := by
  have h0 : Consistent (EventList.initial : EventList K A) :=
    ⟨List.Pairwise.nil, List.nodup_nil, by simp [EventList.initial], by simp [EventList.initial],
      fun _ => List.nodup_nil, by simp [EventList.initial]⟩
  revert h
  generalize (EventList.initial : EventList K A) = s0 at h0
  intro h
  induction ops generalizing s0 with
  | nil => rw [← Res.ok.inj h]; exact h0
  | cons op ops ih =>
    rw [Res.foldlM_cons] at h
    cases h1 : step isSphere s0 op with
    | ok s1 =>
      rw [h1] at h
      exact ih (fun o ho => hops o (List.mem_cons_of_mem _ ho)) s1
        (consistent_step isSphere h0 op (hops op List.mem_cons_self) h1) h
    | throw => rw [h1] at h; cases h
    | ub => rw [h1] at h; cases h

/-- The queue holds no event twice, and its first event is an earliest one. -/
theorem C50_queue (s : EventList K A) (hs : Consistent s) :
    (s.queue.Pairwise fun x y => x.2.eq y.2 = false) ∧
    ∀ x xs, s.queue = x :: xs → ∀ y ∈ s.queue, x.2.time ≤ y.2.time := by
  constructor
  · refine hs.sorted.imp fun {x y} h => ?_
    rw [← Bool.not_eq_true, ← C50_equivalent]
    rintro ⟨h1, -⟩
    rw [h] at h1
    cases h1
  · intro x xs hq y hy
    rw [hq] at hy
    have h := hs.sorted
    rw [hq, List.pairwise_cons] at h
    rcases List.mem_cons.1 hy with rfl | hy
    · exact le_rfl
    · by_contra hlt
      have := C50_asymmetric _ _ (C50_time_first _ _ (not_le.1 hlt))
      rw [h.1 y hy] at this
      cases this

/-- Adding an event: what is queued afterwards is what was queued before and, if its time is in the window
`[0, barrier]`, the new event; the type of the event and the order of the partners do not matter. -/
theorem C50_add [Zero K] (s : EventList K A) (r : Request K A) (e : Event K A) :
    (∃ x ∈ (addEvent s r).queue, x.2.eq e = true) ↔
      (∃ x ∈ s.queue, x.2.eq e = true) ∨
      (0 ≤ r.time ∧ r.time ≤ s.barrier ∧ e.time = r.time ∧
        ((e.first = r.collidable1 ∧ e.second = r.collidable2) ∨
          (e.first = r.collidable2 ∧ e.second = r.collidable1))) := by
  have hnew : (⟨r.time, r.collidable2, r.collidable1, r.type⟩ : Event K A).eq e = true ↔
      e.time = r.time ∧ ((e.first = r.collidable1 ∧ e.second = r.collidable2) ∨
        (e.first = r.collidable2 ∧ e.second = r.collidable1)) := by
    rw [C50_equal]
    simp only [SamePartners]
    constructor
    · rintro ⟨h1, ⟨h2, h3⟩ | ⟨h2, h3⟩⟩
      · exact ⟨h1.symm, Or.inr ⟨h2.symm, h3.symm⟩⟩
      · exact ⟨h1.symm, Or.inl ⟨h3.symm, h2.symm⟩⟩
    · rintro ⟨h1, ⟨h2, h3⟩ | ⟨h2, h3⟩⟩
      · exact ⟨h1.symm, Or.inr ⟨h3.symm, h2.symm⟩⟩
      · exact ⟨h1.symm, Or.inl ⟨h2.symm, h3.symm⟩⟩
  unfold addEvent
  split_ifs with h
  · constructor
    · exact Or.inl
    · rintro (h1 | ⟨h1, h2, -⟩)
      · exact h1
      · rcases h with h | h
        · exact absurd h (not_lt.2 h1)
        · exact absurd h (not_lt.2 h2)
  · rw [not_or, not_lt, gt_iff_lt, not_lt] at h
    dsimp only
    split
    · rename_i hq
      constructor
      · exact Or.inl
      · rintro (h1 | ⟨-, -, h3⟩)
        · exact h1
        · obtain ⟨x, hx, hx'⟩ := insertSet_none hq
          refine ⟨x, hx, ?_⟩
          have h4 := (C50_equal _ _).1 hx'
          have h5 := (C50_equal _ _).1 (hnew.2 h3)
          rw [C50_equal]
          refine ⟨h4.1.trans h5.1, ?_⟩
          rcases h4.2 with ⟨a, b⟩ | ⟨a, b⟩ <;> rcases h5.2 with ⟨c, d⟩ | ⟨c, d⟩
          · exact Or.inl ⟨a.trans c, b.trans d⟩
          · exact Or.inr ⟨a.trans c, b.trans d⟩
          · exact Or.inr ⟨a.trans d, b.trans c⟩
          · exact Or.inl ⟨a.trans d, b.trans c⟩
    · rename_i q hq
      have hp := insertSet_perm hq
      constructor
      · rintro ⟨x, hx, hx'⟩
        rcases List.mem_cons.1 (hp.mem_iff.1 hx) with rfl | hx
        · exact Or.inr ⟨h.1, h.2, hnew.1 hx'⟩
        · exact Or.inl ⟨x, hx, hx'⟩
      · rintro (⟨x, hx, hx'⟩ | ⟨-, -, h3⟩)
        · exact ⟨x, hp.mem_iff.2 (List.mem_cons_of_mem _ hx), hx'⟩
        · exact ⟨_, hp.mem_iff.2 List.mem_cons_self, hnew.2 h3⟩

/-- the times of the queued events lie between zero and the barrier -/
def Timely [Zero K] (s : EventList K A) : Prop := ∀ x ∈ s.queue, 0 ≤ x.2.time ∧ x.2.time ≤ s.barrier

theorem timely_addEvent [Zero K] {s : EventList K A} (hs : Timely s) (r : Request K A) :
    Timely (addEvent s r) := by
  unfold addEvent
  split_ifs with h
  · exact hs
  · rw [not_or, not_lt, gt_iff_lt, not_lt] at h
    dsimp only
    split
    · exact hs
    · rename_i q hq
      intro x hx
      rcases List.mem_cons.1 ((insertSet_perm hq).mem_iff.1 hx) with rfl | hx
      · exact h
      · exact hs x hx

theorem timely_addEvents [Zero K] {s : EventList K A} (hs : Timely s) (new : List (Request K A)) :
    Timely (new.foldl addEvent s) := by
  induction new generalizing s with
  | nil => exact hs
  | cons r new ih => exact ih (timely_addEvent hs r)

theorem timely_deleteOldEvents [Zero K] {s s' : EventList K A} (hs : Timely s) (old : List Nat)
    (h : deleteOldEvents s old = .ok s') : Timely s' := by
  induction old generalizing s with
  | nil => rw [← Res.ok.inj h]; exact hs
  | cons id old ih =>
    rw [deleteOldEvents, Res.foldlM_cons] at h
    cases h1 : deleteOne s id with
    | ok s1 =>
      rw [h1] at h
      refine ih ?_ h
      unfold deleteOne at h1
      split at h1
      · cases h1
      · rw [← Res.ok.inj h1]
        exact fun x hx => hs x (List.mem_of_mem_filter hx)
    | throw => rw [h1] at h; cases h
    | ub => rw [h1] at h; cases h

/-- In every state reached without undefined behaviour every queued event lies between time zero and the barrier; so
does the time of the next event, if there is one. -/
theorem C50_barrier [Zero K] [One K] [Neg K] (isSphere : A → Bool) (ops : List (Op K A)) (s : EventList K A)
    (h : Res.foldlM (step isSphere) EventList.initial ops = .ok s) :
    (∀ x ∈ s.queue, 0 ≤ x.2.time ∧ x.2.time ≤ s.barrier) ∧
    (s.queue ≠ [] → 0 ≤ nextEventTime s ∧ nextEventTime s ≤ s.barrier) := by
  have key : Timely s := by
    have h0 : Timely (EventList.initial : EventList K A) := by
      intro x hx
      cases hx
    revert h
    generalize (EventList.initial : EventList K A) = s0 at h0
    intro h
    induction ops generalizing s0 with
    | nil => rw [← Res.ok.inj h]; exact h0
    | cons op ops ih =>
      rw [Res.foldlM_cons] at h
      cases h1 : step isSphere s0 op with
      | throw => rw [h1] at h; cases h
      | ub => rw [h1] at h; cases h
      | ok s1 =>
        rw [h1] at h
        refine ih s1 ?_ h
        cases op with
        | add r => rw [← Res.ok.inj h1]; exact timely_addEvent h0 r
        | clear => rw [← Res.ok.inj h1]; intro x hx; cases hx
        | setBarrier b new =>
          rw [← Res.ok.inj h1]
          refine timely_addEvents ?_ new
          intro x hx
          cases hx
        | perform new =>
          simp only [step, performNextEvent] at h1
          split at h1
          · cases h1
          · rename_i x xs hq
            cases h2 : eraseOldEvents isSphere s0 x.2 with
            | ok s2 =>
              rw [h2, Res.bind_ok'] at h1
              rw [← Res.ok.inj h1]
              exact timely_addEvents (timely_deleteOldEvents h0 _ h2) new
            | throw => rw [h2] at h1; cases h1
            | ub => rw [h2] at h1; cases h1
  refine ⟨key, fun hne => ?_⟩
  unfold nextEventTime
  cases hq : s.queue with
  | nil => exact absurd hq hne
  | cons x xs =>
    exact key x (by rw [hq]; exact List.mem_cons_self)

/-- Events at both ends of the window are kept, those outside are not. -/
example : (((([⟨0, 1, 2, 0⟩, ⟨5, 3, 4, 0⟩, ⟨6, 5, 6, 0⟩, ⟨-1, 5, 6, 0⟩] : List (Request ℤ ℕ)).foldl addEvent
    ⟨[], fun _ => [], 0, 5⟩).queue.map fun x => x.2.time)) = [0, 5] := by decide

/-- In every state reached without undefined behaviour: the next event time is negative if and only if no event is queued, and
otherwise it is the smallest time of a queued event. -/
theorem C50_next [Zero K] [One K] [Neg K] (h1 : (-1 : K) < 0) (isSphere : A → Bool) (ops : List (Op K A))
    (hops : ∀ op ∈ ops, op.Proper) (s : EventList K A) (h : Res.foldlM (step isSphere) EventList.initial ops = .ok s) :
    (nextEventTime s < 0 ↔ s.queue = []) ∧ (∀ x ∈ s.queue, nextEventTime s ≤ x.2.time) ∧
    (s.queue ≠ [] → ∃ x ∈ s.queue, nextEventTime s = x.2.time) := by
  have hb := (C50_barrier isSphere ops s h).2
  have hq := (C50_queue s (C51_consistent isSphere ops hops s h)).2
  unfold nextEventTime at hb ⊢
  cases hs : s.queue with
  | nil => simp [h1]
  | cons x xs =>
    rw [hs] at hb hq
    simp only [ne_eq, reduceCtorEq, not_false_eq_true, forall_true_left] at hb
    exact ⟨⟨fun hlt => absurd hlt (not_lt.2 hb.1), fun h => by cases h⟩, hq x xs rfl, fun _ => ⟨x, List.mem_cons_self, rfl⟩⟩

/-- The hypotheses of `C50_next`: two events between walls, then a new barrier. -/
example : ((-1 : ℤ) < 0) ∧ (∀ op ∈ ([.setBarrier 5 [⟨3, 1, 2, 0⟩, ⟨2, 3, 4, 0⟩]] : List (Op ℤ ℕ)), op.Proper) ∧
    ∃ s, Res.foldlM (step (fun _ => false)) (EventList.initial : EventList ℤ ℕ) [.setBarrier 5 [⟨3, 1, 2, 0⟩, ⟨2, 3, 4, 0⟩]] = .ok s ∧
      nextEventTime s = 2 := by
  refine ⟨by norm_num, by simp [Op.Proper], _, rfl, by decide⟩

/-! ### Which events can be performed -/

theorem find_id {s : EventList K A} (hs : Consistent s) {id : Nat} {e : Event K A} (h : (id, e) ∈ s.queue) :
    s.queue.find? (fun x => x.1 = id) = some (id, e) := by
  cases hf : s.queue.find? (fun x => x.1 = id) with
  | none =>
    rw [List.find?_eq_none] at hf
    exact absurd (by simp) (hf _ h)
  | some x =>
    have h1 := List.mem_of_find?_eq_some hf
    have h2 := List.find?_some hf
    simp only [decide_eq_true_eq] at h2
    rw [unique_id hs.ids h1 h h2]

/-- Deleting different live events is safe and removes exactly them. -/
theorem deleteOldEvents_safe {s : EventList K A} (hs : Consistent s) (old : List Nat) (hn : old.Nodup)
    (hlive : ∀ id ∈ old, ∃ e, (id, e) ∈ s.queue) :
    ∃ s', deleteOldEvents s old = .ok s' ∧ (∀ x, x ∈ s'.queue ↔ x ∈ s.queue ∧ x.1 ∉ old) ∧ s'.next = s.next ∧
      s'.barrier = s.barrier := by
  induction old generalizing s with
  | nil => exact ⟨s, rfl, by simp, rfl, rfl⟩
  | cons id old ih =>
    rw [List.nodup_cons] at hn
    obtain ⟨e, he⟩ := hlive id List.mem_cons_self
    have h1 : deleteOne s id = .ok { s with
        queue := s.queue.filter fun y => !equiv y.2 e
        loc := (s.queue.filter fun y => equiv y.2 e).foldl destroy s.loc } := by
      rw [deleteOne, find_id hs he]
    have hs1 := consistent_deleteOne hs id h1
    have hmem : ∀ x, x ∈ (s.queue.filter fun y => !equiv y.2 e) ↔ x ∈ s.queue ∧ x.1 ≠ id := by
      intro x
      rw [List.mem_filter]
      constructor
      · rintro ⟨hx, hx'⟩
        refine ⟨hx, fun hid => ?_⟩
        have : x = (id, e) := unique_id hs.ids hx he hid
        rw [this, equiv_self] at hx'
        cases hx'
      · rintro ⟨hx, hx'⟩
        refine ⟨hx, ?_⟩
        rw [Bool.not_eq_true', ← Bool.not_eq_true]
        intro hc
        exact hx' (congrArg Prod.fst (equiv_unique hs.sorted hx he hc))
    obtain ⟨s', h2, h3, h4, h5⟩ := ih hs1 hn.2 (by
      intro id' hid'
      obtain ⟨e', he'⟩ := hlive id' (List.mem_cons_of_mem _ hid')
      exact ⟨e', (hmem _).2 ⟨he', fun h => hn.1 (h ▸ hid')⟩⟩)
    refine ⟨s', ?_, ?_, h4, h5⟩
    · rw [deleteOldEvents, Res.foldlM_cons, h1]
      exact h2
    · intro x
      rw [h3 x, hmem]
      simp only [List.mem_cons, not_or]
      tauto

theorem deleteOldEvents_dead {s : EventList K A} (old : List Nat) (id : Nat) (hdead : ∀ e, (id, e) ∉ s.queue)
    (hid : id ∈ old) : deleteOldEvents s old = .ub := by
  induction old generalizing s with
  | nil => cases hid
  | cons i old ih =>
    rw [deleteOldEvents, Res.foldlM_cons]
    cases hf : s.queue.find? (fun x => x.1 = i) with
    | none =>
      have : deleteOne s i = .ub := by rw [deleteOne, hf]
      rw [this]
      rfl
    | some x =>
      rcases List.mem_cons.1 hid with rfl | hid
      · exfalso
        have h1 := List.mem_of_find?_eq_some hf
        have h2 := List.find?_some hf
        simp only [decide_eq_true_eq] at h2
        exact hdead x.2 (by rw [← h2]; exact h1)
      · have : deleteOne s i = .ok { s with
            queue := s.queue.filter fun y => !equiv y.2 x.2
            loc := (s.queue.filter fun y => equiv y.2 x.2).foldl destroy s.loc } := by rw [deleteOne, hf]
        rw [this, Res.bind_ok']
        exact ih (fun e he => hdead e (List.mem_of_mem_filter he)) hid

/-- Performing a collision of a sphere with a wall accesses live events only; afterwards no old event of the sphere
is queued, and all events without that sphere still are. -/
theorem C51_wall_event [Zero K] (isSphere : A → Bool) (s : EventList K A) (hs : Consistent s) (x : Nat × Event K A)
    (xs : List (Nat × Event K A)) (hq : s.queue = x :: xs) (sphere wall : A)
    (hx : (x.2.first = sphere ∧ x.2.second = wall) ∨ (x.2.first = wall ∧ x.2.second = sphere))
    (h1 : isSphere sphere = true) (h2 : isSphere wall = false) (new : List (Request K A)) :
    ∃ s', eraseOldEvents isSphere s x.2 = .ok s' ∧
      (∀ y, y ∈ s'.queue ↔ y ∈ s.queue ∧ y.2.first ≠ sphere ∧ y.2.second ≠ sphere) ∧
      performNextEvent isSphere s new = .ok (new.foldl addEvent s') := by
  have hdel : eraseOldEvents isSphere s x.2 = deleteOldEvents s (s.loc sphere) := by
    rcases hx with ⟨ha, hb⟩ | ⟨ha, hb⟩
    · rw [eraseOldEvents, ha, hb, localEventsToDelete, localEventsToDelete, if_pos h1, if_neg (by rw [h2]; simp),
        List.append_nil]
    · rw [eraseOldEvents, ha, hb, localEventsToDelete, localEventsToDelete, if_pos h1, if_neg (by rw [h2]; simp),
        List.nil_append]
  obtain ⟨s', hs', hm, -, -⟩ := deleteOldEvents_safe hs (s.loc sphere) (hs.once sphere) (by
    intro id hid
    obtain ⟨e, he, -⟩ := (hs.mem _ _).1 hid
    exact ⟨e, he⟩)
  refine ⟨s', hdel.trans hs', ?_, ?_⟩
  · intro y
    rw [hm]
    refine and_congr_right fun hy => ?_
    rw [hs.mem]
    constructor
    · intro h
      refine ⟨fun hf => h ⟨y.2, hy, Or.inl hf.symm⟩, fun hf => h ⟨y.2, hy, Or.inr hf.symm⟩⟩
    · rintro ⟨h3, h4⟩ ⟨e, he, hc⟩
      have : y = (y.1, e) := unique_id hs.ids hy he rfl
      rw [this] at h3 h4
      rcases hc with hc | hc
      · exact h3 hc.symm
      · exact h4 hc.symm
  · rw [performNextEvent, hq]
    dsimp only
    rw [hdel, hs']
    rfl

/-- Performing a collision of two spheres always accesses a destroyed event: it is in the local lists of both and
therefore twice in the list of events to delete. -/
theorem C51_sphere_event_counterexample [Zero K] (isSphere : A → Bool) (s : EventList K A) (hs : Consistent s)
    (x : Nat × Event K A) (xs : List (Nat × Event K A)) (hq : s.queue = x :: xs)
    (h1 : isSphere x.2.first = true) (h2 : isSphere x.2.second = true) (new : List (Request K A)) :
    performNextEvent isSphere s new = .ub := by
  have hx : x ∈ s.queue := by rw [hq]; exact List.mem_cons_self
  have m1 : x.1 ∈ s.loc x.2.first := (hs.mem _ _).2 ⟨x.2, hx, Or.inl rfl⟩
  have m2 : x.1 ∈ s.loc x.2.second := (hs.mem _ _).2 ⟨x.2, hx, Or.inr rfl⟩
  have : eraseOldEvents isSphere s x.2 = .ub := by
    rw [eraseOldEvents, localEventsToDelete, localEventsToDelete, if_pos h1, if_pos h2]
    obtain ⟨s', hs', hm, -, -⟩ := deleteOldEvents_safe hs (s.loc x.2.first) (hs.once _) (by
      intro id hid
      obtain ⟨e, he, -⟩ := (hs.mem _ _).1 hid
      exact ⟨e, he⟩)
    have hsplit : deleteOldEvents s (s.loc x.2.first ++ s.loc x.2.second) =
        (deleteOldEvents s (s.loc x.2.first)).bind fun s1 => deleteOldEvents s1 (s.loc x.2.second) := by
      unfold deleteOldEvents
      generalize s.loc x.2.first = l1
      generalize s.loc x.2.second = l2
      clear hs hq hx m1 m2 hs' hm
      induction l1 generalizing s with
      | nil => rfl
      | cons a l1 ih =>
        rw [List.cons_append, Res.foldlM_cons, Res.foldlM_cons]
        cases deleteOne s a with
        | ok s1 => exact ih s1
        | throw => rfl
        | ub => rfl
    rw [hsplit, hs', Res.bind_ok']
    refine deleteOldEvents_dead _ x.1 (fun e he => ?_) m2
    exact ((hm _).1 he).2 m1
  rw [performNextEvent, hq]
  dsimp only
  rw [this]
  rfl

/-- So whatever was done before, no sphere-sphere event can be performed without undefined behaviour. -/
theorem C51_reachable_counterexample : Res.foldlM (step (fun _ => true)) (EventList.initial : EventList ℤ ℕ)
    [.setBarrier 10 [⟨1, 0, 1, 0⟩], .perform []] = .ub := rfl

/-- The queue may be empty when the next event is asked for: `CollisionHandler::Simulate`
(`CollisionHandler.cpp:90-125`) performs an event after resetting the barrier without looking again. -/
theorem C51_empty_counterexample : Res.foldlM (step (fun _ => true)) (EventList.initial : EventList ℤ ℕ)
    [.setBarrier 10 [], .perform []] = .ub := rfl

example : ∃ s, Res.foldlM (step (fun c : ℕ => decide (c < 2))) (EventList.initial : EventList ℤ ℕ)
    [.setBarrier 10 [⟨3, 0, 1, 0⟩, ⟨1, 0, 2, 1⟩, ⟨3, 1, 0, 0⟩], .perform [⟨4, 0, 1, 0⟩]] = .ok s ∧
    s.queue = [(2, ⟨4, 1, 0, 0⟩)] ∧ s.loc 0 = [2] := ⟨_, rfl, by decide, by decide⟩

end NuTo.Collision
