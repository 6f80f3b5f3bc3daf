import Verif.Model.Ownership
import Mathlib.Data.List.Nodup
import Mathlib.Data.List.Perm.Lattice
import Mathlib.Data.List.Range
import Mathlib.Tactic.Linarith
import Mathlib.Tactic.Ring

/-!
C111: the generator of concrete geometries accesses only objects that exist, releases none twice, and in the end all.
-/

namespace NuTo.Ownership

/-- No object exists twice and only created objects exist. -/
def Good (h : Heap) : Prop := h.live.Nodup ∧ ∀ a ∈ h.live, a < h.next

theorem touch_ok {α : Type} {h : Heap} {l : List Nat} (hl : ∀ a ∈ l, a ∈ h.live) (r : Res α) : h.touch l r = r := if_pos hl

theorem good_news {h : Heap} (hg : Good h) (n : Nat) : Good (h.news n).2 := by
  refine ⟨List.nodup_append.2 ⟨List.nodup_range', hg.1, ?_⟩, ?_⟩
  · intro a ha b hb hab
    rw [List.mem_range'_1] at ha
    have := hg.2 b hb
    omega
  · intro a ha
    show a < h.next + n
    rcases List.mem_append.1 ha with ha | ha
    · rw [List.mem_range'_1] at ha; omega
    · have := hg.2 a ha; omega

/-- Releasing different objects that exist works and leaves all others. -/
theorem frees_ok (l : List Nat) (h : Heap) (hg : Good h) (hl : l.Nodup) (hs : ∀ a ∈ l, a ∈ h.live) :
    ∃ h', h.frees l = .ok h' ∧ Good h' ∧ h'.next = h.next ∧ (∀ a, a ∈ h'.live ↔ a ∈ h.live ∧ a ∉ l) ∧
      h'.live.length + l.length = h.live.length := by
  induction l generalizing h with
  | nil => exact ⟨h, rfl, hg, rfl, fun a => by simp, rfl⟩
  | cons x l ih =>
    have hx : x ∈ h.live := hs x List.mem_cons_self
    have hfree : h.free x = .ok { h with live := h.live.erase x } := if_pos hx
    have hg1 : Good { h with live := h.live.erase x } :=
      ⟨hg.1.erase x, fun a ha => hg.2 a (List.mem_of_mem_erase ha)⟩
    obtain ⟨h', h1, h2, h3, h4, h5⟩ := ih { h with live := h.live.erase x } hg1 (List.nodup_cons.1 hl).2 (by
      intro a ha
      have : a ≠ x := fun e => (List.nodup_cons.1 hl).1 (e ▸ ha)
      exact (List.mem_erase_of_ne this).2 (hs a (List.mem_cons_of_mem _ ha)))
    refine ⟨h', ?_, h2, h3, ?_, ?_⟩
    · show Res.foldlM Heap.free h (x :: l) = _
      rw [Res.foldlM_cons, hfree]
      exact h1
    · intro a
      rw [h4, hg.1.mem_erase_iff, List.mem_cons]
      tauto
    · have h6 : (h.live.erase x).length = h.live.length - 1 := List.length_erase_of_mem hx
      have h7 : 0 < h.live.length := List.length_pos_of_mem hx
      have h8 : h'.live.length + l.length = (h.live.erase x).length := h5
      rw [List.length_cons]
      omega

/-- Releasing an object that does not exist, or an object twice, is undefined. -/
theorem frees_ub (l : List Nat) (h : Heap) (hn : ¬ (∀ a ∈ l, a ∈ h.live)) : h.frees l = .ub := by
  induction l generalizing h with
  | nil => exact absurd (by simp) hn
  | cons x l ih =>
    show Res.foldlM Heap.free h (x :: l) = _
    rw [Res.foldlM_cons]
    by_cases hx : x ∈ h.live
    · rw [show h.free x = .ok { h with live := h.live.erase x } from if_pos hx, Res.bind_ok']
      refine ih _ fun hall => hn ?_
      intro a ha
      rcases List.mem_cons.1 ha with rfl | ha
      · exact hx
      · exact List.mem_of_mem_erase (hall a ha)
    · rw [show h.free x = .ub from if_neg hx]
      rfl

/-- `h'` has all objects of `h` and `k` more. -/
def Ext (h h' : Heap) (k : Nat) : Prop :=
  Good h' ∧ h.next ≤ h'.next ∧ (∀ a ∈ h.live, a ∈ h'.live) ∧ h'.live.length = h.live.length + k

theorem Ext.trans {h h' h'' : Heap} {k l : Nat} (a : Ext h h' k) (b : Ext h' h'' l) : Ext h h'' (k + l) :=
  ⟨b.1, a.2.1.trans b.2.1, fun x hx => b.2.2.1 x (a.2.2.1 x hx), by rw [b.2.2.2, a.2.2.2, Nat.add_assoc]⟩

theorem ext_news {h : Heap} (hg : Good h) (n : Nat) : Ext h (h.news n).2 n :=
  ⟨good_news hg n, Nat.le_add_right _ _, fun _ ha => List.mem_append_right _ ha, by
    show (List.range' h.next n ++ h.live).length = _
    rw [List.length_append, List.length_range', Nat.add_comm]⟩

/-- `walls` are different objects of `h'` that `h` had not created. -/
def Fresh (h h' : Heap) (walls : List Nat) : Prop := walls.Nodup ∧ ∀ a ∈ walls, a ∈ h'.live ∧ h.next ≤ a

theorem fresh_news {h : Heap} (n : Nat) : Fresh h (h.news n).2 (h.news n).1 :=
  ⟨List.nodup_range', fun a ha => ⟨List.mem_append_left _ ha, (List.mem_range'_1.1 ha).1⟩⟩

theorem Fresh.append {h h1 h2 : Heap} {v w : List Nat} (a : Fresh h h1 v) (hg : Good h1) {k : Nat} (e : Ext h1 h2 k)
    (hle : h.next ≤ h1.next) (b : Fresh h1 h2 w) : Fresh h h2 (v ++ w) := by
  refine ⟨List.nodup_append.2 ⟨a.1, b.1, ?_⟩, ?_⟩
  · intro x hx y hy hxy
    have h3 := hg.2 x (a.2 x hx).1
    have h4 := (b.2 y hy).2
    omega
  · intro x hx
    rcases List.mem_append.1 hx with hx | hx
    · exact ⟨e.2.2.1 x (a.2 x hx).1, (a.2 x hx).2⟩
    · exact ⟨(b.2 x hx).1, hle.trans (b.2 x hx).2⟩

theorem build_ok (ps : List BoxPlan) (h : Heap) (hg : Good h) :
    Ext h (buildSubBoxes ps h).2 (buildSubBoxes ps h).1.flatten.length ∧
    Fresh h (buildSubBoxes ps h).2 (buildSubBoxes ps h).1.flatten ∧ (buildSubBoxes ps h).1.length = ps.length := by
  induction ps generalizing h with
  | nil => exact ⟨⟨hg, le_refl _, fun _ ha => ha, rfl⟩, ⟨List.nodup_nil, fun a ha => absurd ha List.not_mem_nil⟩, rfl⟩
  | cons p ps ih =>
    obtain ⟨h1, h2, h3⟩ := ih (h.news p.sides.length).2 (good_news hg _)
    have e0 := ext_news hg p.sides.length
    have hlen : (h.news p.sides.length).1.length = p.sides.length := List.length_range'
    refine ⟨?_, ?_, ?_⟩
    · have := e0.trans h1
      simp only [buildSubBoxes, List.flatten_cons, List.length_append, hlen]
      exact this
    · exact (fresh_news _).append e0.1 h1 e0.2.1 h2
    · simp only [buildSubBoxes, List.length_cons, h3]

/-- `addCylinders` keeps the walls of the boxes and adds new ones. -/
theorem add_ok (xs : List (BoxPlan × List Nat)) (h0 h : Heap) (hle : h0.next ≤ h.next) (hg : Good h)
    (hf : Fresh h0 h (xs.map Prod.snd).flatten) :
    ∃ k, Ext h (addCylinders xs h).2 k ∧ Fresh h0 (addCylinders xs h).2 (addCylinders xs h).1.flatten ∧
      (addCylinders xs h).1.flatten.length = (xs.map Prod.snd).flatten.length + k ∧
      (∀ a ∈ (addCylinders xs h).1.flatten, a ∈ (xs.map Prod.snd).flatten ∨ h.next ≤ a) ∧
      (addCylinders xs h).1.length = xs.length := by
  induction xs generalizing h with
  | nil => exact ⟨0, ⟨hg, le_refl _, fun _ ha => ha, rfl⟩, hf, rfl, fun a ha => Or.inl ha, rfl⟩
  | cons x xs ih =>
    have hf' := hf
    simp only [List.map_cons, List.flatten_cons] at hf
    have hnd := List.nodup_append.1 hf.1
    by_cases hc : x.1.cylinder
    · have e0 := ext_news hg 1
      obtain ⟨k, h1, h2, h3, h4, h5⟩ := ih (h.news 1).2 (hle.trans e0.2.1) e0.1
        ⟨hnd.2.1, fun a ha => ⟨e0.2.2.1 a (hf.2 a (List.mem_append_right _ ha)).1,
          (hf.2 a (List.mem_append_right _ ha)).2⟩⟩
      have hne : (h.news 1).1 = [h.next] := rfl
      have hval : addCylinders (x :: xs) h = ((x.2 ++ (h.news 1).1) :: (addCylinders xs (h.news 1).2).1,
          (addCylinders xs (h.news 1).2).2) := by rw [addCylinders, if_pos hc]
      rw [hval]
      refine ⟨1 + k, e0.trans h1, ⟨?_, ?_⟩, ?_, ?_, ?_⟩
      · rw [List.flatten_cons, List.nodup_append]
        refine ⟨List.nodup_append.2 ⟨hnd.1, by rw [hne]; exact List.nodup_singleton _, ?_⟩, h2.1, ?_⟩
        · intro a ha b hb hab
          rw [hne, List.mem_singleton] at hb
          have := hg.2 a (hf.2 a (List.mem_append_left _ ha)).1
          omega
        · intro a ha b hb hab
          subst hab
          rcases List.mem_append.1 ha with ha | ha
          · rcases h4 a hb with h6 | h6
            · exact hnd.2.2 a ha a h6 rfl
            · have h7 := hg.2 a (hf.2 a (List.mem_append_left _ ha)).1
              have h8 : h.next + 1 ≤ a := h6
              omega
          · rw [hne, List.mem_singleton] at ha
            rcases h4 a hb with h6 | h6
            · have h7 := hg.2 a (hf.2 a (List.mem_append_right _ h6)).1
              omega
            · have h8 : h.next + 1 ≤ a := h6
              omega
      · intro a ha
        rw [List.flatten_cons] at ha
        rcases List.mem_append.1 ha with ha | ha
        · rcases List.mem_append.1 ha with ha | ha
          · exact ⟨h1.2.2.1 a (e0.2.2.1 a (hf.2 a (List.mem_append_left _ ha)).1),
              (hf.2 a (List.mem_append_left _ ha)).2⟩
          · refine ⟨h1.2.2.1 a (List.mem_append_left _ ha), ?_⟩
            rw [hne, List.mem_singleton] at ha
            omega
        · exact h2.2 a ha
      · simp only [List.flatten_cons, List.length_append, List.map_cons, h3, hne, List.length_singleton]
        omega
      · intro a ha
        rw [List.flatten_cons] at ha
        simp only [List.map_cons, List.flatten_cons]
        rcases List.mem_append.1 ha with ha | ha
        · rcases List.mem_append.1 ha with ha | ha
          · exact Or.inl (List.mem_append_left _ ha)
          · rw [hne, List.mem_singleton] at ha
            exact Or.inr (by omega)
        · rcases h4 a ha with h6 | h6
          · exact Or.inl (List.mem_append_right _ h6)
          · have h8 : h.next + 1 ≤ a := h6
            exact Or.inr (by omega)
      · simp only [List.length_cons, h5]
    · obtain ⟨k, h1, h2, h3, h4, h5⟩ := ih h hle hg
        ⟨hnd.2.1, fun a ha => hf.2 a (List.mem_append_right _ ha)⟩
      have hval : addCylinders (x :: xs) h = (x.2 :: (addCylinders xs h).1, (addCylinders xs h).2) := by
        rw [addCylinders, if_neg hc]
      rw [hval]
      refine ⟨k, h1, ⟨?_, ?_⟩, ?_, ?_, ?_⟩
      · rw [List.flatten_cons, List.nodup_append]
        refine ⟨hnd.1, h2.1, ?_⟩
        intro a ha b hb hab
        subst hab
        rcases h4 a hb with h6 | h6
        · exact hnd.2.2 a ha a h6 rfl
        · have h7 := hg.2 a (hf.2 a (List.mem_append_left _ ha)).1
          omega
      · intro a ha
        rw [List.flatten_cons] at ha
        rcases List.mem_append.1 ha with ha | ha
        · exact ⟨h1.2.2.1 a (hf.2 a (List.mem_append_left _ ha)).1, (hf.2 a (List.mem_append_left _ ha)).2⟩
        · exact h2.2 a ha
      · simp only [List.flatten_cons, List.length_append, List.map_cons, h3]
        omega
      · intro a ha
        rw [List.flatten_cons] at ha
        simp only [List.map_cons, List.flatten_cons]
        rcases List.mem_append.1 ha with ha | ha
        · exact Or.inl (List.mem_append_left _ ha)
        · rcases h4 a ha with h6 | h6
          · exact Or.inl (List.mem_append_right _ h6)
          · exact Or.inr h6
      · simp only [List.length_cons, h5]

theorem toDelete_sublist (p : BoxPlan) (w : List Nat) : (toDelete p w).Sublist w := by
  obtain ⟨s⟩ := p
  induction w generalizing s with
  | nil => exact List.Sublist.slnil
  | cons a w ih =>
    cases s with
    | nil => simp [toDelete]
    | cons b s =>
      have := ih s
      cases b with
      | false => simpa [toDelete] using this.trans (List.sublist_cons_self a w)
      | true => simpa [toDelete] using this

/-- `removeSides` releases what it takes from the boxes. -/
theorem remove_ok (xs : List (BoxPlan × List Nat)) (h : Heap) (hg : Good h) (hn : (xs.map Prod.snd).flatten.Nodup)
    (hs : ∀ a ∈ (xs.map Prod.snd).flatten, a ∈ h.live) :
    ∃ r, removeSides h xs = .ok r ∧ Good r.2 ∧ r.2.next = h.next ∧ r.1.flatten.Sublist (xs.map Prod.snd).flatten ∧
      (∀ a ∈ h.live, a ∉ (xs.map Prod.snd).flatten → a ∈ r.2.live) ∧ (∀ a ∈ r.1.flatten, a ∈ r.2.live) ∧
      r.2.live.length + (xs.map Prod.snd).flatten.length = h.live.length + r.1.flatten.length := by
  induction xs generalizing h with
  | nil => exact ⟨([], h), rfl, hg, rfl, List.Sublist.slnil, fun a ha _ => ha, fun a ha => absurd ha List.not_mem_nil, rfl⟩
  | cons x xs ih =>
    simp only [List.map_cons, List.flatten_cons] at hn hs ⊢
    have hnd := List.nodup_append.1 hn
    have hsub := toDelete_sublist x.1 x.2
    obtain ⟨h', f1, f2, f3, f4, f5⟩ := frees_ok (toDelete x.1 x.2) h hg (hnd.1.sublist hsub)
      (fun a ha => hs a (List.mem_append_left _ (hsub.subset ha)))
    obtain ⟨r, r1, r2, r3, r4, r5, r6, r7⟩ := ih h' f2 hnd.2.1 (fun a ha => (f4 a).2
      ⟨hs a (List.mem_append_right _ ha), fun hd => hnd.2.2 a (hsub.subset hd) a ha rfl⟩)
    refine ⟨((x.2.filter fun a => a ∉ toDelete x.1 x.2) :: r.1, r.2), ?_, r2, r3.trans f3, ?_, ?_, ?_, ?_⟩
    · rw [removeSides, f1, Res.bind_ok', r1, Res.bind_ok']
    · simp only [List.flatten_cons]
      exact List.Sublist.append List.filter_sublist r4
    · intro a ha hna
      rw [List.mem_append, not_or] at hna
      exact r5 a ((f4 a).2 ⟨ha, fun hd => hna.1 (hsub.subset hd)⟩) hna.2
    · intro a ha
      simp only [List.flatten_cons] at ha
      rcases List.mem_append.1 ha with ha | ha
      · rw [List.mem_filter, decide_eq_true_eq] at ha
        exact r5 a ((f4 a).2 ⟨hs a (List.mem_append_left _ ha.1), ha.2⟩) fun hx => hnd.2.2 a ha.1 a hx rfl
      · exact r6 a ha
    · have hp : (x.2.filter fun a => a ∉ toDelete x.1 x.2).length + (toDelete x.1 x.2).length = x.2.length := by
        rw [← List.length_append]
        refine List.Perm.length_eq ((List.perm_ext_iff_of_nodup ?_ hnd.1).2 ?_)
        · refine List.nodup_append.2 ⟨hnd.1.filter _, hnd.1.sublist hsub, ?_⟩
          intro a ha b hb hab
          rw [List.mem_filter, decide_eq_true_eq] at ha
          exact ha.2 (hab ▸ hb)
        · intro a
          rw [List.mem_append, List.mem_filter, decide_eq_true_eq]
          constructor
          · rintro (h1 | h1)
            · exact h1.1
            · exact hsub.subset h1
          · intro h1
            by_cases h2 : a ∈ toDelete x.1 x.2
            · exact Or.inr h2
            · exact Or.inl ⟨h1, h2⟩
      simp only [List.flatten_cons, List.length_append]
      omega

/-- Destroying the boxes gives back their walls. -/
theorem boxes_ok {h h' : Heap} {k : Nat} {boxes : List (List Nat)} (hg : Good h) (he : Ext h h' (boxes.flatten.length + k))
    (hf : Fresh h h' boxes.flatten) : ∃ h'', deleteBoxes h' boxes = .ok h'' ∧ Ext h h'' k ∧
      ∀ a, a ∈ h''.live ↔ a ∈ h'.live ∧ a ∉ boxes.flatten := by
  obtain ⟨h'', f1, f2, f3, f4, f5⟩ := frees_ok boxes.flatten h' he.1 hf.1 fun a ha => (hf.2 a ha).1
  refine ⟨h'', f1, ⟨f2, by rw [f3]; exact he.2.1, ?_, ?_⟩, f4⟩
  · intro a ha
    refine (f4 a).2 ⟨he.2.2.1 a ha, fun hb => ?_⟩
    have := (hf.2 a hb).2
    have := hg.2 a ha
    omega
  · have := he.2.2.2
    omega

/-- The constructor of the sub boxes creates the walls of the boxes and, in a cylinder, one wall more. -/
theorem subBoxes_ok (m : Simulation) (cyl : Bool) (h : Heap) (hg : Good h) :
    ∃ r, newSubBoxes m cyl h = .ok r ∧ match r.1 with
      | none => m.fits = false ∧ Ext h r.2 cyl.toNat
      | some boxes => m.fits = true ∧ Ext h r.2 (boxes.flatten.length + cyl.toNat) ∧ Fresh h r.2 boxes.flatten := by
  cases cyl with
  | false =>
    obtain ⟨b1, b2, -⟩ := build_ok m.plans h hg
    cases hf : m.fits with
    | true =>
      exact ⟨(some (buildSubBoxes m.plans h).1, (buildSubBoxes m.plans h).2), by simp [newSubBoxes, hf],
        rfl, b1, b2⟩
    | false =>
      obtain ⟨h'', d1, d2, -⟩ := boxes_ok (k := 0) hg b1 b2
      exact ⟨(none, h''), by simp [newSubBoxes, hf, d1], rfl, d2⟩
  | true =>
    have e0 := ext_news hg 1
    obtain ⟨b1, b2, b3⟩ := build_ok m.plans (h.news 1).2 e0.1
    have e1 := e0.trans b1
    have hf1 : Fresh h (buildSubBoxes m.plans (h.news 1).2).2 (buildSubBoxes m.plans (h.news 1).2).1.flatten :=
      ⟨b2.1, fun a ha => ⟨(b2.2 a ha).1, e0.2.1.trans (b2.2 a ha).2⟩⟩
    cases hf : m.fits with
    | false =>
      obtain ⟨h'', d1, d2, -⟩ := boxes_ok (k := 1) hg (by rw [Nat.add_comm]; exact e1) hf1
      exact ⟨(none, h''), by simp [newSubBoxes, hf, d1], rfl, d2⟩
    | true =>
      have hz : ((m.plans.zip (buildSubBoxes m.plans (h.news 1).2).1).map Prod.snd)
          = (buildSubBoxes m.plans (h.news 1).2).1 := List.map_snd_zip (by rw [b3])
      obtain ⟨k, a1, a2, a3, a4, a5⟩ := add_ok (m.plans.zip (buildSubBoxes m.plans (h.news 1).2).1) (h.news 1).2
        (buildSubBoxes m.plans (h.news 1).2).2 b1.2.1 b1.1 (by rw [hz]; exact b2)
      rw [hz] at a3
      have hz2 : ((m.plans.zip (addCylinders (m.plans.zip (buildSubBoxes m.plans (h.news 1).2).1)
          (buildSubBoxes m.plans (h.news 1).2).2).1).map Prod.snd)
          = (addCylinders (m.plans.zip (buildSubBoxes m.plans (h.news 1).2).1)
          (buildSubBoxes m.plans (h.news 1).2).2).1 := by
        refine List.map_snd_zip ?_
        rw [a5, List.length_zip, b3, Nat.min_self]
      obtain ⟨r, r1, r2, r3, r4, r5, r6, r7⟩ := remove_ok (m.plans.zip (addCylinders
        (m.plans.zip (buildSubBoxes m.plans (h.news 1).2).1) (buildSubBoxes m.plans (h.news 1).2).2).1) _ a1.1
        (by rw [hz2]; exact a2.1) (by rw [hz2]; exact fun a ha => (a2.2 a ha).1)
      rw [hz2] at r4 r5 r7
      have e2 := e1.trans a1
      refine ⟨(some r.1, r.2), ?_, rfl, ⟨r2, ?_, ?_, ?_⟩, a2.1.sublist r4, ?_⟩
      · simp only [newSubBoxes, hf, if_true, r1, Res.bind_ok']
      · show h.next ≤ r.2.next
        rw [r3]
        exact e2.2.1
      · intro a ha
        refine r5 a (e2.2.2.1 a ha) fun hb => ?_
        have h3 := (a2.2 a hb).2
        have h4 := hg.2 a ha
        have h5 := e0.2.1
        omega
      · have := e2.2.2.2
        show r.2.live.length = h.live.length + (r.1.flatten.length + 1)
        omega
      · intro a ha
        exact ⟨r6 a ha, e0.2.1.trans (a2.2 a (r4.subset ha)).2⟩

/-- The specimen and the particles of the generator exist and are different objects. -/
def Inv (s : State) : Prop := Good s.heap ∧ s.used.Nodup ∧ ∀ a ∈ s.used, a ∈ s.heap.live

/-- The number of objects in a particle handler -/
def handlerSize : Option (Nat × List Nat) → Nat
  | none => 0
  | some p => 1 + p.2.length

/-- The objects that a call creates or gives up without a later release: the previous specimen when `SetSpecimenCylinder` sets
another one, the previous particles when particles are set or created, and a wall of each simulation in a cylinder -/
def lost (s : State) : Call → Nat
  | .setSpecimenCylinder => if s.specimen.isSome then 1 else 0
  | .setParticles _ => handlerSize s.handler
  | .maximizeVolume m => if s.ready s.relativeRate && m.spheres.isSome then
      handlerSize s.handler + (match s.specimen with | some (_, true) => 1 | _ => 0) else 0
  | .maximizeDistance m => if s.ready s.absoluteRate && m.spheres.isSome then
      handlerSize s.handler + (match s.specimen with | some (_, true) => 1 | _ => 0) else 0
  | _ => 0

/-- No event is left when `MaximizeParticleDistance` releases the particles, and `ExportGmshGeo…` has a specimen. -/
def Fine (s : State) : Call → Prop
  | .exportGmsh _ => s.handler.isSome → s.specimen.isSome
  | .maximizeDistance m => s.ready s.absoluteRate → ∀ s' boxes events,
      simulate s m = .ok (s', some (boxes, events)) → events = []
  | _ => True

theorem used_length (s : State) : s.used.length = (if s.specimen.isSome then 1 else 0) + handlerSize s.handler := by
  obtain ⟨h, sp, hd⟩ := s
  cases sp <;> cases hd <;> simp [State.used, handlerSize] <;> omega

theorem handler_ok {h : Heap} (hg : Good h) (n : Nat) :
    Ext h (newHandler h n).2 (1 + n) ∧ Fresh h (newHandler h n).2 ((newHandler h n).1.1 :: (newHandler h n).1.2) ∧
    (newHandler h n).1.2.length = n := by
  have e0 := ext_news hg 1
  have e1 := ext_news e0.1 n
  refine ⟨e0.trans e1, ?_, List.length_range'⟩
  exact (fresh_news (h := h) 1).append e0.1 e1 e0.2.1 (fresh_news n)

theorem deleteHandler_ok {h : Heap} {p : Nat × List Nat} (hg : Good h) (hn : (p.1 :: p.2).Nodup)
    (hs : ∀ a ∈ p.1 :: p.2, a ∈ h.live) : ∃ h', deleteHandler h p = .ok h' ∧ Good h' ∧ h'.next = h.next ∧
      (∀ a, a ∈ h'.live ↔ a ∈ h.live ∧ a ∉ p.1 :: p.2) ∧ h'.live.length + (1 + p.2.length) = h.live.length := by
  obtain ⟨h1, f1, f2, f3, f4, f5⟩ := frees_ok p.2 h hg (List.nodup_cons.1 hn).2
    (fun a ha => hs a (List.mem_cons_of_mem _ ha))
  have hp : p.1 ∈ h1.live := (f4 _).2 ⟨hs _ List.mem_cons_self, (List.nodup_cons.1 hn).1⟩
  obtain ⟨h2, g1, g2, g3, g4, g5⟩ := frees_ok [p.1] h1 f2 (List.nodup_singleton _)
    (fun a ha => by rw [List.mem_singleton.1 ha]; exact hp)
  refine ⟨h2, ?_, g2, g3.trans f3, ?_, ?_⟩
  · rw [deleteHandler, Res.require, if_pos (hs _ List.mem_cons_self), f1, Res.bind_ok']
    have : h1.frees [p.1] = (h1.free p.1).bind fun x => .ok x := rfl
    rw [this] at g1
    cases hx : h1.free p.1 with
    | ok x => rw [hx] at g1; exact g1
    | throw => rw [hx] at g1; cases g1
    | ub => rw [hx] at g1; cases g1
  · intro a
    rw [g4, f4, List.mem_singleton, List.mem_cons]
    tauto
  · rw [List.length_singleton] at g5
    omega

theorem deleteSpecimen_ok {h : Heap} (hg : Good h) (o : Option (Nat × Bool)) (hs : ∀ p, o = some p → p.1 ∈ h.live) :
    ∃ h', deleteSpecimen h o = .ok h' ∧ Good h' ∧ h'.next = h.next ∧
      (∀ a, a ∈ h'.live ↔ a ∈ h.live ∧ ∀ p, o = some p → a ≠ p.1) ∧
      h'.live.length + (if o.isSome then 1 else 0) = h.live.length := by
  cases o with
  | none => exact ⟨h, rfl, hg, rfl, fun a => by simp, rfl⟩
  | some p =>
    have hp := hs p rfl
    refine ⟨⟨h.live.erase p.1, h.next⟩, if_pos hp, ⟨hg.1.erase _, fun a ha => hg.2 a (List.mem_of_mem_erase ha)⟩, rfl,
      ?_, ?_⟩
    · intro a
      show a ∈ h.live.erase p.1 ↔ _
      rw [hg.1.mem_erase_iff]
      constructor
      · rintro ⟨h1, h2⟩
        refine ⟨h2, fun q hq => ?_⟩
        rw [← Option.some.inj hq]
        exact h1
      · rintro ⟨h1, h2⟩
        exact ⟨h2 p rfl, h1⟩
    · show (h.live.erase p.1).length + 1 = _
      rw [List.length_erase_of_mem hp]
      have := List.length_pos_of_mem hp
      omega

theorem mem_events {m : Simulation} {ps ws : List Nat} {e : Nat × Nat} (he : e ∈ m.events ps ws) :
    e.1 ∈ ps ∧ e.2 ∈ ps ++ ws := by
  obtain ⟨p, -, hp⟩ := List.mem_filterMap.1 he
  split at hp
  · rename_i a b ha hb
    rw [← Option.some.inj hp]
    exact ⟨List.mem_of_getElem? ha, List.mem_of_getElem? hb⟩
  · cases hp

theorem destroyEvents_ok {α : Type} {h : Heap} {m : Simulation} {ps ws : List Nat} (h1 : ∀ a ∈ ps, a ∈ h.live)
    (h2 : ∀ a ∈ ws, a ∈ h.live) (r : Res α) : destroyEvents h (m.events ps ws) r = r := by
  refine touch_ok ?_ r
  intro a ha
  obtain ⟨e, he, hx⟩ := List.mem_flatMap.1 ha
  have := mem_events he
  rcases List.mem_cons.1 hx with rfl | hx
  · exact h1 _ this.1
  · rw [List.mem_singleton.1 hx]
    rcases List.mem_append.1 this.2 with hw | hw
    · exact h1 _ hw
    · exact h2 _ hw

theorem Inv.specimen {s : State} (hi : Inv s) {p : Nat × Bool} (hp : s.specimen = some p) : p.1 ∈ s.heap.live := by
  refine hi.2.2 _ ?_
  simp [State.used, hp]

theorem Inv.handler {s : State} (hi : Inv s) {p : Nat × List Nat} (hp : s.handler = some p) :
    (p.1 :: p.2).Nodup ∧ ∀ a ∈ p.1 :: p.2, a ∈ s.heap.live := by
  obtain ⟨-, h1, h2⟩ := hi
  simp only [State.used, hp] at h1 h2
  exact ⟨(List.nodup_append.1 h1).2.1, fun a ha => h2 a (List.mem_append_right _ ha)⟩

theorem Inv.apart {s : State} (hi : Inv s) {p : Nat × Bool} {q : Nat × List Nat} (hp : s.specimen = some p)
    (hq : s.handler = some q) : p.1 ∉ q.1 :: q.2 := by
  obtain ⟨-, h1, -⟩ := hi
  simp only [State.used, hp, hq] at h1
  exact fun h => (List.nodup_append.1 h1).2.2 p.1 (by simp) p.1 h rfl

/-- a heap with specimen and particles -/
theorem inv_mk {s : State} (hg : Good s.heap) (h1 : ∀ p, s.specimen = some p → p.1 ∈ s.heap.live)
    (h2 : ∀ q, s.handler = some q → (q.1 :: q.2).Nodup ∧ ∀ a ∈ q.1 :: q.2, a ∈ s.heap.live)
    (h3 : ∀ p q, s.specimen = some p → s.handler = some q → p.1 ∉ q.1 :: q.2) : Inv s := by
  obtain ⟨h, sp, hd⟩ := s
  refine ⟨hg, ?_, ?_⟩
  · cases sp with
    | none => cases hd with
      | none => simp [State.used]
      | some q => simpa [State.used] using (h2 q rfl).1
    | some p => cases hd with
      | none => simp [State.used]
      | some q =>
        show ([p.1] ++ (q.1 :: q.2)).Nodup
        exact List.nodup_cons.2 ⟨h3 p q rfl rfl, (h2 q rfl).1⟩
  · intro a ha
    rcases List.mem_append.1 ha with ha | ha
    · cases sp with
      | none => exact absurd ha List.not_mem_nil
      | some p => rw [List.mem_singleton.1 ha]; exact h1 p rfl
    · cases hd with
      | none => exact absurd ha List.not_mem_nil
      | some q => exact (h2 q rfl).2 a ha

/-- What holds after the simulation has run: the particles and the specimen exist, and so do the walls. -/
theorem simulate_ok {s : State} (hi : Inv s) (m : Simulation) {sp : Nat × Bool} (hsp : s.specimen = some sp) :
    ∃ s' o, simulate s m = .ok (s', o) ∧ s'.specimen = s.specimen ∧
      match m.spheres with
      | none => s' = s ∧ o = none
      | some n => s'.handler = some (newHandler s.heap n).1 ∧ Inv s' ∧
        match o with
        | none => s'.heap.live.length = s.heap.live.length + (1 + n) + sp.2.toNat
        | some x => Ext (newHandler s.heap n).2 s'.heap (x.1.flatten.length + sp.2.toNat) ∧
            Fresh (newHandler s.heap n).2 s'.heap x.1.flatten ∧
            x.2 = m.events (newHandler s.heap n).1.2 x.1.flatten := by
  have hlive := hi.specimen hsp
  cases hm : m.spheres with
  | none =>
    refine ⟨s, none, ?_, rfl, rfl, rfl⟩
    simp only [simulate, hsp, hm]
    exact touch_ok (by simpa using hlive) _
  | some n =>
    obtain ⟨e0, f0, l0⟩ := handler_ok hi.1 n
    obtain ⟨r, hr, hr'⟩ := subBoxes_ok m sp.2 (newHandler s.heap n).2 e0.1
    -- the invariant for every heap that has the objects of the new particle handler
    have hinv : ∀ h : Heap, Good h → (∀ a ∈ (newHandler s.heap n).2.live, a ∈ h.live) →
        Inv { setParticles s n with heap := h } := by
      intro h hg hall
      refine inv_mk hg ?_ ?_ ?_
      · intro p hp
        exact hall _ (e0.2.2.1 _ (hi.specimen hp))
      · intro q hq
        rw [← Option.some.inj hq]
        exact ⟨f0.1, fun a ha => hall a (f0.2 a ha).1⟩
      · intro p q hp hq hmem
        rw [← Option.some.inj hq] at hmem
        have h1 := (f0.2 _ hmem).2
        have h2 := hi.1.2 _ (hi.specimen hp)
        omega
    have hval : simulate s m = (newSubBoxes m sp.2 (newHandler s.heap n).2).bind fun r =>
          match r.1 with
          | none => .ok ({ setParticles s n with heap := r.2 }, none)
          | some boxes => r.2.touch ((newHandler s.heap n).1.1 :: (newHandler s.heap n).1.2 ++ boxes.flatten) <|
            if m.threw && !s.continueOnException then
              destroyEvents r.2 (m.events (newHandler s.heap n).1.2 boxes.flatten) <|
                (deleteBoxes r.2 boxes).bind fun h => .ok ({ setParticles s n with heap := h }, none)
            else .ok ({ setParticles s n with heap := r.2 }, some (boxes, m.events (newHandler s.heap n).1.2 boxes.flatten)) := by
      simp only [simulate, hsp, hm]
      rw [touch_ok (by simpa using hlive)]
      refine touch_ok ?_ _
      intro a ha
      rcases List.mem_cons.1 ha with rfl | ha
      · exact e0.2.2.1 _ hlive
      · exact (f0.2 a ha).1
    obtain ⟨ob, h'⟩ := r
    rw [hr, Res.bind_ok'] at hval
    cases ob with
    | none =>
      refine ⟨{ setParticles s n with heap := h' }, none, hval, rfl, rfl, hinv h' hr'.2.1 hr'.2.2.2.1, ?_⟩
      show h'.live.length = _
      rw [hr'.2.2.2.2, e0.2.2.2]
    | some boxes =>
      obtain ⟨-, e1, f1⟩ := hr'
      have hps : ∀ a ∈ (newHandler s.heap n).1.1 :: (newHandler s.heap n).1.2, a ∈ h'.live :=
        fun a ha => e1.2.2.1 a (f0.2 a ha).1
      have hval2 := hval
      dsimp only at hval2
      rw [touch_ok (by
        intro a ha
        rcases List.mem_append.1 ha with ha | ha
        · exact hps a ha
        · exact (f1.2 a ha).1)] at hval2
      by_cases ht : (m.threw && !s.continueOnException) = true
      · obtain ⟨h'', d1, d2, -⟩ := boxes_ok e0.1 e1 f1
        rw [if_pos ht, destroyEvents_ok (fun a ha => hps a (List.mem_cons_of_mem _ ha)) (fun a ha => (f1.2 a ha).1), d1,
          Res.bind_ok'] at hval2
        refine ⟨{ setParticles s n with heap := h'' }, none, hval2, rfl, rfl, hinv h'' d2.1 d2.2.2.1, ?_⟩
        show h''.live.length = _
        rw [d2.2.2.2, e0.2.2.2]
      · rw [if_neg ht] at hval2
        exact ⟨_, _, hval2, rfl, rfl, hinv h' e1.1 e1.2.2.1, e1, f1, rfl⟩

theorem renew_ok {s : State} (hi : Inv s) {old : Nat × List Nat} (ho : s.handler = some old) :
    ∃ s', renewParticles s = .ok s' ∧ s'.specimen = s.specimen ∧ Inv s' ∧ handlerSize s'.handler = handlerSize s.handler ∧
      (∀ a ∈ s.heap.live, a ∉ old.1 :: old.2 → a ∈ s'.heap.live) ∧ (∀ a ∈ old.1 :: old.2, a ∉ s'.heap.live) ∧
      s.heap.next ≤ s'.heap.next ∧ s'.heap.live.length = s.heap.live.length := by
  obtain ⟨e0, f0, l0⟩ := handler_ok hi.1 old.2.length
  obtain ⟨hn, hs⟩ := hi.handler ho
  obtain ⟨h', d1, d2, d3, d4, d5⟩ := deleteHandler_ok e0.1 hn fun a ha => e0.2.2.1 a (hs a ha)
  have hnew : ∀ a ∈ (newHandler s.heap old.2.length).1.1 :: (newHandler s.heap old.2.length).1.2, a ∉ old.1 :: old.2 := by
    intro a ha hb
    have h1 := (f0.2 a ha).2
    have h2 := hi.1.2 a (hs a hb)
    omega
  refine ⟨{ s with heap := h', handler := some (newHandler s.heap old.2.length).1 }, ?_, rfl, ?_, ?_, ?_, ?_, ?_, ?_⟩
  · rw [renewParticles, ho]
    dsimp only
    rw [d1, Res.bind_ok']
  · refine inv_mk d2 ?_ ?_ ?_
    · intro p hp
      exact (d4 _).2 ⟨e0.2.2.1 _ (hi.specimen hp), hi.apart hp ho⟩
    · intro q hq
      rw [← Option.some.inj hq]
      exact ⟨f0.1, fun a ha => (d4 a).2 ⟨(f0.2 a ha).1, hnew a ha⟩⟩
    · intro p q hp hq hmem
      rw [← Option.some.inj hq] at hmem
      have h1 := (f0.2 _ hmem).2
      have h2 := hi.1.2 _ (hi.specimen hp)
      omega
  · show 1 + (newHandler s.heap old.2.length).1.2.length = handlerSize s.handler
    rw [l0, ho]
    rfl
  · exact fun a ha hno => (d4 a).2 ⟨e0.2.2.1 a ha, hno⟩
  · exact fun a ha hl => ((d4 a).1 hl).2 ha
  · show s.heap.next ≤ h'.next
    rw [d3]
    exact e0.2.1
  · have := e0.2.2.2
    show h'.live.length = _
    omega

/-- The objects before and after a call -/
def Balanced (s s' : State) (k : Nat) : Prop :=
  s'.heap.live.length + s.used.length = s.heap.live.length + s'.used.length + k

theorem cylinder_toNat {s : State} {sp : Nat × Bool} (hsp : s.specimen = some sp) :
    (match s.specimen with | some (_, true) => 1 | _ => 0) = sp.2.toNat := by
  obtain ⟨a, b⟩ := sp
  rw [hsp]
  cases b <;> rfl

/-- What both simulations have in common -/
theorem lost_simulation {s s' : State} {m : Simulation} {n : Nat} {sp : Nat × Bool} (hsp : s.specimen = some sp)
    (hm : m.spheres = some n) (h1 : s'.specimen = s.specimen) (h2 : handlerSize s'.handler = 1 + n)
    (h3 : s'.heap.live.length = s.heap.live.length + (1 + n) + sp.2.toNat) :
    Balanced s s' (if true && m.spheres.isSome then
      handlerSize s.handler + (match s.specimen with | some (_, true) => 1 | _ => 0) else 0) := by
  rw [cylinder_toNat hsp, hm]
  unfold Balanced
  rw [used_length, used_length, h1, h2, h3]
  simp only [Option.isSome_some, Bool.and_self, if_true]
  omega

theorem volume_ok {s : State} (hi : Inv s) (m : Simulation) :
    ∃ s' t, maximizeVolume s m = .ok (s', t) ∧ Inv s' ∧ Balanced s s' (lost s (.maximizeVolume m)) := by
  by_cases hr : s.ready s.relativeRate = true
  · have hsome : s.specimen.isSome := by
      simp only [State.ready, Bool.and_eq_true] at hr
      exact hr.1.1
    obtain ⟨sp, hsp⟩ := Option.isSome_iff_exists.1 hsome
    obtain ⟨s', o, h1, h2, h3⟩ := simulate_ok hi m hsp
    simp only [lost, hr]
    cases hm : m.spheres with
    | none =>
      rw [hm] at h3
      refine ⟨s, true, ?_, hi, ?_⟩
      · rw [maximizeVolume, if_pos hr, h1, h3.1, h3.2]
        rfl
      · simp [Balanced]
    | some n =>
      rw [hm] at h3
      obtain ⟨h3, h4, h5⟩ := h3
      rw [← hm]
      have hsize : handlerSize s'.handler = 1 + n := by
        rw [h3]
        show 1 + (newHandler s.heap n).1.2.length = _
        rw [(handler_ok hi.1 n).2.2]
      cases o with
      | none =>
        refine ⟨s', true, ?_, h4, lost_simulation hsp hm h2 hsize h5⟩
        rw [maximizeVolume, if_pos hr, h1]
        rfl
      | some x =>
        obtain ⟨e1, f1, hev⟩ := h5
        obtain ⟨e0, f0, l0⟩ := handler_ok hi.1 n
        obtain ⟨h'', d1, d2, d3⟩ := boxes_ok e0.1 e1 f1
        refine ⟨{ s' with heap := h'' }, false, ?_, ?_, ?_⟩
        · rw [maximizeVolume, if_pos hr, h1, Res.bind_ok']
          dsimp only
          rw [touch_ok h4.2.2, hev, destroyEvents_ok (fun a ha => e1.2.2.1 a (f0.2 a (List.mem_cons_of_mem _ ha)).1)
            (fun a ha => (f1.2 a ha).1), d1, Res.bind_ok']
        · refine inv_mk d2.1 ?_ ?_ ?_
          · intro p hp
            have hp' : s.specimen = some p := h2 ▸ hp
            exact d2.2.2.1 _ (e0.2.2.1 _ (hi.specimen hp'))
          · intro q hq
            have hq' : q = (newHandler s.heap n).1 := Option.some.inj ((show s'.handler = some q from hq).symm.trans h3)
            rw [hq']
            exact ⟨f0.1, fun a ha => d2.2.2.1 a (f0.2 a ha).1⟩
          · intro p q hp hq
            exact h4.apart hp hq
        · refine lost_simulation hsp hm h2 hsize ?_
          show h''.live.length = _
          rw [d2.2.2.2, e0.2.2.2]
  · refine ⟨s, true, ?_, hi, ?_⟩
    · rw [maximizeVolume, if_neg hr]
    · simp only [lost]
      rw [if_neg]
      · rfl
      · simp [hr]

/-- `MaximizeParticleDistance` after its simulation -/
theorem distance_end {s s' : State} (hi : Inv s) {m : Simulation} (hr : s.ready s.absoluteRate = true)
    {x : List (List Nat) × List (Nat × Nat)} (h1 : simulate s m = .ok (s', some x)) :
    (x.2 ≠ [] → maximizeDistance s m = .ub) ∧
    (x.2 = [] → ∃ s'', maximizeDistance s m = .ok (s'', false) ∧ Inv s'' ∧
      Balanced s s'' (lost s (.maximizeDistance m))) := by
  have hsome : s.specimen.isSome := by
    simp only [State.ready, Bool.and_eq_true] at hr
    exact hr.1.1
  obtain ⟨sp, hsp⟩ := Option.isSome_iff_exists.1 hsome
  obtain ⟨s1, o, h1', h2, h3⟩ := simulate_ok hi m hsp
  obtain ⟨rfl, rfl⟩ : s' = s1 ∧ some x = o := by
    have := Res.ok.inj (h1.symm.trans h1')
    exact ⟨congrArg Prod.fst this, congrArg Prod.snd this⟩
  cases hm : m.spheres with
  | none =>
    rw [hm] at h3
    cases h3.2
  | some n =>
    rw [hm] at h3
    obtain ⟨h3, h4, e1, f1, hev⟩ := h3
    obtain ⟨e0, f0, l0⟩ := handler_ok hi.1 n
    obtain ⟨s2, r1, r2, r3, r4, r5, r6, r7, r8⟩ := renew_ok h4 h3
    have hval : maximizeDistance s m = destroyEvents s2.heap x.2 ((deleteBoxes s2.heap x.1).bind fun h =>
        .ok ({ s2 with heap := h }, false)) := by
      rw [maximizeDistance, if_pos hr, h1, Res.bind_ok']
      dsimp only
      rw [touch_ok h4.2.2, r1, Res.bind_ok']
    constructor
    · intro hne
      rw [hval]
      obtain ⟨e, he⟩ := List.exists_mem_of_ne_nil _ hne
      refine if_neg fun hall => ?_
      have h5 := hall e.1 (List.mem_flatMap.2 ⟨e, he, List.mem_cons_self⟩)
      rw [hev] at he
      exact r6 e.1 (List.mem_cons_of_mem _ (mem_events he).1) h5
    · intro hnil
      have hwalls : ∀ a ∈ x.1.flatten, a ∈ s2.heap.live := by
        intro a ha
        refine r5 a (f1.2 a ha).1 fun hb => ?_
        have h5 := (f1.2 a ha).2
        have h6 := e0.1.2 a (f0.2 a hb).1
        omega
      obtain ⟨h'', d1, d2, d3, d4, d5⟩ := frees_ok x.1.flatten s2.heap r3.1 f1.1 hwalls
      refine ⟨{ s2 with heap := h'' }, ?_, ?_, ?_⟩
      · rw [hval, hnil]
        show Heap.touch _ _ _ = _
        rw [touch_ok (by simp)]
        show (Heap.frees _ _).bind _ = _
        rw [d1, Res.bind_ok']
      · refine inv_mk d2 ?_ ?_ ?_
        · intro p hp
          refine (d4 _).2 ⟨r3.specimen hp, fun hb => ?_⟩
          have hp' : s.specimen = some p := by rw [← h2, ← r2]; exact hp
          have h5 := (f1.2 _ hb).2
          have h6 := e0.1.2 _ (e0.2.2.1 _ (hi.specimen hp'))
          omega
        · intro q hq
          obtain ⟨g1, g2⟩ := r3.handler hq
          refine ⟨g1, fun a ha => (d4 a).2 ⟨g2 a ha, fun hb => ?_⟩⟩
          have hq' : q = (newHandler s'.heap (newHandler s.heap n).1.2.length).1 := by
            have : renewParticles s' = .ok s2 := r1
            rw [renewParticles, h3] at this
            dsimp only at this
            cases hd : deleteHandler (newHandler s'.heap (newHandler s.heap n).1.2.length).2 (newHandler s.heap n).1 with
            | ok hh =>
              rw [hd, Res.bind_ok'] at this
              rw [← Res.ok.inj this] at hq
              exact (Option.some.inj hq).symm
            | throw => rw [hd] at this; cases this
            | ub => rw [hd] at this; cases this
          rw [hq'] at ha
          have h5 := ((handler_ok h4.1 (newHandler s.heap n).1.2.length).2.1.2 a ha).2
          have h6 := h4.1.2 a (f1.2 a hb).1
          omega
        · exact fun p q hp hq => r3.apart hp hq
      · have := lost_simulation (s' := { s2 with heap := h'' }) hsp hm (r2.trans h2) (by
          show handlerSize s2.handler = _
          rw [r4, h3]
          show 1 + (newHandler s.heap n).1.2.length = _
          rw [l0]) (by
          show h''.live.length = _
          have h5 := e1.2.2.2
          have h6 := e0.2.2.2
          omega)
        simp only [lost, hr]
        exact this

theorem distance_ok {s : State} (hi : Inv s) (m : Simulation) :
    (Fine s (.maximizeDistance m) → ∃ s' t, maximizeDistance s m = .ok (s', t) ∧ Inv s' ∧
      Balanced s s' (lost s (.maximizeDistance m))) ∧
    (¬ Fine s (.maximizeDistance m) → maximizeDistance s m = .ub) := by
  by_cases hr : s.ready s.absoluteRate = true
  · have hsome : s.specimen.isSome := by
      simp only [State.ready, Bool.and_eq_true] at hr
      exact hr.1.1
    obtain ⟨sp, hsp⟩ := Option.isSome_iff_exists.1 hsome
    obtain ⟨s', o, h1, h2, h3⟩ := simulate_ok hi m hsp
    cases o with
    | some x =>
      obtain ⟨hA, hB⟩ := distance_end hi hr h1
      constructor
      · intro hf
        obtain ⟨s'', g1, g2, g3⟩ := hB (hf hr s' x.1 x.2 h1)
        exact ⟨s'', false, g1, g2, g3⟩
      · intro hf
        refine hA fun hx => hf ?_
        intro _ t boxes events ht
        have := Res.ok.inj (h1.symm.trans ht)
        rw [← hx]
        have h5 := congrArg Prod.snd this
        exact (congrArg Prod.snd (Option.some.inj h5)).symm
    | none =>
      constructor
      · intro _
        simp only [lost, hr]
        cases hm : m.spheres with
        | none =>
          rw [hm] at h3
          refine ⟨s, true, ?_, hi, by simp [Balanced]⟩
          rw [maximizeDistance, if_pos hr, h1, h3.1]
          rfl
        | some n =>
          rw [hm] at h3
          obtain ⟨h3, h4, h5⟩ := h3
          rw [← hm]
          refine ⟨s', true, ?_, h4, lost_simulation hsp hm h2 ?_ h5⟩
          · rw [maximizeDistance, if_pos hr, h1]
            rfl
          · rw [h3]
            show 1 + (newHandler s.heap n).1.2.length = _
            rw [(handler_ok hi.1 n).2.2]
      · intro hf
        refine absurd ?_ hf
        intro _ t boxes events ht
        have := Res.ok.inj (h1.symm.trans ht)
        cases congrArg Prod.snd this
  · constructor
    · intro _
      refine ⟨s, true, ?_, hi, ?_⟩
      · rw [maximizeDistance, if_neg hr]
      · simp only [lost]
        rw [if_neg]
        · rfl
        · simp [hr]
    · intro hf
      exact absurd (fun h => absurd h hr) hf

/-- Every call on a generator whose specimen and particles exist leaves such a generator and as many objects as expected, unless
`MaximizeParticleDistance` ends its simulation with an event in the list, or `ExportGmshGeo…` is called without a specimen. -/
theorem C111_call_partial {s : State} (hi : Inv s) (c : Call) :
    (Fine s c → ∃ s' t, call s c = .ok (s', t) ∧ Inv s' ∧
      s'.heap.live.length + s.used.length = s.heap.live.length + s'.used.length + lost s c) ∧
    (¬ Fine s c → call s c = .ub) := by
  cases c with
  | setSpecimenBox =>
    refine ⟨fun _ => ?_, fun h => absurd trivial h⟩
    obtain ⟨h', d1, d2, d3, d4, d5⟩ := deleteSpecimen_ok hi.1 s.specimen fun p hp => hi.specimen hp
    have e0 := ext_news d2 1
    refine ⟨{ s with heap := (h'.news 1).2, specimen := some (h'.next, false) }, false, ?_, ?_, ?_⟩
    · rw [call, setSpecimenBox, d1]
      rfl
    · refine inv_mk e0.1 ?_ ?_ ?_
      · intro p hp
        rw [← Option.some.inj hp]
        exact List.mem_append_left _ (List.mem_range'_1.2 ⟨le_refl _, Nat.lt_succ_self _⟩)
      · intro q hq
        obtain ⟨g1, g2⟩ := hi.handler hq
        exact ⟨g1, fun a ha => e0.2.2.1 a ((d4 a).2 ⟨g2 a ha, fun p hp he => hi.apart hp hq (he ▸ ha)⟩)⟩
      · intro p q hp hq hmem
        rw [← Option.some.inj hp] at hmem
        have h1 := hi.1.2 _ ((hi.handler hq).2 _ hmem)
        have h2 : h'.next < s.heap.next := h1
        omega
    · rw [used_length, used_length]
      have h5 := e0.2.2.2
      show (h'.news 1).2.live.length + _ = s.heap.live.length + (1 + handlerSize s.handler) + 0
      omega
  | setSpecimenCylinder =>
    refine ⟨fun _ => ?_, fun h => absurd trivial h⟩
    have e0 := ext_news hi.1 1
    refine ⟨_, false, rfl, ?_, ?_⟩
    · refine inv_mk e0.1 ?_ ?_ ?_
      · intro p hp
        rw [← Option.some.inj hp]
        exact List.mem_append_left _ (List.mem_range'_1.2 ⟨le_refl _, Nat.lt_succ_self _⟩)
      · intro q hq
        obtain ⟨g1, g2⟩ := hi.handler hq
        exact ⟨g1, fun a ha => e0.2.2.1 a (g2 a ha)⟩
      · intro p q hp hq hmem
        rw [← Option.some.inj hp] at hmem
        have h1 := hi.1.2 _ ((hi.handler hq).2 _ hmem)
        have h2 : s.heap.next < s.heap.next := h1
        omega
    · rw [used_length, used_length]
      have h5 := e0.2.2.2
      show (s.heap.news 1).2.live.length + _ = s.heap.live.length + (1 + handlerSize s.handler) +
        (if s.specimen.isSome then 1 else 0)
      omega
  | setGradingCurve b => exact ⟨fun _ => ⟨_, _, rfl, hi, rfl⟩, fun h => absurd trivial h⟩
  | setAbsoluteGrowthRate r => exact ⟨fun _ => ⟨_, _, rfl, hi, rfl⟩, fun h => absurd trivial h⟩
  | setRelativeGrowthRate r => exact ⟨fun _ => ⟨_, _, rfl, hi, rfl⟩, fun h => absurd trivial h⟩
  | setContinueOnException b => exact ⟨fun _ => ⟨_, _, rfl, hi, rfl⟩, fun h => absurd trivial h⟩
  | setParticles n =>
    refine ⟨fun _ => ?_, fun h => absurd trivial h⟩
    obtain ⟨e0, f0, l0⟩ := handler_ok hi.1 n
    refine ⟨_, _, rfl, ?_, ?_⟩
    · refine inv_mk e0.1 ?_ ?_ ?_
      · exact fun p hp => e0.2.2.1 _ (hi.specimen hp)
      · intro q hq
        rw [← Option.some.inj hq]
        exact ⟨f0.1, fun a ha => (f0.2 a ha).1⟩
      · intro p q hp hq hmem
        rw [← Option.some.inj hq] at hmem
        have h1 := (f0.2 _ hmem).2
        have h2 := hi.1.2 _ (hi.specimen hp)
        omega
    · rw [used_length, used_length]
      have h5 := e0.2.2.2
      show (newHandler s.heap n).2.live.length + _ = s.heap.live.length +
        ((if s.specimen.isSome then 1 else 0) + (1 + (newHandler s.heap n).1.2.length)) + handlerSize s.handler
      omega
  | getParticles =>
    refine ⟨fun _ => ?_, fun h => absurd trivial h⟩
    cases hh : s.handler with
    | none => exact ⟨s, true, by simp [call, getParticles, hh], hi, rfl⟩
    | some p => exact ⟨s, false, by simp only [call, getParticles, hh]; exact touch_ok (hi.handler hh).2 _, hi, rfl⟩
  | exportGmsh cuts =>
    cases hh : s.handler with
    | none =>
      refine ⟨fun _ => ⟨s, true, by simp [call, exportGmsh, hh], hi, rfl⟩, fun h => absurd ?_ h⟩
      intro h'
      rw [hh] at h'
      cases h'
    | some p =>
      cases hsp : s.specimen with
      | none =>
        refine ⟨fun hf => ?_, fun _ => by simp [call, exportGmsh, hh, hsp]⟩
        have := hf (by rw [hh]; rfl)
        rw [hsp] at this
        cases this
      | some sp =>
        refine ⟨fun _ => ⟨s, !cuts, ?_, hi, rfl⟩, fun h => absurd (fun _ => by rw [hsp]; rfl) h⟩
        simp only [call, exportGmsh, hh, hsp]
        rw [touch_ok (by simpa using hi.specimen hsp)]
        cases cuts
        · rfl
        · exact touch_ok (hi.handler hh).2 _
  | maximizeVolume m =>
    exact ⟨fun _ => volume_ok hi m, fun h => absurd trivial h⟩
  | maximizeDistance m => exact distance_ok hi m

/-- `Fine` for each of the calls, in the state in which it is made -/
def FineAlong : State → List Call → Prop
  | _, [] => True
  | s, c :: cs => Fine s c ∧ ∀ s' t, call s c = .ok (s', t) → FineAlong s' cs

/-- The objects that a sequence of calls loses -/
def lostAlong : State → List Call → Nat
  | _, [] => 0
  | s, c :: cs => lost s c + match call s c with
    | .ok r => lostAlong r.1 cs
    | _ => 0

theorem inv_initial : Inv State.initial := ⟨⟨List.nodup_nil, fun _ ha => absurd ha List.not_mem_nil⟩, List.nodup_nil,
  fun _ ha => absurd ha List.not_mem_nil⟩

theorem destruct_ok {s : State} (hi : Inv s) :
    ∃ h, destruct s = .ok h ∧ h.live.length + s.used.length = s.heap.live.length := by
  cases hh : s.handler with
  | none =>
    obtain ⟨h', d1, d2, d3, d4, d5⟩ := deleteSpecimen_ok hi.1 s.specimen fun p hp => hi.specimen hp
    refine ⟨h', by rw [destruct, hh]; exact d1, ?_⟩
    rw [used_length, hh, handlerSize]
    omega
  | some p =>
    obtain ⟨g1, g2⟩ := hi.handler hh
    obtain ⟨h1, c1, c2, c3, c4, c5⟩ := deleteHandler_ok hi.1 g1 g2
    obtain ⟨h', d1, d2, d3, d4, d5⟩ := deleteSpecimen_ok c2 s.specimen
      fun q hq => (c4 _).2 ⟨hi.specimen hq, hi.apart hq hh⟩
    refine ⟨h', ?_, ?_⟩
    · rw [destruct, hh]
      dsimp only
      rw [c1, Res.bind_ok']
      exact d1
    · rw [used_length, hh, handlerSize]
      omega

theorem session_from (cs : List Call) (s : State) (hi : Inv s) :
    (FineAlong s cs → ∃ s', session s cs = .ok s' ∧ Inv s' ∧
      s'.heap.live.length + s.used.length = s.heap.live.length + s'.used.length + lostAlong s cs) ∧
    (¬ FineAlong s cs → session s cs = .ub) := by
  induction cs generalizing s with
  | nil => exact ⟨fun _ => ⟨s, rfl, hi, rfl⟩, fun h => absurd trivial h⟩
  | cons c cs ih =>
    obtain ⟨h1, h2⟩ := C111_call_partial hi c
    by_cases hf : Fine s c
    · obtain ⟨s', t, g1, g2, g3⟩ := h1 hf
      obtain ⟨i1, i2⟩ := ih s' g2
      have hval : session s (c :: cs) = session s' cs := by
        show Res.foldlM _ s (c :: cs) = _
        rw [Res.foldlM_cons, g1]
        rfl
      rw [hval]
      constructor
      · intro hA
        obtain ⟨s'', j1, j2, j3⟩ := i1 (hA.2 s' t g1)
        refine ⟨s'', j1, j2, ?_⟩
        rw [lostAlong, g1]
        dsimp only
        omega
      · intro hA
        refine i2 fun hB => hA ⟨hf, ?_⟩
        intro s1 t1 hs1
        have := Res.ok.inj (g1.symm.trans hs1)
        have h5 : s' = s1 := congrArg Prod.fst this
        rw [← h5]
        exact hB
    · refine ⟨fun hA => absurd hA.1 hf, fun _ => ?_⟩
      show Res.foldlM _ s (c :: cs) = _
      rw [Res.foldlM_cons, h2 hf]
      rfl

/-- A generator accesses only objects that exist and releases none twice, whatever is called in whatever order and whichever
calls throw, as long as `MaximizeParticleDistance` ends without an event in its list and nothing is exported without a
specimen.  After its destructor exactly the lost objects still exist. -/
theorem C111_session_partial (cs : List Call) (hf : FineAlong State.initial cs) :
    ∃ s h, session State.initial cs = .ok s ∧ destruct s = .ok h ∧ h.live.length = lostAlong State.initial cs := by
  obtain ⟨s, h1, h2, h3⟩ := (session_from cs State.initial inv_initial).1 hf
  obtain ⟨h, d1, d2⟩ := destruct_ok h2
  refine ⟨s, h, h1, d1, ?_⟩
  have : State.initial.used.length = 0 := rfl
  have : State.initial.heap.live.length = 0 := rfl
  omega

/-- Otherwise the behaviour is undefined. -/
theorem C111_session_undefined (cs : List Call) (hf : ¬ FineAlong State.initial cs) : session State.initial cs = .ub :=
  (session_from cs State.initial inv_initial).2 hf

/-- `MaximizeParticleDistance` accesses particles it has released whenever its simulation ends with an event in the list: the
particles are released before the list is destroyed. -/
theorem C111_distance_counterexample {s s' : State} (hi : Inv s) {m : Simulation} (hr : s.ready s.absoluteRate = true)
    {boxes : List (List Nat)} {events : List (Nat × Nat)} (h : simulate s m = .ok (s', some (boxes, events)))
    (he : events ≠ []) : maximizeDistance s m = .ub := (distance_end hi hr h).1 he

/-- Two spheres and a sub box; at the end of the simulation the second sphere has an event with a wall. -/
def plain : Simulation := ⟨some 2, [⟨[true, true, true, true, false, false], false⟩], true, false, [(1, 7)]⟩

/-- The same generator works for `MaximizeParticleVolumeFraction` and not for `MaximizeParticleDistance`. -/
theorem C111_box_counterexample :
    session State.initial [.setSpecimenBox, .setGradingCurve true, .setAbsoluteGrowthRate 1, .maximizeDistance plain] = .ub ∧
    ((session State.initial [.setSpecimenBox, .setGradingCurve true, .setRelativeGrowthRate 1, .maximizeVolume plain]).bind
      fun s => (destruct s).bind fun h => .ok h.live) = .ok [] := by decide +kernel

/-- Two cylinders one after the other, particles set twice, and a simulation in a cylinder leave objects behind. -/
theorem C111_lost_counterexample :
    ((session State.initial [.setSpecimenCylinder, .setSpecimenCylinder]).bind
      fun s => (destruct s).bind fun h => .ok h.live) = .ok [0] ∧
    ((session State.initial [.setParticles 2, .setParticles 3]).bind
      fun s => (destruct s).bind fun h => .ok h.live) = .ok [1, 2, 0] ∧
    ((session State.initial [.setSpecimenCylinder, .setGradingCurve true, .setRelativeGrowthRate 1,
        .maximizeVolume { plain with plans := [⟨[true, true, true, true, false, false], true⟩] }]).bind
      fun s => (destruct s).bind fun h => .ok h.live) = .ok [4] := by decide +kernel

/-- Particles without a specimen cannot be exported: a null pointer is dereferenced. -/
theorem C111_export_counterexample (n : Nat) (cuts : Bool) :
    session State.initial [.setParticles n, .exportGmsh cuts] = .ub := rfl

/-- If each call finds no previous specimen or particles that it would drop, and no specimen is a cylinder, nothing is left. -/
theorem C111_nothing_left (cs : List Call) (hf : FineAlong State.initial cs) (hl : lostAlong State.initial cs = 0) :
    ∃ s h, session State.initial cs = .ok s ∧ destruct s = .ok h ∧ h.live = [] := by
  obtain ⟨s, h, h1, h2, h3⟩ := C111_session_partial cs hf
  exact ⟨s, h, h1, h2, List.length_eq_zero_iff.1 (h3.trans hl)⟩

/-- The hypotheses hold for a box, also when the simulation is left by an exception. -/
example : ∃ cs : List Call, FineAlong State.initial cs ∧ lostAlong State.initial cs = 0 ∧ cs.length = 6 := by
  refine ⟨[.setSpecimenBox, .setSpecimenBox, .setGradingCurve true, .setRelativeGrowthRate 1,
    .maximizeVolume { plain with threw := true }, .exportGmsh true], ⟨trivial, fun s1 t1 h1 => ⟨trivial, fun s2 t2 h2 =>
    ⟨trivial, fun s3 t3 h3 => ⟨trivial, fun s4 t4 h4 => ⟨trivial, fun s5 t5 h5 => ⟨?_, fun _ _ _ => trivial⟩⟩⟩⟩⟩⟩, by decide +kernel, rfl⟩
  intro _
  have e1 := congrArg Prod.fst (Res.ok.inj h1)
  subst e1
  have e2 := congrArg Prod.fst (Res.ok.inj h2)
  subst e2
  have e3 := congrArg Prod.fst (Res.ok.inj h3)
  subst e3
  have e4 := congrArg Prod.fst (Res.ok.inj h4)
  subst e4
  have e5 := congrArg Prod.fst (Res.ok.inj h5)
  subst e5
  rfl

/-- What was released does not exist any more. -/
theorem frees_gone (l : List Nat) {h h' : Heap} (hg : Good h) (hf : h.frees l = .ok h') :
    Good h' ∧ (∀ a ∈ h'.live, a ∈ h.live) ∧ ∀ a ∈ l, a ∉ h'.live := by
  induction l generalizing h with
  | nil =>
    rw [← Res.ok.inj hf]
    exact ⟨hg, fun _ ha => ha, fun a ha => absurd ha List.not_mem_nil⟩
  | cons x l ih =>
    have hval : h.frees (x :: l) = (h.free x).bind fun h1 => h1.frees l := rfl
    rw [hval] at hf
    by_cases hx : x ∈ h.live
    · rw [show h.free x = .ok { h with live := h.live.erase x } from if_pos hx, Res.bind_ok'] at hf
      obtain ⟨h1, h2, h3⟩ := ih (h := { h with live := h.live.erase x })
        ⟨hg.1.erase x, fun a ha => hg.2 a (List.mem_of_mem_erase ha)⟩ hf
      refine ⟨h1, fun a ha => List.mem_of_mem_erase (h2 a ha), fun a ha hl => ?_⟩
      rcases List.mem_cons.1 ha with rfl | ha
      · exact (hg.1.mem_erase_iff.1 (h2 _ hl)).1 rfl
      · exact h3 a ha hl
    · rw [show h.free x = .ub from if_neg hx] at hf
      cases hf

/-- The implicit copy of a generator that has a specimen or particles: destroying both releases them twice. -/
theorem C111_copy_counterexample {s : State} (hi : Inv s) (hu : s.specimen ≠ none ∨ s.handler ≠ none) :
    ∃ h, destruct s = .ok h ∧ destruct { s with heap := h } = .ub := by
  cases hh : s.handler with
  | none =>
    obtain ⟨h', d1, d2, d3, d4, d5⟩ := deleteSpecimen_ok hi.1 s.specimen fun p hp => hi.specimen hp
    refine ⟨h', by rw [destruct, hh]; exact d1, ?_⟩
    cases hsp : s.specimen with
    | none => simp [hh, hsp] at hu
    | some p =>
      show (deleteSpecimen h' (some p)) = _
      refine if_neg fun hl => ?_
      exact ((d4 _).1 hl).2 p hsp rfl
  | some p =>
    obtain ⟨g1, g2⟩ := hi.handler hh
    obtain ⟨h1, c1, c2, c3, c4, c5⟩ := deleteHandler_ok hi.1 g1 g2
    obtain ⟨h', d1, d2, d3, d4, d5⟩ := deleteSpecimen_ok c2 s.specimen
      fun q hq => (c4 _).2 ⟨hi.specimen hq, hi.apart hq hh⟩
    refine ⟨h', ?_, ?_⟩
    · rw [destruct, hh]
      dsimp only
      rw [c1, Res.bind_ok']
      exact d1
    · show (deleteHandler h' p).bind _ = _
      have : deleteHandler h' p = .ub :=
        if_neg fun hl => ((c4 _).1 ((d4 _).1 hl).1).2 List.mem_cons_self
      rw [this]
      rfl

example : ∃ s, Inv s ∧ (s.specimen ≠ none ∨ s.handler ≠ none) :=
  ⟨setParticles State.initial 2, by
    obtain ⟨s', t, h1, h2, -⟩ := (C111_call_partial inv_initial (.setParticles 2)).1 trivial
    rw [show setParticles State.initial 2 = s' from congrArg Prod.fst (Res.ok.inj h1)]
    exact h2, Or.inr (by simp [setParticles])⟩

/-- `AddSubBox` copies the pointers to the walls: destroying the sub box handler and the added box releases them twice. -/
theorem C111_addSubBox_counterexample (v w : BoxVector) (grown : Nat) (walls : List Nat) (h h' h'' : Heap) (hg : Good h)
    (hw : walls ≠ []) (ha : addSubBox v grown walls h = .ok (w, h')) (hd : deleteBoxes h' w.boxes = .ok h'') :
    deleteBoxes h'' [walls] = .ub := by
  have key : Good h' ∧ w.boxes = v.boxes ++ [walls] := by
    unfold addSubBox at ha
    by_cases hc : v.boxes.length < v.capacity
    · rw [if_pos hc] at ha
      have := Res.ok.inj ha
      rw [← show _ = h' from congrArg Prod.snd this, ← show _ = w from congrArg Prod.fst this]
      exact ⟨hg, rfl⟩
    · rw [if_neg hc] at ha
      cases hx : deleteBoxes h v.boxes with
      | ok h1 =>
        rw [hx, Res.bind_ok'] at ha
        have := Res.ok.inj ha
        rw [← show _ = h' from congrArg Prod.snd this, ← show _ = w from congrArg Prod.fst this]
        exact ⟨(frees_gone _ hg hx).1, rfl⟩
      | throw => rw [hx] at ha; cases ha
      | ub => rw [hx] at ha; cases ha
  obtain ⟨-, -, h3⟩ := frees_gone _ key.1 hd
  obtain ⟨a, haw⟩ := List.exists_mem_of_ne_nil _ hw
  refine frees_ub _ _ fun hall => ?_
  have h4 : a ∈ w.boxes.flatten := by
    rw [key.2, List.flatten_append]
    exact List.mem_append_right _ (by simpa using haw)
  exact h3 a h4 (hall a (by simpa using haw))

/-- When the vector of sub boxes grows, the walls of all its sub boxes are released although the copies still refer to them. -/
theorem C111_grow_counterexample (v w : BoxVector) (grown : Nat) (walls : List Nat) (h h' : Heap) (hg : Good h)
    (hv : v.boxes.flatten ≠ []) (hc : v.capacity ≤ v.boxes.length) (ha : addSubBox v grown walls h = .ok (w, h')) :
    deleteBoxes h' w.boxes = .ub := by
  unfold addSubBox at ha
  rw [if_neg (by omega)] at ha
  cases hx : deleteBoxes h v.boxes with
  | ok h1 =>
    rw [hx, Res.bind_ok'] at ha
    have := Res.ok.inj ha
    rw [← show _ = h' from congrArg Prod.snd this, ← show _ = w from congrArg Prod.fst this]
    obtain ⟨-, -, h3⟩ := frees_gone _ hg hx
    obtain ⟨a, haw⟩ := List.exists_mem_of_ne_nil _ hv
    refine frees_ub _ _ fun hall => h3 a haw (hall a ?_)
    show a ∈ (v.boxes ++ [walls]).flatten
    rw [List.flatten_append]
    exact List.mem_append_left _ haw
  | throw => rw [hx] at ha; cases ha
  | ub => rw [hx] at ha; cases ha

/-- A full vector with a sub box of two walls, and a sub box with one wall -/
example : (addSubBox ⟨[[0, 1]], 1⟩ 2 [2] ⟨[0, 1, 2], 3⟩).bind (fun r => .ok r.2.live) = .ok [2] ∧
    ((addSubBox ⟨[[0, 1]], 2⟩ 2 [2] ⟨[0, 1, 2], 3⟩).bind fun r => deleteBoxes r.2 r.1.boxes) = .ok ⟨[], 3⟩ := by
  decide +kernel

/-- A simulation never accesses a released object, and it leaves the walls of the sub boxes to their destructors: sub boxes and
event list of `MaximizeParticleVolumeFraction` release everything they created, except for one wall in a cylinder. -/
theorem C111_subboxes (m : Simulation) (cylinder : Bool) (h : Heap) (hg : Good h) :
    ∃ r h', newSubBoxes m cylinder h = .ok r ∧ (r.1 = none ↔ m.fits = false) ∧
      (match r.1 with | none => .ok r.2 | some boxes => deleteBoxes r.2 boxes) = Res.ok h' ∧
      (∀ a ∈ h.live, a ∈ h'.live) ∧ h'.live.length = h.live.length + (if cylinder then 1 else 0) := by
  obtain ⟨r, h1, h2⟩ := subBoxes_ok m cylinder h hg
  have hc : cylinder.toNat = if cylinder then 1 else 0 := by cases cylinder <;> rfl
  obtain ⟨ob, hh⟩ := r
  rw [← hc]
  cases ob with
  | none => exact ⟨_, hh, h1, ⟨fun _ => h2.1, fun _ => rfl⟩, rfl, h2.2.2.2.1, h2.2.2.2.2⟩
  | some boxes =>
    obtain ⟨h'', d1, d2, -⟩ := boxes_ok hg h2.2.1 h2.2.2
    exact ⟨_, h'', h1, ⟨fun h => by simp at h, fun h => by rw [h2.1] at h; cases h⟩, d1, d2.2.2.1, d2.2.2.2⟩

/-! ### Growth rates -/

/-- What holds of the result if there is one -/
def Post {α : Type} (P : α → Prop) (r : Res α) : Prop := ∀ a, r = .ok a → P a

theorem Post.ok {α : Type} {P : α → Prop} {a : α} (h : P a) : Post P (.ok a) := fun _ e => Res.ok.inj e ▸ h

theorem Post.bind {α β : Type} {P : α → Prop} {Q : β → Prop} {r : Res α} {f : α → Res β} (hr : Post P r)
    (h : ∀ a, P a → Post Q (f a)) : Post Q (r.bind f) := by
  cases r with
  | ok a => exact h a (hr a rfl)
  | throw => intro a ha; cases ha
  | ub => intro a ha; cases ha

theorem Post.any {α : Type} (r : Res α) : Post (fun _ => True) r := fun _ _ => trivial

theorem Post.require {α : Type} {P : α → Prop} {c : Prop} [Decidable c] {r : Res α} (h : Post P r) : Post P (Res.require c r) := by
  unfold Res.require
  split
  · exact h
  · intro a ha; cases ha

/-- The rates are those of `s` -/
def SameRates (s s' : State) : Prop := s'.absoluteRate = s.absoluteRate ∧ s'.relativeRate = s.relativeRate

theorem simulate_rates (s : State) (m : Simulation) : Post (fun r => SameRates s r.1) (simulate s m) := by
  unfold simulate
  split
  · exact Post.ok ⟨rfl, rfl⟩
  · refine Post.require ?_
    split
    · exact Post.ok ⟨rfl, rfl⟩
    · refine Post.require (Post.bind (Post.any _) fun r _ => ?_)
      split
      · exact Post.ok ⟨rfl, rfl⟩
      · refine Post.require ?_
        split
        · exact Post.require (Post.bind (Post.any _) fun h _ => Post.ok ⟨rfl, rfl⟩)
        · exact Post.ok ⟨rfl, rfl⟩

theorem call_rates (s : State) (c : Call) : Post (fun r => match c with
    | .setAbsoluteGrowthRate x => r.1.absoluteRate = x ∧ r.1.relativeRate = 0
    | .setRelativeGrowthRate x => r.1.relativeRate = x ∧ r.1.absoluteRate = 0
    | _ => SameRates s r.1) (call s c) := by
  cases c with
  | setSpecimenBox =>
    exact Post.bind (P := fun s' => SameRates s s') (Post.bind (Post.any _) fun h _ => Post.ok ⟨rfl, rfl⟩) fun s' h => Post.ok h
  | setSpecimenCylinder => exact Post.ok ⟨rfl, rfl⟩
  | setGradingCurve b => exact Post.ok ⟨rfl, rfl⟩
  | setAbsoluteGrowthRate x => exact Post.ok ⟨rfl, rfl⟩
  | setRelativeGrowthRate x => exact Post.ok ⟨rfl, rfl⟩
  | setContinueOnException b => exact Post.ok ⟨rfl, rfl⟩
  | setParticles n => exact Post.ok ⟨rfl, rfl⟩
  | getParticles =>
    show Post (fun r => SameRates s r.1) (getParticles s)
    unfold getParticles
    split
    · exact Post.ok ⟨rfl, rfl⟩
    · exact Post.require (Post.ok ⟨rfl, rfl⟩)
  | exportGmsh b =>
    show Post (fun r => SameRates s r.1) (exportGmsh s b)
    unfold exportGmsh
    split
    · exact Post.ok ⟨rfl, rfl⟩
    · split
      · intro a ha; cases ha
      · refine Post.require ?_
        split
        · exact Post.require (Post.ok ⟨rfl, rfl⟩)
        · exact Post.ok ⟨rfl, rfl⟩
  | maximizeVolume m =>
    show Post (fun r => SameRates s r.1) (maximizeVolume s m)
    unfold maximizeVolume
    split
    · refine Post.bind (simulate_rates s m) fun r hr => ?_
      split
      · exact Post.ok hr
      · exact Post.require (Post.require (Post.bind (Post.any _) fun h _ => Post.ok hr))
    · exact Post.ok ⟨rfl, rfl⟩
  | maximizeDistance m =>
    show Post (fun r => SameRates s r.1) (maximizeDistance s m)
    unfold maximizeDistance
    split
    · refine Post.bind (simulate_rates s m) fun r hr => ?_
      split
      · exact Post.ok hr
      · refine Post.require (Post.bind (P := fun s' => SameRates s s') ?_ fun s' hs' =>
          Post.require (Post.bind (Post.any _) fun h _ => Post.ok hs'))
        unfold renewParticles
        split
        · intro a ha; cases ha
        · exact Post.bind (Post.any _) fun h _ => Post.ok hr
    · exact Post.ok ⟨rfl, rfl⟩

/-- C111: at any time at most one of the growth rates is set, so at most one of the two simulations can be run; after
`SetAbsoluteGrowthRate` the other one throws whatever was set before, and conversely. -/
theorem C111_rates (cs : List Call) (s : State) (h : session State.initial cs = .ok s) :
    (s.absoluteRate = 0 ∨ s.relativeRate = 0) ∧ ¬ (s.ready s.absoluteRate = true ∧ s.ready s.relativeRate = true) ∧
    (∀ x m, ((call s (.setAbsoluteGrowthRate x)).bind fun r => call r.1 (.maximizeVolume m)) =
      .ok ({ s with absoluteRate := x, relativeRate := 0 }, true)) ∧
    ∀ x m, ((call s (.setRelativeGrowthRate x)).bind fun r => call r.1 (.maximizeDistance m)) =
      .ok ({ s with relativeRate := x, absoluteRate := 0 }, true) := by
  have key : ∀ (cs : List Call) (s s' : State), session s cs = .ok s' → (s.absoluteRate = 0 ∨ s.relativeRate = 0) →
      (s'.absoluteRate = 0 ∨ s'.relativeRate = 0) := by
    intro cs
    induction cs with
    | nil => intro s s' h hs; cases h; exact hs
    | cons c cs ih =>
      intro s s' h hs
      rw [session, Res.foldlM_cons] at h
      cases hc : call s c with
      | throw => rw [hc] at h; cases h
      | ub => rw [hc] at h; cases h
      | ok r =>
        rw [hc] at h
        refine ih r.1 s' h ?_
        have := call_rates s c r hc
        cases c with
        | setAbsoluteGrowthRate x => exact Or.inr this.2
        | setRelativeGrowthRate x => exact Or.inl this.2
        | _ =>
          obtain ⟨h1, h2⟩ : SameRates s r.1 := this
          rw [h1, h2]; exact hs
  have h0 := key cs _ _ h (Or.inl rfl)
  refine ⟨h0, ?_, fun x m => ?_, fun x m => ?_⟩
  · rintro ⟨h1, h2⟩
    simp only [State.ready, Bool.and_eq_true, decide_eq_true_eq] at h1 h2
    rcases h0 with h0 | h0
    · exact absurd h1.2 (by rw [h0]; exact lt_irrefl _)
    · exact absurd h2.2 (by rw [h0]; exact lt_irrefl _)
  · simp [call, maximizeVolume, State.ready]
  · simp [call, maximizeDistance, State.ready]

/-- Both rates were set, the second one is used. -/
example : ∃ s, session State.initial [.setSpecimenBox, .setGradingCurve true, .setRelativeGrowthRate 1, .setAbsoluteGrowthRate 2] =
    .ok s ∧ s.ready s.absoluteRate = true := ⟨_, rfl, by decide +kernel⟩

end NuTo.Ownership
