import Verif.Lemmas.Group

/-!
C01: groups are insertion-ordered sets.  The specification below is a plain list without reference to the sorted index.
-/
namespace NuTo

/-- Programs a user can write with groups: any nesting of the public operations. -/
inductive GroupProg where
  | empty
  | ofList (xs : List Nat)
  | add (g : GroupProg) (x : Nat)
  | unite (a b : GroupProg)
  | difference (a b : GroupProg)
  | intersection (a b : GroupProg)
  | symmetricDifference (a b : GroupProg)

/-- running a program on the model of the C++ class -/
def GroupProg.run : GroupProg → Group
  | .empty => Group.empty
  | .ofList xs => Group.ofList xs
  | .add g x => g.run.add x
  | .unite a b => Group.unite a.run b.run
  | .difference a b => Group.difference a.run b.run
  | .intersection a b => Group.intersection a.run b.run
  | .symmetricDifference a b => Group.symmetricDifference a.run b.run

/-- specification: the items in order of first insertion -/
def GroupProg.spec : GroupProg → List Nat
  | .empty => []
  | .ofList xs => xs.reverse.foldr (fun x l => if x ∈ l then l else l ++ [x]) []
  | .add g x => if x ∈ g.spec then g.spec else g.spec ++ [x]
  | .unite a b => a.spec ++ b.spec.filter (fun x => x ∉ a.spec)
  | .difference a b => a.spec.filter (fun x => x ∉ b.spec)
  | .intersection a b => a.spec.filter (fun x => x ∈ b.spec)
  | .symmetricDifference a b =>
      a.spec.filter (fun x => x ∉ b.spec) ++ b.spec.filter (fun x => x ∉ a.spec)

/-- specification of membership: plain set algebra -/
def GroupProg.Mem : GroupProg → Nat → Prop
  | .empty, _ => False
  | .ofList xs, y => y ∈ xs
  | .add g x, y => g.Mem y ∨ y = x
  | .unite a b, y => a.Mem y ∨ b.Mem y
  | .difference a b, y => a.Mem y ∧ ¬ b.Mem y
  | .intersection a b, y => a.Mem y ∧ b.Mem y
  | .symmetricDifference a b, y => (a.Mem y ∧ ¬ b.Mem y) ∨ (b.Mem y ∧ ¬ a.Mem y)

theorem GroupProg.inv_run (p : GroupProg) : p.run.Inv := by
  induction p with
  | empty => exact Group.inv_empty
  | ofList xs => exact Group.inv_foldl_add _ _ Group.inv_empty
  | add g x ih => exact Group.inv_add ih x
  | unite a b iha ihb => exact Group.inv_unite iha
  | difference a b => exact Group.inv_difference
  | intersection a b => exact Group.inv_intersection
  | symmetricDifference a b => exact Group.inv_difference

theorem GroupProg.data_ofList (xs : List Nat) :
    (Group.ofList xs).data = xs.reverse.foldr (fun x l => if x ∈ l then l else l ++ [x]) [] := by
  unfold Group.ofList
  rw [List.foldr_reverse]
  suffices h : ∀ g : Group, g.Inv → (xs.foldl Group.add g).data =
      xs.foldl (fun l x => if x ∈ l then l else l ++ [x]) g.data from h _ Group.inv_empty
  induction xs with
  | nil => intro g _; rfl
  | cons x xs ih =>
    intro g hg
    rw [List.foldl_cons, List.foldl_cons, ih _ (Group.inv_add hg x), Group.data_add hg]

/-- C01 (iteration order and content): every program's group iterates exactly over the specified list, which has
no duplicates, and `Contains` / `Size` answer according to it. -/
theorem C01_group_refines_ordered_set (p : GroupProg) :
    p.run.data = p.spec ∧ p.spec.Nodup ∧ p.run.size = p.spec.length ∧
      ∀ x, p.run.contains x = decide (x ∈ p.spec) := by
  have hd : p.run.data = p.spec := by
    induction p with
    | empty => rfl
    | ofList xs => exact GroupProg.data_ofList xs
    | add g x ih => simp only [GroupProg.run, GroupProg.spec]; rw [Group.data_add g.inv_run, ih]
    | unite a b iha ihb =>
      simp only [GroupProg.run, GroupProg.spec]; rw [Group.data_unite a.inv_run b.inv_run, iha, ihb]
    | difference a b iha ihb =>
      simp only [GroupProg.run, GroupProg.spec]; rw [Group.data_difference a.inv_run b.inv_run, iha, ihb]
    | intersection a b iha ihb =>
      simp only [GroupProg.run, GroupProg.spec]; rw [Group.data_intersection a.inv_run b.inv_run, iha, ihb]
    | symmetricDifference a b iha ihb =>
      simp only [GroupProg.run, GroupProg.spec]
      rw [Group.data_symmetricDifference a.inv_run b.inv_run, iha, ihb]
  refine ⟨hd, hd ▸ p.inv_run.nodup, by rw [← hd]; rfl, ?_⟩
  intro x
  rw [← hd]
  by_cases hx : x ∈ p.run.data
  · simp [hx, (Group.contains_iff p.inv_run x).mpr hx]
  · have : p.run.contains x = false := by
      rw [Bool.eq_false_iff]; intro hc; exact hx ((Group.contains_iff p.inv_run x).mp hc)
    simp [hx, this]

/-- C01 (set algebra): `Contains` is the set operation on the operands. -/
theorem C01_group_contains_iff_mem (p : GroupProg) (x : Nat) : p.run.contains x = true ↔ p.Mem x := by
  have key : ∀ q : GroupProg, ∀ y, q.run.contains y = true ↔ y ∈ q.spec := by
    intro q y; rw [(C01_group_refines_ordered_set q).2.2.2 y]; simp
  rw [key]
  induction p with
  | empty => simp [GroupProg.spec, GroupProg.Mem]
  | ofList xs =>
    simp only [GroupProg.spec, GroupProg.Mem, List.foldr_reverse]
    suffices h : ∀ l : List Nat, x ∈ xs.foldl (fun l x => if x ∈ l then l else l ++ [x]) l ↔ x ∈ l ∨ x ∈ xs by
      simpa using h []
    induction xs with
    | nil => simp
    | cons y ys ih =>
      intro l
      rw [List.foldl_cons, ih]
      by_cases hy : y ∈ l
      · simp only [hy, if_true, List.mem_cons]
        constructor
        · rintro (h | h) <;> simp [h]
        · rintro (h | h | h)
          · exact Or.inl h
          · exact Or.inl (h ▸ hy)
          · exact Or.inr h
      · simp [hy, or_assoc]
  | add g y ih =>
    simp only [GroupProg.spec, GroupProg.Mem, ← ih]
    by_cases hy : y ∈ g.spec
    · simp only [hy, if_true]
      constructor
      · exact Or.inl
      · rintro (h | h)
        · exact h
        · exact h ▸ hy
    · simp [hy]
  | unite a b iha ihb =>
    simp only [GroupProg.spec, GroupProg.Mem, ← iha, ← ihb, List.mem_append, List.mem_filter,
      decide_eq_true_eq]
    by_cases h : x ∈ a.spec <;> simp [h]
  | difference a b iha ihb =>
    simp [GroupProg.spec, GroupProg.Mem, ← iha, ← ihb]
  | intersection a b iha ihb =>
    simp [GroupProg.spec, GroupProg.Mem, ← iha, ← ihb]
  | symmetricDifference a b iha ihb =>
    simp [GroupProg.spec, GroupProg.Mem, ← iha, ← ihb]

/-- C01 (variadic `Unite`): uniting any number of groups contains exactly the items of any operand, without duplicates. -/
theorem C01_unite_many (p : GroupProg) (ps : List GroupProg) :
    (Group.uniteMany p.run (ps.map GroupProg.run)).data.Nodup ∧
    ∀ x, (Group.uniteMany p.run (ps.map GroupProg.run)).contains x = true ↔ p.Mem x ∨ ∃ q ∈ ps, q.Mem x := by
  suffices h : ∃ q : GroupProg, q.run = Group.uniteMany p.run (ps.map GroupProg.run) ∧
      ∀ x, q.Mem x ↔ p.Mem x ∨ ∃ r ∈ ps, r.Mem x by
    obtain ⟨q, hq, hm⟩ := h
    rw [← hq]
    exact ⟨q.inv_run.nodup, fun x => (C01_group_contains_iff_mem q x).trans (hm x)⟩
  induction ps generalizing p with
  | nil => exact ⟨p, rfl, by simp⟩
  | cons r rs ih =>
    obtain ⟨q, hq, hm⟩ := ih r
    refine ⟨.unite p q, ?_, ?_⟩
    · simp [GroupProg.run, Group.uniteMany, hq]
    · intro x; simp only [GroupProg.Mem, hm]; simp

/-- a concrete non-trivial program: two overlapping groups, repeated insertion -/
example : (GroupProg.symmetricDifference (.add (.ofList [7, 3, 7]) 5) (.ofList [9, 3])).run.data = [7, 5, 9] := by
  decide +kernel

end NuTo
