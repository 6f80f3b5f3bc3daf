import Verif.Model.GmshGroups
import Verif.Lemmas.Group
import Verif.Lemmas.OMap
import Mathlib.Data.List.Basic
import Mathlib.Data.List.GetD
import Mathlib.Algebra.Field.Rat

/-!
C71: nodes and physical groups of a gmsh file arrive in the mesh.
-/
set_option linter.unusedSectionVars false

namespace NuTo
namespace Gmsh

/-- the elements of the file that are not points, in the order of the file -/
def solids (elements : List Element) : List Element := elements.filter fun e => decide (e.type ≠ 15)

/-- the positions (among the elements that are not points) of the elements whose first tag is `id` -/
def members (es : List Element) (id : Int) : List Nat :=
  (List.range es.length).filter fun k => ((es.getD k {}).tags.head? == some id)

theorem members_append (es : List Element) (e : Element) (id : Int) :
    members (es ++ [e]) id = members es id ++ if e.tags.head? = some id then [es.length] else [] := by
  unfold members
  rw [List.length_append, List.length_singleton, List.range_succ, List.filter_append]
  congr 1
  · refine List.filter_congr fun k hk => ?_
    rw [List.getD_append _ _ _ _ (List.mem_range.mp hk)]
  · have : (es ++ [e]).getD es.length {} = e := by
      rw [List.getD_append_right _ _ _ _ le_rfl]; simp
    simp only [List.filter_cons, this, List.filter_nil]
    by_cases h : e.tags.head? = some id <;> simp [h]

theorem mem_members_lt {es : List Element} {id : Int} {k : Nat} (h : k ∈ members es id) : k < es.length :=
  List.mem_range.mp (List.mem_of_mem_filter h)

/-- what holds of the tables after the elements `es` (without points) -/
structure GroupInv (names : List PhysicalName) (es : List Element) (s : GroupState) : Prop where
  num : s.numElements = es.length
  sorted : s.groups.Sorted
  groups : ∀ id, (members es id = [] → s.groups.find? id = none) ∧
    (members es id ≠ [] → ∃ g, s.groups.find? id = some g ∧ g.Inv ∧ g.data = members es id)
  named : ∀ name id, s.named.lookup name = some id → name ≠ [] ∧ name = upper (groupName names id) ∧ members es id ≠ []
  complete : ∀ id, members es id ≠ [] → groupName names id ≠ [] →
    ∃ id', s.named.lookup (upper (groupName names id)) = some id'

theorem lookup_append {α β : Type _} [BEq α] [LawfulBEq α] [DecidableEq α] (l : List (α × β)) (a b : α) (v : β) (h : l.lookup a = none) :
    (l ++ [(a, v)]).lookup b = if b = a then some v else l.lookup b := by
  induction l with
  | nil =>
    by_cases hb : b = a
    · simp [hb]
    · have : (b == a) = false := by simpa using hb
      simp [List.lookup, hb, this]
  | cons x t ih =>
    obtain ⟨k, w⟩ := x
    rw [List.cons_append, List.lookup_cons, List.lookup_cons] at *
    by_cases hk : b = k
    · subst hk
      have : b ≠ a := by rintro rfl; simp at h
      simp [this]
    · have hk' : (b == k) = false := by simpa using hk
      rw [hk']
      simp only
      by_cases ha : (a == k) = true
      · rw [ha] at h; simp at h
      · have ha : (a == k) = false := by simpa using ha
        rw [ha] at h
        exact ih h

theorem upper_eq_nil {s : List Char} : upper s = [] ↔ s = [] := by simp [upper]

theorem groupInv_step {names : List PhysicalName} {es : List Element} {s : GroupState} (h : GroupInv names es s) (e : Element)
    (tag : Int) (ht : e.tags.head? = some tag) :
    GroupInv names (es ++ [e]) (addToGroup names { s with numElements := s.numElements + 1 } s.numElements tag) := by
  have hm : ∀ id, members (es ++ [e]) id = members es id ++ if tag = id then [es.length] else [] := by
    intro id
    rw [members_append, ht]
    simp
  have hnot : ∀ id, es.length ∉ members es id := fun id hk => lt_irrefl _ (mem_members_lt hk)
  unfold addToGroup
  cases hf : s.groups.find? tag with
  | some g =>
    have hne : members es tag ≠ [] := fun h0 => by rw [(h.groups tag).1 h0] at hf; cases hf
    obtain ⟨g', k1, k2, k3⟩ := (h.groups tag).2 hne
    obtain rfl : g = g' := Option.some_injective _ (hf.symm.trans k1)
    have hadd : (g.add s.numElements).data = members es tag ++ [es.length] := by
      rw [Group.data_add k2, k3, h.num]
      simp [hnot tag]
    have hmne : ∀ id, members (es ++ [e]) id ≠ [] ↔ members es id ≠ [] := by
      intro id
      rw [hm]
      by_cases hid : tag = id
      · subst hid; simp [hne]
      · simp [hid]
    refine ⟨by simp [h.num], OMap.sorted_set h.sorted _ _, fun id => ?_, fun name id hl => ?_, fun id hid hn => ?_⟩
    · simp only [OMap.find?_set]
      by_cases hid : tag = id
      · subst hid
        refine ⟨fun h0 => absurd h0 ((hmne tag).mpr hne), fun _ => ⟨g.add s.numElements, by simp,
          Group.inv_add k2 _, by rw [hadd, hm]; simp⟩⟩
      · have : ¬ id = tag := Ne.symm hid
        rw [hm]
        simp only [hid, if_false, List.append_nil, this]
        exact h.groups id
    · obtain ⟨q1, q2, q3⟩ := h.named name id hl
      exact ⟨q1, q2, (hmne id).mpr q3⟩
    · exact h.complete id ((hmne id).mp hid) hn
  | none =>
    have h0 : members es tag = [] := by
      by_contra hne
      obtain ⟨g, k1, -⟩ := (h.groups tag).2 hne
      rw [k1] at hf; cases hf
    have hmne : ∀ id, members es id ≠ [] → members (es ++ [e]) id ≠ [] := by
      intro id hid h0
      rw [hm] at h0
      exact hid (List.append_eq_nil_iff.mp h0).1
    have htag : members (es ++ [e]) tag ≠ [] := by rw [hm]; simp
    refine ⟨by simp [h.num], OMap.sorted_set h.sorted _ _, fun id => ?_, fun name id hl => ?_, fun id hid hn => ?_⟩
    · simp only [OMap.find?_set]
      by_cases hid : tag = id
      · subst hid
        refine ⟨fun h0 => absurd h0 htag, fun _ => ⟨Group.ofList [s.numElements], by simp, ?_, ?_⟩⟩
        · exact Group.inv_foldl_add _ _ Group.inv_empty
        · rw [hm, h0, h.num]
          have : (Group.ofList [es.length]).data = (Group.empty.add es.length).data := rfl
          rw [this, Group.data_add Group.inv_empty]
          simp [Group.empty]
      · have : ¬ id = tag := Ne.symm hid
        rw [hm]
        simp only [hid, if_false, List.append_nil, this]
        exact h.groups id
    · simp only at hl
      by_cases hc : (upper (groupName names tag)).length > 0 ∧ s.named.lookup (upper (groupName names tag)) = none
      · rw [if_pos hc, lookup_append _ _ _ _ hc.2] at hl
        by_cases hname : name = upper (groupName names tag)
        · rw [if_pos hname] at hl
          obtain rfl : tag = id := Option.some_injective _ hl
          exact ⟨by rw [hname]; exact List.length_pos_iff.mp hc.1, hname, htag⟩
        · rw [if_neg hname] at hl
          obtain ⟨q1, q2, q3⟩ := h.named name id hl
          exact ⟨q1, q2, hmne id q3⟩
      · rw [if_neg hc] at hl
        obtain ⟨q1, q2, q3⟩ := h.named name id hl
        exact ⟨q1, q2, hmne id q3⟩
    · simp only
      by_cases hc : (upper (groupName names tag)).length > 0 ∧ s.named.lookup (upper (groupName names tag)) = none
      · rw [if_pos hc, lookup_append _ _ _ _ hc.2]
        by_cases hname : upper (groupName names id) = upper (groupName names tag)
        · exact ⟨tag, by rw [if_pos hname]⟩
        · rw [if_neg hname]
          by_cases hid' : tag = id
          · subst hid'; exact absurd rfl hname
          · rw [hm, if_neg hid', List.append_nil] at hid
            exact h.complete id hid hn
      · rw [if_neg hc]
        by_cases hid' : tag = id
        · subst hid'
          rw [not_and] at hc
          have hc := hc (List.length_pos_iff.mpr (fun h => hn (upper_eq_nil.mp h)))
          exact Option.ne_none_iff_exists'.mp hc
        · rw [hm, if_neg hid', List.append_nil] at hid
          exact h.complete id hid hn

theorem createElements_inv (check : Element → Res Unit) (names : List PhysicalName) (l es : List Element) (s s' : GroupState)
    (h : GroupInv names es s) (hs : Res.foldlM (createElement check names) s l = .ok s') :
    GroupInv names (es ++ solids l) s' := by
  induction l generalizing es s with
  | nil => rw [Res.foldlM_nil] at hs; injection hs with hs; subst hs; simpa [solids] using h
  | cons e t ih =>
    rw [Res.foldlM_cons] at hs
    by_cases h15 : e.type = 15
    · have : createElement check names s e = .ok s := by simp [createElement, h15]
      rw [this, Res.bind_ok'] at hs
      have := ih es s h hs
      simpa [solids, h15] using this
    · simp only [createElement, h15, if_false] at hs
      cases hc : check e with
      | throw => rw [hc] at hs; cases hs
      | ub => rw [hc] at hs; cases hs
      | ok u =>
        rw [hc, Res.bind_ok'] at hs
        cases ht : e.tags with
        | nil => rw [ht] at hs; cases hs
        | cons tag ts =>
          rw [ht] at hs
          have := ih (es ++ [e]) _ (groupInv_step h e tag (by rw [ht]; rfl)) hs
          simpa [solids, h15] using this

theorem inv_of_created {check : Element → Res Unit} {names : List PhysicalName} {elements : List Element} {s : GroupState}
    (hs : createElements check names elements = .ok s) : GroupInv names (solids elements) s := by
  have := createElements_inv check names elements [] ⟨[], [], 0⟩ s
    ⟨rfl, List.Pairwise.nil, fun id => ⟨fun _ => rfl, fun h => absurd rfl h⟩, fun _ _ h => (by cases h),
      fun id h => absurd rfl h⟩ hs
  simpa using this

/-- **C71** Every element of the file that is not a point becomes one element of the mesh. -/
theorem C71_elements (check : Element → Res Unit) (names : List PhysicalName) (elements : List Element) (s : GroupState)
    (hs : createElements check names elements = .ok s) : s.numElements = (solids elements).length :=
  (inv_of_created hs).num

/-- **C71** `GetPhysicalGroup(id)` contains exactly the elements whose first tag is `id`, once, in the order of the file; it throws
exactly if there is no such element. -/
theorem C71_by_id (check : Element → Res Unit) (names : List PhysicalName) (elements : List Element) (s : GroupState)
    (hs : createElements check names elements = .ok s) (id : Int) :
    (members (solids elements) id ≠ [] → ∃ g, groupById s id = .ok g ∧ g.data = members (solids elements) id) ∧
    (members (solids elements) id = [] → groupById s id = .throw) := by
  have h := inv_of_created hs
  constructor
  · intro hne
    obtain ⟨g, h1, -, h3⟩ := (h.groups id).2 hne
    exact ⟨g, by simp [groupById, h1], h3⟩
  · intro h0
    simp [groupById, (h.groups id).1 h0]

/-- **C71** `GetPhysicalGroup(name)` never returns anything else than the group of an id whose name is the requested one up to upper and
lower case; it throws exactly if no such group has elements. -/
theorem C71_by_name_sound (check : Element → Res Unit) (names : List PhysicalName) (elements : List Element) (s : GroupState)
    (hs : createElements check names elements = .ok s) (name : List Char) (hne : name ≠ []) :
    (∃ id g, groupByName s name = .ok g ∧ upper name = upper (groupName names id) ∧ g.data = members (solids elements) id ∧
      members (solids elements) id ≠ []) ∨
    (groupByName s name = .throw ∧ ∀ id, members (solids elements) id ≠ [] → upper (groupName names id) ≠ upper name) := by
  have h := inv_of_created hs
  unfold groupByName
  cases hl : s.named.lookup (upper name) with
  | some id =>
    obtain ⟨q1, q2, q3⟩ := h.named _ _ hl
    obtain ⟨g, k1, -, k3⟩ := (h.groups id).2 q3
    exact Or.inl ⟨id, g, by simp [k1], q2, k3, q3⟩
  | none =>
    refine Or.inr ⟨rfl, fun id hid he => ?_⟩
    have : groupName names id ≠ [] := fun h0 => by
      rw [h0] at he; exact hne (upper_eq_nil.mp he.symm)
    obtain ⟨id', hid'⟩ := h.complete id hid this
    rw [he, hl] at hid'
    cases hid'

/-- **C71** (partial) If no two groups with elements have the same name up to case, a named group is found by its name in any spelling
of upper and lower case.  Not true without the condition, see the counterexamples. -/
theorem C71_by_name_partial (check : Element → Res Unit) (names : List PhysicalName) (elements : List Element) (s : GroupState)
    (hs : createElements check names elements = .ok s) (id : Int) (hid : members (solids elements) id ≠ [])
    (hname : groupName names id ≠ [])
    (huniq : ∀ id', members (solids elements) id' ≠ [] → upper (groupName names id') = upper (groupName names id) → id' = id)
    (name : List Char) (hcase : upper name = upper (groupName names id)) :
    ∃ g, groupByName s name = .ok g ∧ g.data = members (solids elements) id := by
  have hne : name ≠ [] := fun h0 => by rw [h0] at hcase; exact hname (upper_eq_nil.mp hcase.symm)
  rcases C71_by_name_sound check names elements s hs name hne with ⟨id', g, h1, h2, h3, h4⟩ | ⟨-, h2⟩
  · rw [huniq id' h4 (h2.symm.trans hcase)] at h3
    exact ⟨g, h1, h3⟩
  · exact absurd hcase.symm (h2 id hid)

/-- **C71** The name of a group is the one in the first entry of the section of physical names that has its id, whatever the
dimensions in the entries; a group whose id is not in the section has no name. -/
theorem C71_name (names : List PhysicalName) (id : Int) :
    (∀ pre n post, names = pre ++ n :: post → n.id = id → (∀ k ∈ pre, k.id ≠ id) → groupName names id = n.name) ∧
    ((∀ n ∈ names, n.id ≠ id) → groupName names id = []) := by
  constructor
  · rintro pre n post rfl hn hpre
    have : (pre ++ n :: post).find? (fun n => n.id == id) = some n := by
      rw [List.find?_append, List.find?_eq_none.2 (by simpa using hpre)]
      simp [hn]
    rw [groupName, this]
  · intro h
    rw [groupName, List.find?_eq_none.2 (by simpa using h)]

/-- The second entry has the id, the first only a dimension of the same value. -/
example : groupName [⟨7, 1, ['a']⟩, ⟨2, 7, ['b']⟩] 7 = ['b'] ∧ groupName [⟨7, 1, ['a']⟩] 7 = [] :=
  ⟨(C71_name _ 7).1 [⟨7, 1, ['a']⟩] ⟨2, 7, ['b']⟩ [] rfl rfl (by simp), (C71_name _ 7).2 (by simp)⟩

/-- **C71** A name without white space arrives without its quotation marks. -/
theorem C71_read_name_partial (name : List Char) (h : ∀ c ∈ name, isSpace c = false ∧ c ≠ '"') (pad : Nat) (rest : List Char)
    (hrest : rest = [] ∨ ∃ c t, rest = c :: t ∧ isSpace c = true) :
    readName (List.replicate pad ' ' ++ '"' :: name ++ '"' :: rest) = name := by
  have e1 : (List.replicate pad ' ' ++ '"' :: name ++ '"' :: rest).dropWhile isSpace = '"' :: name ++ '"' :: rest := by
    induction pad with
    | zero => rfl
    | succ k ih =>
      rw [List.replicate_succ, List.cons_append, List.cons_append, List.dropWhile_cons_of_pos (by rfl)]
      exact ih
  have e2 : ('"' :: name ++ '"' :: rest).takeWhile (fun c => !isSpace c) = '"' :: name ++ ['"'] := by
    rw [List.cons_append, List.takeWhile_cons_of_pos (by rfl), List.takeWhile_append_of_pos (fun c hc => by simp [(h c hc).1]),
      List.takeWhile_cons_of_pos (by rfl)]
    rcases hrest with rfl | ⟨c, t, rfl, hc⟩
    · rfl
    · rw [List.takeWhile_cons_of_neg (by simp [hc])]
      rfl
  rw [readName, e1, e2, List.cons_append, List.filter_cons_of_neg (by simp), List.filter_append]
  rw [List.filter_eq_self.mpr (fun c hc => by simpa using (h c hc).2)]
  simp

/-- a check that accepts everything -/
def acceptAll : Element → Res Unit := fun _ => .ok ()

/-- the elements found under a name after reading a file -/
def found (names : List PhysicalName) (elements : List Element) (name : String) : Res (List Nat) :=
  (createElements acceptAll names elements).bind fun s => (groupByName s name.toList).bind fun g => .ok g.data

/-- **C71** gmsh numbers the physical groups of lines, surfaces and volumes separately.  Here a line and a triangle have the number 1;
the group "edge" of lines contains the triangle, and the group "plate" does not exist. -/
theorem C71_dimension_counterexample :
    found [⟨1, 1, "edge".toList⟩, ⟨2, 1, "plate".toList⟩] [⟨1, 1, [1, 5], [1, 2]⟩, ⟨2, 2, [1, 6], [1, 2, 3]⟩] "edge" = .ok [0, 1] ∧
    found [⟨1, 1, "edge".toList⟩, ⟨2, 1, "plate".toList⟩] [⟨1, 1, [1, 5], [1, 2]⟩, ⟨2, 2, [1, 6], [1, 2, 3]⟩] "plate" = .throw := by
  decide +kernel

/-- **C71** Names that differ only in case are one name; the second group cannot be found. -/
theorem C71_case_counterexample :
    found [⟨1, 1, "left".toList⟩, ⟨1, 2, "Left".toList⟩] [⟨1, 1, [1, 5], [1, 2]⟩, ⟨2, 1, [2, 6], [2, 3]⟩] "Left" = .ok [0] := by
  decide +kernel

/-- **C71** Names with blanks are cut at the first blank, so two such names may become one. -/
theorem C71_blank_counterexample :
    readName " \"part one\"".toList = "part".toList ∧ readName " \"part two\"".toList = "part".toList :=
  ⟨rfl, rfl⟩

section Nodes
variable {K : Type _} [Zero K] [DecidableEq K]

theorem dimension_fold (nodes : List (NodeRecord K)) (s : Bool × Bool) :
    (nodes.foldl dimensionStep s).1 = (s.1 || nodes.any fun n => decide (n.y ≠ 0)) ∧
    (nodes.foldl dimensionStep s).2 = (s.2 || nodes.any fun n => decide (n.z ≠ 0)) := by
  induction nodes generalizing s with
  | nil => simp
  | cons n t ih =>
    rw [List.foldl_cons, (ih _).1, (ih _).2]
    simp [dimensionStep, Bool.or_assoc]

/-- **C71** The dimension of the mesh is the smallest one in which no coordinate is lost. -/
theorem C71_dimension (nodes : List (NodeRecord K)) :
    (∀ d, (∀ n ∈ nodes, (d < 2 → n.y = 0) ∧ (d < 3 → n.z = 0)) ∧ 1 ≤ d ↔ findDimension nodes ≤ d) := by
  intro d
  have h1 := (dimension_fold nodes (false, false)).1
  have h2 := (dimension_fold nodes (false, false)).2
  simp only [Bool.false_or] at h1 h2
  unfold findDimension
  simp only [h1, h2, List.any_eq_true, decide_eq_true_eq]
  by_cases hz : ∃ n ∈ nodes, n.z ≠ 0
  · rw [if_pos hz]
    constructor
    · rintro ⟨h, -⟩
      obtain ⟨n, hn, hz⟩ := hz
      by_contra hd
      exact hz ((h n hn).2 (by omega))
    · intro hd
      exact ⟨fun n hn => ⟨fun h => by omega, fun h => by omega⟩, by omega⟩
  · rw [if_neg hz]
    have hz' : ∀ n ∈ nodes, n.z = 0 := fun n hn => by by_contra h; exact hz ⟨n, hn, h⟩
    by_cases hy : ∃ n ∈ nodes, n.y ≠ 0
    · rw [if_pos hy]
      constructor
      · rintro ⟨h, -⟩
        obtain ⟨n, hn, hy⟩ := hy
        by_contra hd
        exact hy ((h n hn).1 (by omega))
      · intro hd
        exact ⟨fun n hn => ⟨fun h => by omega, fun _ => hz' n hn⟩, by omega⟩
    · rw [if_neg hy]
      have hy' : ∀ n ∈ nodes, n.y = 0 := fun n hn => by by_contra h; exact hy ⟨n, hn, h⟩
      exact ⟨fun h => h.2, fun hd => ⟨fun n hn => ⟨fun _ => hy' n hn, fun _ => hz' n hn⟩, hd⟩⟩

theorem createNodes_fold (d : Nat) (l done : List (NodeRecord K)) (s : List (List K) × (Int → Option Nat))
    (h1 : s.1 = done.map (coordsOf d))
    (h2 : ∀ id k, s.2 id = some k ↔ ∃ n, done[k]? = some n ∧ n.id = id ∧ ∀ k' n', k < k' → done[k']? = some n' → n'.id ≠ id) :
    (l.foldl (createNode d) s).1 = (done ++ l).map (coordsOf d) ∧
    ∀ id k, (l.foldl (createNode d) s).2 id = some k ↔
      ∃ n, (done ++ l)[k]? = some n ∧ n.id = id ∧ ∀ k' n', k < k' → (done ++ l)[k']? = some n' → n'.id ≠ id := by
  induction l generalizing done s with
  | nil => simpa using ⟨h1, h2⟩
  | cons a t ih =>
    have := ih (done ++ [a]) (createNode d s a) (by simp [createNode, h1]) (fun id k => ?_)
    · simpa using this
    · have hlen : s.1.length = done.length := by rw [h1, List.length_map]
      simp only [createNode, hlen]
      by_cases hid : id = a.id
      · rw [if_pos hid]
        constructor
        · intro h
          obtain rfl : done.length = k := Option.some_injective _ h
          refine ⟨a, by simp, hid.symm, fun k' n' hk hn => ?_⟩
          rw [List.getElem?_eq_none (by simp; omega)] at hn; cases hn
        · rintro ⟨n, q1, q2, q3⟩
          have hk : k < (done ++ [a]).length := (List.getElem?_eq_some_iff.mp q1).1
          rw [List.length_append, List.length_singleton] at hk
          by_contra hne
          have : k < done.length := by
            rcases Nat.lt_succ_iff_lt_or_eq.mp hk with h | h
            · exact h
            · exact absurd (by rw [h]) hne
          exact q3 done.length a this (by simp) hid.symm
      · rw [if_neg hid, h2]
        constructor
        · rintro ⟨n, q1, q2, q3⟩
          have hk : k < done.length := (List.getElem?_eq_some_iff.mp q1).1
          refine ⟨n, by rw [List.getElem?_append_left hk, q1], q2, fun k' n' hk' hn => ?_⟩
          by_cases hl : k' < done.length
          · rw [List.getElem?_append_left hl] at hn; exact q3 k' n' hk' hn
          · have hl' : k' < (done ++ [a]).length := (List.getElem?_eq_some_iff.mp hn).1
            rw [List.length_append, List.length_singleton] at hl'
            obtain rfl : k' = done.length := by omega
            simp at hn
            rw [← hn]; exact Ne.symm hid
        · rintro ⟨n, q1, q2, q3⟩
          have hk : k < (done ++ [a]).length := (List.getElem?_eq_some_iff.mp q1).1
          rw [List.length_append, List.length_singleton] at hk
          have hk' : k < done.length := by
            by_contra hge
            obtain rfl : k = done.length := by omega
            simp at q1
            exact hid (by rw [← q2, q1])
          rw [List.getElem?_append_left hk'] at q1
          refine ⟨n, q1, q2, fun k' n' hlt hn => ?_⟩
          have hl : k' < done.length := (List.getElem?_eq_some_iff.mp hn).1
          exact q3 k' n' hlt (by rw [List.getElem?_append_left hl, hn])

/-- **C71** The nodes of the mesh are the nodes of the file, in order, with as many coordinates as the mesh has dimensions; a node
number of the file leads to the node with this number (to the last one if the file repeats a number), any other number to nothing. -/
theorem C71_nodes (nodes : List (NodeRecord K)) :
    (createNodes nodes).1 = nodes.map (fun n => [n.x, n.y, n.z].take (findDimension nodes)) ∧
    ∀ id k, (createNodes nodes).2 id = some k ↔
      ∃ n, nodes[k]? = some n ∧ n.id = id ∧ ∀ k' n', k < k' → nodes[k']? = some n' → n'.id ≠ id := by
  have := createNodes_fold (findDimension nodes) nodes [] ([], fun _ => none) rfl (fun id k => by simp)
  rw [List.nil_append] at this
  exact this

end Nodes

example : ∃ s, createElements acceptAll [⟨1, 1, "left".toList⟩, ⟨2, 7, "plate".toList⟩]
      [⟨1, 15, [], [1]⟩, ⟨2, 1, [1, 5], [1, 2]⟩, ⟨3, 2, [7, 6], [1, 2, 3]⟩] = .ok s ∧
    members (solids [⟨1, 15, [], [1]⟩, ⟨2, 1, [1, 5], [1, 2]⟩, ⟨3, 2, [7, 6], [1, 2, 3]⟩]) 7 = [1] ∧
    groupName [⟨1, 1, "left".toList⟩, ⟨2, 7, "plate".toList⟩] 7 ≠ [] ∧ upper "Plate".toList = upper "plate".toList :=
  ⟨_, rfl, by decide, by decide, by decide⟩

example : (createNodes [(⟨4, 1, 2, 0⟩ : NodeRecord ℚ), ⟨9, 3, 0, 0⟩]).1 = [[1, 2], [3, 0]] := by decide +kernel

end Gmsh
end NuTo
