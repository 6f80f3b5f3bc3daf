import Verif.Lemmas.Constraints
import Mathlib.Tactic.NormNum
import Mathlib.Tactic.FieldSimp

/-!
C08-C11: constraint sets, constraint matrix, JK numbering.
-/
set_option linter.unusedSectionVars false
namespace NuTo
variable {K : Type _}

/-! ### C08 -/

/-- calls a user can make -/
inductive ConstraintCall (K : Type _) where
  | one (dof : Nat) (e : Equation K)
  | many (dof : Nat) (es : List (Equation K))

/-- equations named in a call -/
def ConstraintCall.eqs : ConstraintCall K → List (Equation K)
  | .one _ e => [e]
  | .many _ es => es

/-- the object after one call (a raised exception leaves the object in the state reached) -/
def Constraints.call (c : Constraints K) : ConstraintCall K → Constraints K
  | .one d e => match c.add d e with | .ok c' => c' | _ => c
  | .many d es => (c.addMany d es).1

/-- the object after a history of calls -/
def Constraints.after (h : List (ConstraintCall K)) : Constraints K := h.foldl Constraints.call Constraints.empty

/-- a dof occurs as an independent term -/
def Equation.uses (e : Equation K) (k : Nat × Int) : Prop := ∃ t ∈ e.ind, (t.node, t.comp) = k

/-- equations `e` and `f` can stand together: different dependent dofs, neither uses the other's dependent dof -/
def Equation.Compatible (e f : Equation K) : Prop :=
  (e.dep.node, e.dep.comp) ≠ (f.dep.node, f.dep.comp) ∧ ¬ f.uses (e.dep.node, e.dep.comp) ∧
    ¬ e.uses (f.dep.node, f.dep.comp)

/-- the state invariant: the term sets are exactly the terms of the stored equations, and equations at different places are
compatible -/
structure Constraints.Inv (c : Constraints K) : Prop where
  dep : ∀ k, k ∈ c.depTerms ↔ ∃ d, ∃ e ∈ c.equations d, e.dep.key = k
  ind : ∀ k, k ∈ c.indTerms ↔ ∃ d, ∃ e ∈ c.equations d, e.uses k
  pair : ∀ (d i d' j : Nat) (e f : Equation K), (c.equations d)[i]? = some e → (c.equations d')[j]? = some f → (d, i) ≠ (d', j) →
    e.Compatible f

theorem Constraints.conflicts_iff {c : Constraints K} (hc : c.Inv) (e : Equation K) :
    c.conflicts e = true ↔ ∃ d, ∃ f ∈ c.equations d, ¬ f.Compatible e := by
  have h1 : c.conflicts e = true ↔ e.dep.key ∈ c.depTerms ∨ e.dep.key ∈ c.indTerms ∨
      ∃ t ∈ e.ind, t.key ∈ c.depTerms := by
    simp [Constraints.conflicts, or_assoc]
  rw [h1, hc.dep, hc.ind]
  constructor
  · rintro (⟨d, f, hf, hk⟩ | ⟨d, f, hf, hu⟩ | ⟨t, ht, hk⟩)
    · exact ⟨d, f, hf, fun h => h.1 hk⟩
    · exact ⟨d, f, hf, fun h => h.2.2 hu⟩
    · obtain ⟨d, f, hf, hk⟩ := (hc.dep _).mp hk
      exact ⟨d, f, hf, fun h => h.2.1 ⟨t, ht, hk.symm⟩⟩
  · rintro ⟨d, f, hf, hn⟩
    unfold Equation.Compatible at hn
    by_cases h2 : (f.dep.node, f.dep.comp) = (e.dep.node, e.dep.comp)
    · exact Or.inl ⟨d, f, hf, h2⟩
    · by_cases h3 : e.uses (f.dep.node, f.dep.comp)
      · obtain ⟨t, ht, hk⟩ := h3
        exact Or.inr (Or.inr ⟨t, ht, (hc.dep _).mpr ⟨d, f, hf, hk.symm⟩⟩)
      · by_cases h4 : f.uses (e.dep.node, e.dep.comp)
        · exact Or.inr (Or.inl ⟨d, f, hf, h4⟩)
        · exact absurd ⟨h2, h3, h4⟩ hn

theorem Equation.Compatible.symm {e f : Equation K} (h : e.Compatible f) : f.Compatible e :=
  ⟨Ne.symm h.1, h.2.2, h.2.1⟩

theorem Constraints.equations_add {c c' : Constraints K} {d : Nat} {e : Equation K} (h : c.add d e = .ok c') (d' : Nat) :
    c'.equations d' = if d' = d then c.equations d ++ [e] else c.equations d' := by
  unfold Constraints.add at h
  split at h
  · cases h
  · simp only [Res.ok.injEq] at h
    subst h
    simp only [Constraints.equations, OMap.find?_set]
    split <;> simp

theorem Constraints.inv_add {c c' : Constraints K} (hc : c.Inv) {d : Nat} {e : Equation K} (h : c.add d e = .ok c') :
    c'.Inv := by
  have heq := Constraints.equations_add h
  have hcomp : ∀ d', ∀ f ∈ c.equations d', f.Compatible e := by
    intro d' f hf
    by_contra hn
    have : c.conflicts e = true := (Constraints.conflicts_iff hc e).mpr ⟨d', f, hf, hn⟩
    unfold Constraints.add at h
    rw [if_pos this] at h
    cases h
  have hstruct : c'.depTerms = e.dep.key :: c.depTerms ∧ c'.indTerms = e.ind.map Term.key ++ c.indTerms := by
    unfold Constraints.add at h
    split at h
    · cases h
    · simp only [Res.ok.injEq] at h
      subst h; exact ⟨rfl, rfl⟩
  have hmem : ∀ (P : Equation K → Prop), (∃ d', ∃ f ∈ c'.equations d', P f) ↔ P e ∨ ∃ d', ∃ f ∈ c.equations d', P f := by
    intro P
    constructor
    · rintro ⟨d', f, hf, hP⟩
      rw [heq] at hf
      split at hf
      · rcases List.mem_append.mp hf with hf | hf
        · exact Or.inr ⟨d, f, hf, hP⟩
        · simp at hf; subst hf; exact Or.inl hP
      · exact Or.inr ⟨d', f, hf, hP⟩
    · rintro (hP | ⟨d', f, hf, hP⟩)
      · exact ⟨d, e, by rw [heq]; simp, hP⟩
      · refine ⟨d', f, ?_, hP⟩
        rw [heq]; split
        · subst_vars; simp [hf]
        · exact hf
  refine ⟨?_, ?_, ?_⟩
  · intro k
    rw [hstruct.1, List.mem_cons, hc.dep, hmem]
    exact or_congr eq_comm Iff.rfl
  · intro k
    rw [hstruct.2, List.mem_append, hc.ind, hmem, List.mem_map]
    rfl
  · intro d1 i d2 j f g hf hg hne
    rw [heq] at hf hg
    have split1 : ∀ d1 i f, (if d1 = d then c.equations d ++ [e] else c.equations d1)[i]? = some f →
        (c.equations d1)[i]? = some f ∨ (f = e ∧ d1 = d ∧ i = (c.equations d).length) := by
      intro d1 i f hf
      split at hf
      · rename_i hd
        subst hd
        rw [List.getElem?_append] at hf
        split at hf
        · exact Or.inl hf
        · rename_i hi
          have : i - (c.equations d1).length = 0 := by
            by_contra hz
            rw [List.getElem?_eq_none (by simp; omega)] at hf
            cases hf
          rw [this] at hf
          simp at hf
          exact Or.inr ⟨hf.symm, rfl, by omega⟩
      · exact Or.inl hf
    rcases split1 d1 i f hf with hf' | ⟨rfl, h1, h2⟩
    · rcases split1 d2 j g hg with hg' | ⟨rfl, h3, h4⟩
      · exact hc.pair d1 i d2 j f g hf' hg' hne
      · exact hcomp d1 f (List.mem_of_getElem? hf')
    · rcases split1 d2 j g hg with hg' | ⟨rfl, h3, h4⟩
      · exact (hcomp d2 g (List.mem_of_getElem? hg')).symm
      · exact absurd (by rw [h1, h2, h3, h4]) hne

theorem Constraints.inv_call {c : Constraints K} (hc : c.Inv) (op : ConstraintCall K) : (c.call op).Inv := by
  cases op with
  | one d e =>
    simp only [Constraints.call]
    split
    · rename_i c' h; exact inv_add hc h
    · exact hc
  | many d es =>
    simp only [Constraints.call, Constraints.addMany]
    split
    · exact hc
    · have : ∀ (es : List (Equation K)) (c : Constraints K), c.Inv → (Constraints.addMany.go d c es).1.Inv := by
        intro es
        induction es with
        | nil => intro c hc; exact hc
        | cons e es ih =>
          intro c hc
          unfold Constraints.addMany.go
          split
          · rename_i c' h; exact ih c' (inv_add hc h)
          · exact hc
      exact this es c hc

theorem Constraints.inv_after (h : List (ConstraintCall K)) : (Constraints.after h).Inv := by
  unfold Constraints.after
  have : ∀ c : Constraints K, c.Inv → (h.foldl Constraints.call c).Inv := by
    induction h with
    | nil => intro c hc; exact hc
    | cons op h ih => intro c hc; exact ih _ (inv_call hc op)
  apply this
  refine ⟨?_, ?_, ?_⟩ <;> simp [Constraints.empty, Constraints.equations, OMap.find?]

/-- C08: whatever was called, two different stored equations (of any dof types) have different dependent dofs and neither uses
the other's dependent dof.  Missing for the full claim: an equation that uses its own dependent dof is not rejected, see
`C08_self_reference_counterexample`. -/
theorem C08_resolvable_partial (h : List (ConstraintCall K)) (d i d' j : Nat) (e f : Equation K)
    (he : ((Constraints.after h).equations d)[i]? = some e) (hf : ((Constraints.after h).equations d')[j]? = some f)
    (hne : (d, i) ≠ (d', j)) : e.Compatible f :=
  (Constraints.inv_after h).pair d i d' j e f he hf hne

/-- C08 is false as stated: an equation whose own dependent dof is also one of its independent terms is accepted. -/
theorem C08_self_reference_counterexample : ∃ (h : List (ConstraintCall ℚ)) (e : Equation ℚ),
    e ∈ (Constraints.after h).equations 0 ∧ e.uses (e.dep.node, e.dep.comp) := by
  refine ⟨[.one 0 ⟨⟨1, 0, 1⟩, [⟨1, 0, 2⟩], fun t => t⟩], ⟨⟨1, 0, 1⟩, [⟨1, 0, 2⟩], fun t => t⟩, ?_, ?_⟩
  · simp [Constraints.after, Constraints.call, Constraints.add, Constraints.conflicts, Constraints.empty,
      Constraints.equations, OMap.find?, OMap.set]
  · exact ⟨⟨1, 0, 2⟩, by simp, rfl⟩

theorem Constraints.mem_after (h : List (ConstraintCall K)) (d : Nat) (e : Equation K)
    (he : e ∈ (Constraints.after h).equations d) : ∃ op ∈ h, e ∈ op.eqs := by
  have key : ∀ (h : List (ConstraintCall K)) (c : Constraints K), e ∈ (h.foldl Constraints.call c).equations d →
      e ∈ c.equations d ∨ ∃ op ∈ h, e ∈ op.eqs := by
    intro h
    induction h with
    | nil => intro c he; exact Or.inl he
    | cons op h ih =>
      intro c he
      rcases ih _ he with he | ⟨op', h1, h2⟩
      · have hadd : ∀ (c c' : Constraints K) d' f, c.add d' f = .ok c' → e ∈ c'.equations d → e ∈ c.equations d ∨ e = f := by
          intro c c' d' f hadd hm
          rw [equations_add hadd] at hm
          split at hm
          · subst_vars; simpa using hm
          · exact Or.inl hm
        cases op with
        | one d' f =>
          simp only [Constraints.call] at he
          split at he
          · rename_i c' hc
            rcases hadd _ _ _ _ hc he with he | rfl
            · exact Or.inl he
            · exact Or.inr ⟨.one d' e, by simp, by simp [ConstraintCall.eqs]⟩
          · exact Or.inl he
        | many d' es =>
          have hgo : ∀ (es : List (Equation K)) (c : Constraints K), e ∈ (Constraints.addMany.go d' c es).1.equations d →
              e ∈ c.equations d ∨ e ∈ es := by
            intro es
            induction es with
            | nil => intro c he; exact Or.inl he
            | cons f es ih2 =>
              intro c he
              unfold Constraints.addMany.go at he
              split at he
              · rename_i c' hc
                rcases ih2 c' he with he | he
                · rcases hadd _ _ _ _ hc he with he | rfl
                  · exact Or.inl he
                  · exact Or.inr (by simp)
                · exact Or.inr (by simp [he])
              · exact Or.inl he
          simp only [Constraints.call, Constraints.addMany] at he
          split at he
          · exact Or.inl he
          · rcases hgo _ _ he with he | he
            · exact Or.inl he
            · exact Or.inr ⟨.many d' es, by simp, he⟩
      · exact Or.inr ⟨op', by simp [h1], h2⟩
  rcases key h _ he with he | he
  · simp [Constraints.empty, Constraints.equations, OMap.find?] at he
  · exact he

/-- C08 in full for histories whose equations do not use their own dependent dof: no dependent dof is an independent term of
any equation. -/
theorem C08_resolvable_no_self_partial (h : List (ConstraintCall K))
    (hs : ∀ op ∈ h, ∀ e ∈ op.eqs, ¬ e.uses (e.dep.node, e.dep.comp)) (d i d' j : Nat) (e f : Equation K)
    (he : ((Constraints.after h).equations d)[i]? = some e) (hf : ((Constraints.after h).equations d')[j]? = some f) :
    ¬ f.uses (e.dep.node, e.dep.comp) := by
  by_cases hne : (d, i) = (d', j)
  · simp only [Prod.mk.injEq] at hne
    obtain ⟨rfl, rfl⟩ := hne
    rw [he] at hf
    simp only [Option.some.injEq] at hf
    subst hf
    obtain ⟨op, h1, h2⟩ := Constraints.mem_after h d e (List.mem_of_getElem? he)
    exact hs op h1 e h2
  · exact (C08_resolvable_partial h d i d' j e f he hf hne).2.1

/-- C08: `Add` raises exactly if the new equation clashes with a stored one; otherwise the equation is appended to its dof
type and nothing else changes. -/
theorem C08_add_decision (h : List (ConstraintCall K)) (d : Nat) (e : Equation K) :
    ((Constraints.after h).add d e = .throw ↔ ∃ d', ∃ f ∈ (Constraints.after h).equations d', ¬ f.Compatible e) ∧
    ((∀ d', ∀ f ∈ (Constraints.after h).equations d', f.Compatible e) →
      ∃ c', (Constraints.after h).add d e = .ok c' ∧
        ∀ d', c'.equations d' = if d' = d then (Constraints.after h).equations d ++ [e]
          else (Constraints.after h).equations d') := by
  have hi := Constraints.conflicts_iff (c := Constraints.after h) (Constraints.inv_after h) e
  constructor
  · rw [← hi]
    unfold Constraints.add
    split <;> simp_all
  · intro hall
    have hn : ¬ (Constraints.after h).conflicts e = true := by
      rw [hi]; rintro ⟨d', f, hf, hn⟩; exact hn (hall d' f hf)
    have : ∃ c', (Constraints.after h).add d e = .ok c' := by
      unfold Constraints.add; rw [if_neg hn]; exact ⟨_, rfl⟩
    obtain ⟨c', hc'⟩ := this
    exact ⟨c', hc', Constraints.equations_add hc'⟩

/-- C08: a batch stops at the first rejected equation and keeps the ones before it (an empty batch raises). -/
theorem C08_batch_prefix (c : Constraints K) (d : Nat) (es : List (Equation K)) :
    ∃ pre post, es = pre ++ post ∧ (c.addMany d es).1.equations d = c.equations d ++ pre ∧
      (∀ d', d' ≠ d → (c.addMany d es).1.equations d' = c.equations d') ∧
      ((c.addMany d es).2 = false ↔ es ≠ [] ∧ post = []) := by
  have hgo : ∀ (es : List (Equation K)) (c : Constraints K), ∃ pre post, es = pre ++ post ∧
      (Constraints.addMany.go d c es).1.equations d = c.equations d ++ pre ∧
      (∀ d', d' ≠ d → (Constraints.addMany.go d c es).1.equations d' = c.equations d') ∧
      ((Constraints.addMany.go d c es).2 = false ↔ post = []) := by
    intro es
    induction es with
    | nil => intro c; exact ⟨[], [], by simp [Constraints.addMany.go]⟩
    | cons e es ih =>
      intro c
      unfold Constraints.addMany.go
      split
      · rename_i c' hc
        obtain ⟨pre, post, h1, h2, h3, h4⟩ := ih c'
        refine ⟨e :: pre, post, by simp [h1], ?_, ?_, h4⟩
        · rw [h2, Constraints.equations_add hc]; simp
        · intro d' hd'; rw [h3 d' hd', Constraints.equations_add hc, if_neg hd']
      · exact ⟨[], e :: es, by simp⟩
  unfold Constraints.addMany
  split
  · exact ⟨[], [], by simp⟩
  · rename_i hne
    obtain ⟨pre, post, h1, h2, h3, h4⟩ := hgo es c
    exact ⟨pre, post, h1, h2, h3, by rw [h4]; exact ⟨fun h => ⟨hne, h⟩, fun h => h.2⟩⟩

/-! ### C09, C10, C11 -/

section
variable [Field K] [LinearOrder K]

/-- the value an equation has for a vector of dof values, read through the dof numbers -/
def Equation.lhs (num : Term K → Nat) (u : Nat → K) (e : Equation K) : K :=
  e.dep.coef * u (num e.dep) + (e.ind.map fun t => t.coef * u (num t)).sum

/-- every coefficient is zero or above the drop tolerance 1e-18 of the code -/
def NoTiny (eqs : List (Equation K)) : Prop :=
  ∀ e ∈ eqs, ∀ t ∈ e.ind, t.coef = 0 ∨ |t.coef| > 1 / 1000000000000000000

/-- exact law: what `C q + b` satisfies in general -/
theorem C09_general_partial (toFloat : K → K) (st : NodeStore K) (c : Constraints K) (dof n : Nat) (num : Term K → Nat)
    (time : K) (h : Constraints.Valid st (c.equations dof) n num) (h1 : ∀ e ∈ c.equations dof, e.dep.coef = 1) :
    ∃ C b, c.buildUnitConstraintMatrix st dof n = .ok C ∧ c.getSparseGlobalRhs toFloat st dof n time = .ok b ∧
      C.rows = n ∧ C.cols = n - (c.equations dof).length ∧ b.length = n ∧ C.WF ∧
      ∀ q : List K, q.length = C.cols → ∃ y, C.mulVec q = .ok y ∧ y.length = n ∧
        ∀ e ∈ c.equations dof,
          e.lhs num (fun i => y.getD i 0 + b.getD i 0) = toFloat (e.rhs time) +
            ((e.ind.filter fun t => ¬ |t.coef| > 1 / 1000000000000000000).map fun t =>
              t.coef * (y.getD (num t) 0 + b.getD (num t) 0)).sum := by
  have hb := Constraints.build_ok st c dof n num h
  obtain ⟨b, b1, b2, b3, b4⟩ := Constraints.rhs_ok toFloat st c dof n num time h
  have hwf : (⟨n, n - (c.equations dof).length, Constraints.cTriplets num (c.equations dof) n⟩ : SpMat K).WF := by
    intro t ht
    simp only at *
    unfold Constraints.cTriplets at ht
    have hlen := h.length_indeps
    rcases List.mem_append.mp ht with ht | ht
    · obtain ⟨i, hi, rfl⟩ := List.mem_map.mp ht
      have hi' := List.mem_range.mp hi
      refine ⟨?_, by simp only; omega⟩
      simp only [List.getD_eq_getElem?_getD, List.getElem?_eq_getElem hi', Option.getD_some]
      exact (Constraints.mem_indeps.mp (List.getElem_mem hi')).1
    · obtain ⟨e, hm, ht⟩ := List.mem_flatMap.mp ht
      obtain ⟨u, hu, rfl⟩ := List.mem_map.mp ht
      have hu' := (List.mem_filter.mp hu).1
      refine ⟨(h.numbered e hm e.dep (by simp)).2, ?_⟩
      simp only
      rw [← hlen]
      apply List.idxOf_lt_length_of_mem
      exact Constraints.mem_indeps.mpr ⟨(h.numbered e hm u (by simp [hu'])).2,
        fun f hf => (h.indep f hf e hm u hu').symm⟩
  refine ⟨_, b, hb, b1, rfl, rfl, b2, hwf, ?_⟩
  intro q hq
  refine ⟨(List.range n).map fun i => ((Constraints.cTriplets num (c.equations dof) n).map fun t =>
    if t.row = i then t.val * q.getD t.col 0 else 0).sum, ?_, by simp, ?_⟩
  · unfold SpMat.mulVec Res.require; rw [if_pos hq]
  intro e he
  have hy : ∀ g, g < n → ((List.range n).map fun i => ((Constraints.cTriplets num (c.equations dof) n).map fun t =>
      if t.row = i then t.val * q.getD t.col 0 else 0).sum).getD g 0 =
      ((Constraints.cTriplets num (c.equations dof) n).map fun t =>
        if t.row = g then t.val * q.getD t.col 0 else 0).sum := by
    intro g hg
    simp [List.getD_eq_getElem?_getD, hg]
  have hind : ∀ t ∈ e.ind, ((List.range n).map fun i => ((Constraints.cTriplets num (c.equations dof) n).map fun t =>
      if t.row = i then t.val * q.getD t.col 0 else 0).sum).getD (num t) 0 + b.getD (num t) 0 =
      q.getD ((Constraints.indeps num (c.equations dof) n).idxOf (num t)) 0 := by
    intro t ht
    have hn := h.numbered e he t (by simp [ht])
    rw [hy _ hn.2, Constraints.row_indep _ _ _ _ _ (Constraints.mem_indeps.mpr ⟨hn.2, fun f hf =>
      (h.indep f hf e he t ht).symm⟩), b4 _ (fun f hf => (h.indep f hf e he t ht).symm), add_zero]
  unfold Equation.lhs
  rw [h1 e he, one_mul]
  simp only
  rw [hy _ (h.numbered e he e.dep (by simp)).2, Constraints.row_dep st _ _ _ h q e he, b3 e he]
  have hs : (e.ind.map fun t => t.coef * (((List.range n).map fun i =>
      ((Constraints.cTriplets num (c.equations dof) n).map fun t =>
      if t.row = i then t.val * q.getD t.col 0 else 0).sum).getD (num t) 0 + b.getD (num t) 0)).sum =
      ((e.ind.filter fun t => |t.coef| > 1 / 1000000000000000000).map fun t => t.coef *
        q.getD ((Constraints.indeps num (c.equations dof) n).idxOf (num t)) 0).sum +
      ((e.ind.filter fun t => ¬ |t.coef| > 1 / 1000000000000000000).map fun t => t.coef *
        (((List.range n).map fun i =>
      ((Constraints.cTriplets num (c.equations dof) n).map fun t =>
      if t.row = i then t.val * q.getD t.col 0 else 0).sum).getD (num t) 0 + b.getD (num t) 0)).sum := by
    have gen : ∀ (l : List (Term K)) (f g : Term K → K), (∀ t ∈ l, f t = g t) →
        (l.map f).sum = ((l.filter fun t => |t.coef| > 1 / 1000000000000000000).map g).sum +
          ((l.filter fun t => ¬ |t.coef| > 1 / 1000000000000000000).map f).sum := by
      intro l f g hfg
      induction l with
      | nil => simp
      | cons t l ih =>
        have := ih (fun t' ht' => hfg t' (by simp [ht']))
        rw [List.map_cons, List.sum_cons, this, List.filter_cons, List.filter_cons]
        by_cases hc : |t.coef| > 1 / 1000000000000000000
        · rw [if_pos (by simpa using hc), if_neg (by simpa using hc), List.map_cons, List.sum_cons, hfg t (by simp)]
          ring
        · rw [if_neg (by simpa using hc), if_pos (by simpa using hc), List.map_cons, List.sum_cons]
          ring
    exact gen e.ind _ _ (fun t ht => by rw [hind t ht])
  rw [hs]
  have hneg : ((e.ind.filter fun t => |t.coef| > 1 / 1000000000000000000).map fun t => -t.coef *
        q.getD ((Constraints.indeps num (c.equations dof) n).idxOf (num t)) 0).sum =
      -((e.ind.filter fun t => |t.coef| > 1 / 1000000000000000000).map fun t => t.coef *
        q.getD ((Constraints.indeps num (c.equations dof) n).idxOf (num t)) 0).sum := by
    generalize e.ind.filter _ = l
    induction l with
    | nil => simp
    | cons t l ih => simp only [List.map_cons, List.sum_cons, ih]; ring
  rw [hneg]
  ring

/-- C09, exact if the right-hand side values are representable as `float` and no non-zero coefficient is below 1e-18.
Missing for the full claim: see the two counterexamples below. -/
theorem C09_satisfies_constraints_partial (toFloat : K → K) (st : NodeStore K) (c : Constraints K) (dof n : Nat)
    (num : Term K → Nat) (time : K) (h : Constraints.Valid st (c.equations dof) n num)
    (h1 : ∀ e ∈ c.equations dof, e.dep.coef = 1) (ht : NoTiny (c.equations dof))
    (hf : ∀ e ∈ c.equations dof, toFloat (e.rhs time) = e.rhs time) :
    ∃ C b, c.buildUnitConstraintMatrix st dof n = .ok C ∧ c.getSparseGlobalRhs toFloat st dof n time = .ok b ∧
      C.rows = n ∧ C.cols = n - (c.equations dof).length ∧ b.length = n ∧
      ∀ q : List K, q.length = C.cols → ∃ y, C.mulVec q = .ok y ∧ y.length = n ∧
        ∀ e ∈ c.equations dof, e.lhs num (fun i => y.getD i 0 + b.getD i 0) = e.rhs time := by
  obtain ⟨C, b, g1, g2, g3, g4, g5, g6, g7⟩ := C09_general_partial toFloat st c dof n num time h h1
  refine ⟨C, b, g1, g2, g3, g4, g5, ?_⟩
  intro q hq
  obtain ⟨y, y1, y2, y3⟩ := g7 q hq
  refine ⟨y, y1, y2, ?_⟩
  intro e he
  rw [y3 e he, hf e he, DofSpMat.list_sum_zero, add_zero]
  intro t htm
  have hm := List.mem_filter.mp htm
  rcases ht e he t hm.1 with h0 | h0
  · rw [h0, zero_mul]
  · simp only [not_lt, decide_eq_true_eq] at hm
    exact absurd h0 (not_lt.mpr hm.2)

/-- C10: every admissible vector is reached, by exactly one `q`: its values at the unconstrained dofs in ascending order. -/
theorem C10_complete_partial (toFloat : K → K) (st : NodeStore K) (c : Constraints K) (dof n : Nat)
    (num : Term K → Nat) (time : K) (h : Constraints.Valid st (c.equations dof) n num)
    (h1 : ∀ e ∈ c.equations dof, e.dep.coef = 1) (ht : NoTiny (c.equations dof))
    (hf : ∀ e ∈ c.equations dof, toFloat (e.rhs time) = e.rhs time) (u : List K)
    (hsat : ∀ e ∈ c.equations dof, e.lhs num (fun i => u.getD i 0) = e.rhs time) :
    ∃ C b, c.buildUnitConstraintMatrix st dof n = .ok C ∧ c.getSparseGlobalRhs toFloat st dof n time = .ok b ∧
      ∃ free : List Nat, (∀ g, g ∈ free ↔ g < n ∧ ∀ e ∈ c.equations dof, num e.dep ≠ g) ∧ free.Pairwise (· < ·) ∧
        ∀ q : List K, q.length = C.cols →
          ((∃ y, C.mulVec q = .ok y ∧ ∀ i, i < n → y.getD i 0 + b.getD i 0 = u.getD i 0) ↔
            q = free.map fun g => u.getD g 0) := by
  obtain ⟨b, b1, b2, b3, b4⟩ := Constraints.rhs_ok toFloat st c dof n num time h
  have hb := Constraints.build_ok st c dof n num h
  refine ⟨_, b, hb, b1, Constraints.indeps num (c.equations dof) n, fun g => Constraints.mem_indeps,
    List.Pairwise.filter _ List.pairwise_lt_range, ?_⟩
  intro q hq
  simp only at hq
  set ind := Constraints.indeps num (c.equations dof) n with hind
  have hlen : ind.length = n - (c.equations dof).length := h.length_indeps
  have hmv : SpMat.mulVec ⟨n, n - (c.equations dof).length, Constraints.cTriplets num (c.equations dof) n⟩ q =
      .ok ((List.range n).map fun i => ((Constraints.cTriplets num (c.equations dof) n).map fun t =>
        if t.row = i then t.val * q.getD t.col 0 else 0).sum) := by
    unfold SpMat.mulVec Res.require; rw [if_pos hq]
  have hy : ∀ g, g < n → ((List.range n).map fun i => ((Constraints.cTriplets num (c.equations dof) n).map fun t =>
      if t.row = i then t.val * q.getD t.col 0 else 0).sum).getD g 0 =
      ((Constraints.cTriplets num (c.equations dof) n).map fun t =>
        if t.row = g then t.val * q.getD t.col 0 else 0).sum := by
    intro g hg
    simp [List.getD_eq_getElem?_getD, hg]
  have hnd : ind.Nodup := List.nodup_range.filter _
  constructor
  · rintro ⟨y, y1, y2⟩
    rw [hmv] at y1
    simp only [Res.ok.injEq] at y1
    subst y1
    apply List.ext_getElem
    · rw [List.length_map, hq, hlen]
    · intro i hi hi'
      rw [List.length_map] at hi'
      have hm : ind[i] ∈ ind := List.getElem_mem hi'
      have hmi := Constraints.mem_indeps.mp hm
      have := y2 ind[i] hmi.1
      rw [hy _ hmi.1, Constraints.row_indep _ _ _ _ _ hm, b4 _ hmi.2, add_zero, ← hind, hnd.idxOf_getElem i hi'] at this
      rw [List.getElem_map, ← this]
      simp [List.getD_eq_getElem?_getD, hi]
  · rintro hqe
    refine ⟨_, hmv, ?_⟩
    have hqv : ∀ g ∈ ind, q.getD (ind.idxOf g) 0 = u.getD g 0 := by
      intro g hg
      have := List.idxOf_lt_length_of_mem hg
      rw [hqe]
      simp [List.getD_eq_getElem?_getD, this]
    intro i hi
    rw [hy i hi]
    by_cases hin : i ∈ ind
    · rw [Constraints.row_indep _ _ _ _ _ hin, b4 _ (Constraints.mem_indeps.mp hin).2, add_zero]
      exact hqv i hin
    · have : ∃ e ∈ c.equations dof, num e.dep = i := by
        by_contra hcon
        push Not at hcon
        exact hin (Constraints.mem_indeps.mpr ⟨hi, hcon⟩)
      obtain ⟨e, he, rfl⟩ := this
      rw [Constraints.row_dep st _ _ _ h q e he, b3 e he, hf e he]
      have hs := hsat e he
      unfold Equation.lhs at hs
      rw [h1 e he, one_mul] at hs
      have hsum : ((e.ind.filter fun t => |t.coef| > 1 / 1000000000000000000).map fun t => -t.coef *
          q.getD (ind.idxOf (num t)) 0).sum = -(e.ind.map fun t => t.coef * u.getD (num t) 0).sum := by
        have gen : ∀ (l : List (Term K)), (∀ t ∈ l, (t.coef = 0 ∨ |t.coef| > 1 / 1000000000000000000) ∧ num t ∈ ind) →
            ((l.filter fun t => |t.coef| > 1 / 1000000000000000000).map fun t => -t.coef *
              q.getD (ind.idxOf (num t)) 0).sum = -(l.map fun t => t.coef * u.getD (num t) 0).sum := by
          intro l hl
          induction l with
          | nil => simp
          | cons t l ih =>
            have ht := hl t (by simp)
            have := ih (fun t' ht' => hl t' (by simp [ht']))
            rw [List.filter_cons, List.map_cons, List.sum_cons]
            by_cases hc : |t.coef| > 1 / 1000000000000000000
            · rw [if_pos (by simpa using hc), List.map_cons, List.sum_cons, this, hqv _ ht.2]
              ring
            · rw [if_neg (by simpa using hc), this]
              rcases ht.1 with h0 | h0
              · rw [h0]; ring
              · exact absurd h0 hc
        apply gen
        intro t htm
        refine ⟨ht e he t htm, ?_⟩
        exact Constraints.mem_indeps.mpr ⟨(h.numbered e he t (by simp [htm])).2, fun f hf =>
          (h.indep f hf e he t htm).symm⟩
      rw [hsum, ← hs]
      ring

/-- C11: the JK numbering lists each number once: first the unconstrained ones ascending, then the dependent ones in equation
order. -/
theorem C11_jk_permutation (st : NodeStore K) (c : Constraints K) (dof n : Nat) (num : Term K → Nat)
    (h : ∀ e ∈ c.equations dof, e.dep.dofNumber st = .ok (num e.dep : Int) ∧ num e.dep < n)
    (hd : ((c.equations dof).map fun e => num e.dep).Nodup) :
    ∃ free dep, c.getJKNumbering st dof n = .ok (free ++ dep) ∧ (free ++ dep).Perm (List.range n) ∧
      free.Pairwise (· < ·) ∧ dep = (c.equations dof).map (fun e => num e.dep) ∧
      free.length = n - (c.equations dof).length ∧ ∀ g ∈ free, ∀ e ∈ c.equations dof, num e.dep ≠ g := by
  have hb : ∀ x ∈ (c.equations dof).map fun e => num e.dep, x < n := by
    intro x hx
    obtain ⟨e, he, rfl⟩ := List.mem_map.mp hx
    exact (h e he).2
  refine ⟨_, _, Constraints.jk_ok st c dof n num h hd, ?_, List.Pairwise.filter _ List.pairwise_lt_range, rfl, ?_, ?_⟩
  · have hnd : (Constraints.indeps num (c.equations dof) n ++ Constraints.deps num (c.equations dof)).Nodup := by
      rw [List.nodup_append]
      refine ⟨List.nodup_range.filter _, hd, ?_⟩
      intro a ha b hb hab
      obtain ⟨e, hm, rfl⟩ := List.mem_map.mp hb
      exact (Constraints.mem_indeps.mp ha).2 e hm hab.symm
    rw [List.perm_ext_iff_of_nodup hnd List.nodup_range]
    intro a
    rw [List.mem_append, List.mem_range]
    constructor
    · rintro (ha | ha)
      · exact (Constraints.mem_indeps.mp ha).1
      · exact hb a ha
    · intro ha
      by_cases hm : a ∈ Constraints.deps num (c.equations dof)
      · exact Or.inr hm
      · refine Or.inl (Constraints.mem_indeps.mpr ⟨ha, fun e he heq => hm (List.mem_map.mpr ⟨e, he, heq⟩)⟩)
  · have := count_unlisted n (Constraints.deps num (c.equations dof)) hd hb
    simpa [Constraints.indeps, Constraints.deps] using this
  · intro g hg
    exact (Constraints.mem_indeps.mp hg).2

/-- C11: an unnumbered (-1) or too large dependent dof raises. -/
theorem C11_jk_throws (st : NodeStore K) (c : Constraints K) (dof n : Nat) (num : Term K → Int)
    (hle : (c.equations dof).length ≤ n)
    (h : ∀ e ∈ c.equations dof, e.dep.dofNumber st = .ok (num e.dep) ∧ -1 ≤ num e.dep)
    (hbad : ∃ e ∈ c.equations dof, num e.dep = -1 ∨ (n : Int) ≤ num e.dep) :
    c.getJKNumbering st dof n = .throw := by
  have key : ∀ (l : List (Equation K)) (s : List Bool × List Nat),
      (∀ e ∈ l, e.dep.dofNumber st = .ok (num e.dep) ∧ -1 ≤ num e.dep) →
      (∃ e ∈ l, num e.dep = -1 ∨ (n : Int) ≤ num e.dep) →
      Res.foldlM (Constraints.jkStep st n) s l = .throw := by
    intro l
    induction l with
    | nil => intro s _ hb; obtain ⟨e, he, _⟩ := hb; simp at he
    | cons e l ih =>
      intro s hl hb
      obtain ⟨h1, h2⟩ := hl e (by simp)
      rw [Res.foldlM_cons]
      unfold Constraints.jkStep
      rw [h1, Res.bind_ok']
      by_cases hm : num e.dep = -1
      · rw [if_pos hm]; rfl
      · rw [if_neg hm]
        by_cases hg : num e.dep ≥ n
        · rw [if_pos hg]; rfl
        · rw [if_neg hg, if_neg (by omega)]
          simp only [Res.bind_ok']
          apply ih _ (fun f hf => hl f (by simp [hf]))
          obtain ⟨f, hf, hc⟩ := hb
          simp only [List.mem_cons] at hf
          rcases hf with rfl | hf
          · omega
          · exact ⟨f, hf, hc⟩
  unfold Constraints.getJKNumbering
  simp only [Res.require]
  rw [if_pos (show c.numEquations dof ≤ n from hle), key _ _ h hbad]
  rfl

end

/-! examples and counterexamples -/

/-- three dofs on one node: u0 + 2 u2 = rhs -/
def exStore9 : NodeStore ℚ := fun _ => ⟨[[0, 0, 0]], [0, 1, 2]⟩
def exC9 (coef rhs : ℚ) : Constraints ℚ := ⟨[(0, [⟨⟨1, 0, 1⟩, [⟨1, 2, coef⟩], fun _ => rhs⟩])], [(1, 0)], [(1, 2)]⟩

theorem exC9_valid (coef rhs : ℚ) : Constraints.Valid exStore9 ((exC9 coef rhs).equations 0) 3 (fun t => t.comp.toNat) := by
  have he : (exC9 coef rhs).equations 0 = [⟨⟨1, 0, 1⟩, [⟨1, 2, coef⟩], fun _ => rhs⟩] := by
    simp [exC9, Constraints.equations, OMap.find?]
  rw [he]
  refine ⟨?_, by simp, ?_⟩
  · intro e hm t ht
    simp at hm; subst hm
    simp at ht
    rcases ht with rfl | rfl <;> simp [Term.dofNumber, Node.getDofNumber, exStore9]
  · intro e hm f hf t ht
    simp at hm hf; subst hm; subst hf; simp at ht; subst ht; simp

/-- the hypotheses of C09/C10 hold for a non-trivial system (with exact conversion to float) -/
example : Constraints.Valid exStore9 ((exC9 2 5).equations 0) 3 (fun t => t.comp.toNat) ∧
    (∀ e ∈ (exC9 2 5).equations 0, e.dep.coef = 1) ∧ NoTiny ((exC9 2 5).equations 0) ∧
    (exC9 2 5).buildUnitConstraintMatrix exStore9 0 3 = .ok ⟨3, 2, [⟨1, 0, 1⟩, ⟨2, 1, 1⟩, ⟨0, 1, -2⟩]⟩ ∧
    (exC9 2 5).getJKNumbering exStore9 0 3 = .ok [1, 2, 0] := by
  refine ⟨exC9_valid 2 5, ?_, ?_, by decide +kernel, by decide +kernel⟩
  · intro e he; simp [exC9, Constraints.equations, OMap.find?] at he; subst he; rfl
  · intro e he t ht
    simp [exC9, Constraints.equations, OMap.find?] at he; subst he
    simp at ht; subst ht
    right; norm_num [abs_of_pos]

/-- C09 is false as stated: the right-hand side is stored in single precision.  For rhs = 2^24 + 1 (exactly representable as
`double`) the constraint u0 + 2 u2 = rhs is violated by 1 for every q. -/
theorem C09_float_counterexample : ∃ C b, (exC9 2 16777217).buildUnitConstraintMatrix exStore9 0 3 = .ok C ∧
    (exC9 2 16777217).getSparseGlobalRhs Constraints.roundToFloat exStore9 0 3 0 = .ok b ∧
    ∀ q : List ℚ, q.length = 2 → ∃ y, C.mulVec q = .ok y ∧
      ∀ e ∈ (exC9 2 16777217).equations 0,
        e.lhs (fun t => t.comp.toNat) (fun i => y.getD i 0 + b.getD i 0) = e.rhs 0 - 1 := by
  have hr : Constraints.roundToFloat 16777217 = 16777216 := by decide +kernel
  obtain ⟨C, b, g1, g2, g3, g4, g5, g6, g7⟩ := C09_general_partial Constraints.roundToFloat exStore9 (exC9 2 16777217) 0 3
    (fun t => t.comp.toNat) 0 (exC9_valid 2 16777217) (by
      intro e he; simp [exC9, Constraints.equations, OMap.find?] at he; subst he; rfl)
  refine ⟨C, b, g1, g2, ?_⟩
  intro q hq
  obtain ⟨y, y1, y2, y3⟩ := g7 q (by rw [g4, hq]; simp [exC9, Constraints.equations, OMap.find?])
  refine ⟨y, y1, ?_⟩
  intro e he
  rw [y3 e he]
  simp [exC9, Constraints.equations, OMap.find?] at he; subst he
  simp only [hr]
  rw [DofSpMat.list_sum_zero]
  · norm_num
  · intro t ht
    have := (List.mem_filter.mp ht)
    simp at this
    obtain ⟨rfl, h⟩ := this
    norm_num [abs_of_pos] at h

/-- C09 is false as stated: a coefficient of 1e-18 is dropped; with a large value of the other dof the constraint is violated. -/
theorem C09_tiny_coefficient_counterexample :
    ∃ (coef : ℚ) (C : SpMat ℚ) (b q y : List ℚ), coef ≠ 0 ∧
      (exC9 coef 0).buildUnitConstraintMatrix exStore9 0 3 = .ok C ∧
      (exC9 coef 0).getSparseGlobalRhs id exStore9 0 3 0 = .ok b ∧ C.mulVec q = .ok y ∧
      ∃ e ∈ (exC9 coef 0).equations 0, e.lhs (fun t => t.comp.toNat) (fun i => y.getD i 0 + b.getD i 0) ≠ e.rhs 0 := by
  refine ⟨1 / 1000000000000000000, ⟨3, 2, [⟨1, 0, 1⟩, ⟨2, 1, 1⟩]⟩, [0, 0, 0], [0, 1], [0, 0, 1], by norm_num,
    by decide +kernel, by decide +kernel, by decide +kernel, ?_⟩
  refine ⟨⟨⟨1, 0, 1⟩, [⟨1, 2, 1 / 1000000000000000000⟩], fun _ => 0⟩, by simp [exC9, Constraints.equations, OMap.find?], ?_⟩
  have h2 : Int.toNat 2 = 2 := rfl
  norm_num [Equation.lhs, h2]

/-- C10 is false as stated: `(16777217, 0, 0)` satisfies `u_0 + 2 u_2 = 16777217`, but it is not reached, as the right-hand side is
rounded to a `float`. -/
theorem C10_float_counterexample : ∃ C b, (exC9 2 16777217).buildUnitConstraintMatrix exStore9 0 3 = .ok C ∧
    (exC9 2 16777217).getSparseGlobalRhs Constraints.roundToFloat exStore9 0 3 0 = .ok b ∧
    ∃ u : List ℚ, u.length = 3 ∧ (∀ e ∈ (exC9 2 16777217).equations 0, e.lhs (fun t => t.comp.toNat) (fun i => u.getD i 0) = e.rhs 0) ∧
      ∀ q : List ℚ, q.length = 2 → ∃ y, C.mulVec q = .ok y ∧ ∃ i < 3, y.getD i 0 + b.getD i 0 ≠ u.getD i 0 := by
  obtain ⟨C, b, h1, h2, h3⟩ := C09_float_counterexample
  have hu : ∀ e ∈ (exC9 2 16777217).equations 0,
      e.lhs (fun t => t.comp.toNat) (fun i => ([16777217, 0, 0] : List ℚ).getD i 0) = e.rhs 0 := by
    intro e he
    simp [exC9, Constraints.equations, OMap.find?] at he
    subst he
    simp [Equation.lhs]
  refine ⟨C, b, h1, h2, [16777217, 0, 0], rfl, hu, fun q hq => ?_⟩
  obtain ⟨y, y1, y2⟩ := h3 q hq
  refine ⟨y, y1, ?_⟩
  by_contra hall
  push Not at hall
  have hm : (⟨⟨1, 0, 1⟩, [⟨1, 2, 2⟩], fun _ => 16777217⟩ : Equation ℚ) ∈ (exC9 2 16777217).equations 0 := by
    simp [exC9, Constraints.equations, OMap.find?]
  have e1 := y2 _ hm
  have e2 := hu _ hm
  have a0 := hall 0 (by norm_num)
  have a2 := hall 2 (by norm_num)
  simp only [Equation.lhs, List.map_cons, List.map_nil, Int.toNat_zero, show Int.toNat 2 = 2 from rfl] at e1 e2
  rw [a0, a2, e2] at e1
  norm_num at e1

end NuTo
