import Verif.Lemmas.DofVector
import Mathlib.Algebra.BigOperators.Group.List.Basic
import Mathlib.Data.List.Perm.Basic
import Mathlib.Data.Rat.Defs
import Mathlib.Algebra.Field.Rat

/-!
C02 (flat vector round trip), C03 (block vector arithmetic), C55 (unique ids), C56 (dof containers are maps).
-/
set_option linter.unusedSectionVars false
namespace NuTo
open DofVec
variable {K : Type _} [Field K]

/-! ### C02 -/

/-- C02: `ToEigen` is the concatenation of the selected blocks in the order of the list. -/
theorem C02_toEigen_concat (v : DofVec K) (dofs : List Nat) (blocks : Nat → List K)
    (h : ∀ d ∈ dofs, v.find? d = some (blocks d)) :
    v.toEigen dofs = .ok (dofs.flatMap blocks) := toEigen_eq v blocks dofs h

/-- C02: a dof type without a block is reported by an exception. -/
theorem C02_toEigen_missing (v : DofVec K) (dofs : List Nat) (h : ∃ d ∈ dofs, v.find? d = none) :
    v.toEigen dofs = .throw := by
  unfold toEigen; rw [totalRows_throw v dofs h]; rfl

/-- C02: writing to a flat vector and reading it back into a properly sized block vector restores every selected block and
leaves the others alone. -/
theorem C02_roundtrip (v dest : DofVec K) (dofs : List Nat) (s : List K) (hs : v.toEigen dofs = .ok s)
    (hd : ∀ d ∈ dofs, ∃ x y, v.find? d = some x ∧ dest.find? d = some y ∧ x.length = y.length) :
    ∃ r, fromEigen s dofs dest = .ok r ∧ (∀ d ∈ dofs, r.find? d = v.find? d) ∧
      ∀ d, d ∉ dofs → r.find? d = dest.find? d := by
  have hb : ∀ d ∈ dofs, v.find? d = some ((v.find? d).getD []) := by
    intro d hm; obtain ⟨x, y, hx, _, _⟩ := hd d hm; simp [hx]
  rw [C02_toEigen_concat v dofs _ hb] at hs
  simp only [Res.ok.injEq] at hs
  subst hs
  obtain ⟨r, h1, _, h2, h3⟩ := fromEigen_ok (dofs.flatMap fun d => (v.find? d).getD [])
    (fun d => ((v.find? d).getD []).length) dofs dest (by
      intro d hm; obtain ⟨x, y, hx, hy, hl⟩ := hd d hm; exact ⟨y, hy, by simp [hx, hl]⟩)
    (by rw [List.length_flatMap])
  refine ⟨r, h1, ?_, h2⟩
  intro d hm
  obtain ⟨pre, post, hp, _, hf⟩ := h3 d hm
  refine hf.trans (Eq.trans ?_ (hb d hm).symm)
  rw [hp]
  congr 1
  rw [List.flatMap_append, List.flatMap_cons, ← List.length_flatMap, List.drop_left, List.take_left]

/-- C02: reading a flat vector and writing the result again gives the same flat vector (dof types listed once). -/
theorem C02_roundtrip_back (dest r : DofVec K) (dofs : List Nat) (s : List K) (hn : dofs.Nodup)
    (hs : fromEigen s dofs dest = .ok r) : r.toEigen dofs = .ok s := by
  have hall : ∀ d ∈ dofs, ∃ x, dest.find? d = some x := by
    intro d hm
    cases hf : dest.find? d with
    | some x => exact ⟨x, rfl⟩
    | none =>
      unfold fromEigen at hs
      rw [totalRows_throw dest dofs ⟨d, hm, hf⟩] at hs
      simp at hs
  have hb : ∀ d ∈ dofs, dest.find? d = some ((dest.find? d).getD []) := by
    intro d hm; obtain ⟨x, hx⟩ := hall d hm; simp [hx]
  have hlen : (dofs.map fun d => ((dest.find? d).getD []).length).sum = s.length := by
    unfold fromEigen at hs
    rw [totalRows_eq dest _ dofs hb] at hs
    simp only [Res.require] at hs
    split at hs
    · rename_i h; rw [← h, List.length_flatMap]
    · simp at hs
  obtain ⟨r', h1, _, h2, h3⟩ := fromEigen_ok s (fun d => ((dest.find? d).getD []).length) dofs dest (by
    intro d hm; exact ⟨_, hb d hm, rfl⟩) hlen
  rw [hs] at h1
  simp only [Res.ok.injEq] at h1
  subst h1
  rw [C02_toEigen_concat r dofs (fun d => (r.find? d).getD []) (by
    intro d hm; obtain ⟨_, _, _, _, hf⟩ := h3 d hm; simp [hf])]
  congr 1
  -- every block is the corresponding slice of `s`
  have key : ∀ (post pre : List Nat), dofs = pre ++ post →
      (post.flatMap fun d => (r.find? d).getD []) =
        s.drop ((pre.map fun d => ((dest.find? d).getD []).length).sum) := by
    intro post
    induction post with
    | nil =>
      intro pre hp
      simp only [List.append_nil] at hp
      subst hp
      rw [hlen]; simp
    | cons d post ih =>
      intro pre hp
      have hd := ih (pre ++ [d]) (by simp [hp])
      have hm : d ∈ dofs := by simp [hp]
      obtain ⟨pre', post', hp', _, hf⟩ := h3 d hm
      have hpre : pre' = pre := by
        have hnd := hn
        rw [hp] at hnd hp'
        have h5 : d ∉ pre := by
          have := (List.nodup_append.mp hnd).2.2
          intro hc; exact this d hc d (by simp) rfl
        have h6 : d ∉ pre' := by
          rw [hp'] at hnd
          have := (List.nodup_append.mp hnd).2.2
          intro hc; exact this d hc d (by simp) rfl
        rw [List.append_eq_append_iff] at hp'
        rcases hp' with ⟨as, h7, h8⟩ | ⟨bs, h7, h8⟩
        · cases as with
          | nil => simpa using h7
          | cons a as =>
            simp only [List.cons_append, List.cons.injEq] at h8
            exact absurd (by rw [h7, ← h8.1]; simp : d ∈ pre') h6
        · cases bs with
          | nil => simpa using h7.symm
          | cons a as =>
            simp only [List.cons_append, List.cons.injEq] at h8
            exact absurd (by rw [h7, ← h8.1]; simp : d ∈ pre) h5
      subst hpre
      rw [List.flatMap_cons, hd, hf]
      simp only [Option.getD_some, List.map_append, List.map_cons, List.map_nil, List.sum_append, List.sum_cons,
        List.sum_nil, Nat.add_zero]
      rw [← List.drop_drop, List.take_append_drop]
  have := key dofs [] rfl
  simpa using this

/-- two dof types (ids 2 and 5) of sizes 1 and 2, written in the order 5, 2 -/
example : ∃ (v dest : DofVec ℚ) (s : List ℚ), v.toEigen [5, 2] = .ok s ∧ s = [8, 9, 7] ∧
    (∀ d ∈ [5, 2], ∃ x y, v.find? d = some x ∧ dest.find? d = some y ∧ x.length = y.length) ∧
    fromEigen s [5, 2] dest = .ok [(2, [7]), (5, [8, 9]), (6, [1])] :=
  ⟨[(2, [7]), (5, [8, 9])], [(2, [0]), (5, [0, 0]), (6, [1])], [8, 9, 7], by decide +kernel, by decide +kernel,
    by simp [OMap.find?], by decide +kernel⟩

/-! ### C03 -/

/-- specification: the coefficient of a block vector, absent blocks (and entries) count as zero -/
def coef (v : DofVec K) (d i : Nat) : K := match v.find? d with
  | some x => x.getD i 0
  | none => 0

/-- block sizes fit: dof types present in both have blocks of equal length -/
def Compatible (a b : DofVec K) : Prop := ∀ d x y, a.find? d = some x → b.find? d = some y → x.length = y.length

theorem zipWith_getD {f : K → K → K} (h0 : f 0 0 = 0) {x y : List K} (h : x.length = y.length) (i : Nat) :
    (List.zipWith f x y).getD i 0 = f (x.getD i 0) (y.getD i 0) := by
  simp only [List.getD_eq_getElem?_getD, List.getElem?_zipWith]
  by_cases hi : i < x.length
  · have hy : i < y.length := h ▸ hi
    simp [List.getElem?_eq_getElem hi, List.getElem?_eq_getElem hy]
  · have hy : y.length ≤ i := by omega
    simp [List.getElem?_eq_none (Nat.le_of_not_lt hi), List.getElem?_eq_none hy, h0]

theorem map_getD {f : K → K} (h0 : f 0 = 0) (x : List K) (i : Nat) : (x.map f).getD i 0 = f (x.getD i 0) := by
  simp only [List.getD_eq_getElem?_getD, List.getElem?_map]
  cases x[i]? <;> simp [h0]

/-- what an operation `c = a ∘ b` must satisfy: dof types are united, block sizes are kept, coefficients combine by `f` -/
structure IsPointwise (f : K → K → K) (a b c : DofVec K) : Prop where
  sorted : c.Sorted
  has : ∀ d, (c.find? d).isSome ↔ (a.find? d).isSome ∨ (b.find? d).isSome
  sizeL : ∀ d x z, a.find? d = some x → c.find? d = some z → z.length = x.length
  sizeR : ∀ d y z, b.find? d = some y → c.find? d = some z → z.length = y.length
  coef : ∀ d i, coef c d i = f (coef a d i) (coef b d i)

theorem mergeWith_pointwise (F : List K → List K → List K) (g : List K → List K) (f : K → K → K) (h00 : f 0 0 = 0)
    (hx0 : ∀ x, f x 0 = x)
    (hF : ∀ x y, F x y = List.zipWith f x y) (hg : ∀ y, g y = y.map (f 0))
    (a b : DofVec K) (ha : a.Sorted) (hb : b.Sorted) (hc : Compatible a b) :
    ∃ c, OMap.mergeWith SameSize F g a b = .ok c ∧ IsPointwise f a b c := by
  obtain ⟨c, h1, h2, h3⟩ := OMap.mergeWith_ok (P := SameSize) (F := F) (g := g) a b ha hb hc
  refine ⟨c, h1, h2, ?_, ?_, ?_, ?_⟩
  · intro d; rw [h3]; cases OMap.find? a d <;> cases OMap.find? b d <;> simp [mergeEntry]
  · intro d x z hx hz
    rw [h3, hx] at hz
    cases hy : OMap.find? b d with
    | none => rw [hy] at hz; simp [mergeEntry] at hz; rw [hz]
    | some y =>
      rw [hy] at hz; simp [mergeEntry, hF] at hz
      rw [← hz, List.length_zipWith, hc d x y hx hy]; simp
  · intro d y z hy hz
    rw [h3, hy] at hz
    cases hx : OMap.find? a d with
    | none => rw [hx] at hz; simp [mergeEntry, hg] at hz; rw [← hz]; simp
    | some x =>
      rw [hx] at hz; simp [mergeEntry, hF] at hz
      rw [← hz, List.length_zipWith, hc d x y hx hy]; simp
  · intro d i
    unfold NuTo.coef
    rw [h3]
    cases hx : OMap.find? a d with
    | none =>
      cases hy : OMap.find? b d with
      | none => simp [mergeEntry, h00]
      | some y => simp only [mergeEntry, hg]; exact map_getD h00 y i
    | some x =>
      cases hy : OMap.find? b d with
      | none => simp [mergeEntry, hx0]
      | some y => simp only [mergeEntry, hF]; exact zipWith_getD h00 (hc d x y hx hy) i

/-- C03: `a += b` -/
theorem C03_add (a b : DofVec K) (ha : a.Sorted) (hb : b.Sorted) (hc : Compatible a b) :
    ∃ c, addAssign a b = .ok c ∧ IsPointwise (· + ·) a b c :=
  mergeWith_pointwise _ _ _ (by simp) (by simp) (fun _ _ => rfl) (by intro y; simp) a b ha hb hc

/-- C03: `a -= b` -/
theorem C03_sub (a b : DofVec K) (ha : a.Sorted) (hb : b.Sorted) (hc : Compatible a b) :
    ∃ c, subAssign a b = .ok c ∧ IsPointwise (· - ·) a b c :=
  mergeWith_pointwise _ _ _ (by simp) (by simp) (fun _ _ => rfl) (by intro y; simp) a b ha hb hc

/-- C03: `a.AddScaled(b, s)` -/
theorem C03_addScaled (a b : DofVec K) (s : K) (ha : a.Sorted) (hb : b.Sorted) (hc : Compatible a b) :
    ∃ c, addScaled a b s = .ok c ∧ IsPointwise (fun x y => x + y * s) a b c :=
  mergeWith_pointwise _ _ _ (by simp) (by simp) (fun _ _ => rfl) (by intro y; simp) a b ha hb hc

/-- C03: `a *= s` -/
theorem C03_mul (a : DofVec K) (s : K) (ha : a.Sorted) :
    (mulAssign a s).Sorted ∧ (∀ d i, coef (mulAssign a s) d i = coef a d i * s) ∧
      ∀ d, ((mulAssign a s).find? d).map List.length = (a.find? d).map List.length := by
  refine ⟨OMap.sorted_map ha _, ?_, ?_⟩
  · intro d i
    unfold coef mulAssign
    rw [OMap.find?_map]
    cases OMap.find? a d with
    | none => simp
    | some x => simp only [Option.map_some]; exact map_getD (by simp) x i
  · intro d
    unfold mulAssign
    rw [OMap.find?_map]
    cases OMap.find? a d <;> simp

/-- C03: `SetZero` keeps the blocks and their sizes and makes all coefficients zero -/
theorem C03_setZero (a : DofVec K) (ha : a.Sorted) :
    (setZero a).Sorted ∧ (∀ d i, coef (setZero a) d i = 0) ∧
      ∀ d, ((setZero a).find? d).map List.length = (a.find? d).map List.length := by
  refine ⟨OMap.sorted_map ha _, ?_, ?_⟩
  · intro d i
    unfold coef setZero
    rw [OMap.find?_map]
    cases OMap.find? a d with
    | none => simp
    | some x => simp only [Option.map_some]; exact map_getD rfl x i
  · intro d
    unfold setZero
    rw [OMap.find?_map]
    cases OMap.find? a d <;> simp

/-- C03: blocks of different size for one dof type are never combined silently -/
theorem C03_size_mismatch (a b : DofVec K) (ha : a.Sorted) (hb : b.Sorted) (hc : ¬ Compatible a b) :
    addAssign a b = .ub ∧ subAssign a b = .ub ∧ ∀ s, addScaled a b s = .ub := by
  have h : ∃ k x y, a.find? k = some x ∧ b.find? k = some y ∧ ¬ SameSize x y := by
    unfold Compatible at hc
    push Not at hc
    exact hc
  exact ⟨OMap.mergeWith_ub _ _ ha hb h, OMap.mergeWith_ub _ _ ha hb h, fun s => OMap.mergeWith_ub _ _ ha hb h⟩

/-- extensionality: a block vector is determined by dof types, sizes and coefficients -/
theorem dofVec_ext (a b : DofVec K) (ha : a.Sorted) (hb : b.Sorted)
    (hs : ∀ d, (a.find? d).map List.length = (b.find? d).map List.length)
    (hc : ∀ d i, coef a d i = coef b d i) : a = b := by
  apply OMap.ext_find? ha hb
  intro d
  have h1 := hs d
  cases hx : OMap.find? a d with
  | none =>
    cases hy : OMap.find? b d with
    | none => rfl
    | some y => simp [hx, hy] at h1
  | some x =>
    cases hy : OMap.find? b d with
    | none => simp [hx, hy] at h1
    | some y =>
      simp [hx, hy] at h1
      congr 1
      apply List.ext_getElem h1
      intro i hi hj
      have := hc d i
      unfold coef at this
      simpa [hx, hy, List.getD_eq_getElem?_getD, List.getElem?_eq_getElem hi, List.getElem?_eq_getElem hj] using this

/-- all blocks of dof type `d` have `size d` entries -/
def HasSizes (size : Nat → Nat) (v : DofVec K) : Prop := ∀ d x, v.find? d = some x → x.length = size d

theorem sum_aux (size : Nat → Nat) (vs : List (DofVec K)) (hv : ∀ v ∈ vs, v.Sorted ∧ HasSizes size v)
    (a : DofVec K) (ha : a.Sorted) (has : HasSizes size a) :
    ∃ c, Res.foldlM addAssign a vs = .ok c ∧ c.Sorted ∧ HasSizes size c ∧
      (∀ d, (c.find? d).isSome ↔ (a.find? d).isSome ∨ ∃ v ∈ vs, (v.find? d).isSome) ∧
      ∀ d i, coef c d i = coef a d i + (vs.map fun v => coef v d i).sum := by
  induction vs generalizing a with
  | nil => exact ⟨a, rfl, ha, has, by simp, by simp⟩
  | cons v vs ih =>
    have hv0 := hv v List.mem_cons_self
    obtain ⟨b, hb1, hb2⟩ := C03_add a v ha hv0.1 (by
      intro d x y hx hy; rw [has d x hx, hv0.2 d y hy])
    have hbs : HasSizes size b := by
      intro d z hz
      have : (b.find? d).isSome := by simp [hz]
      rcases (hb2.has d).mp this with h | h
      · obtain ⟨x, hx⟩ := Option.isSome_iff_exists.mp h
        rw [hb2.sizeL d x z hx hz, has d x hx]
      · obtain ⟨y, hy⟩ := Option.isSome_iff_exists.mp h
        rw [hb2.sizeR d y z hy hz, hv0.2 d y hy]
    obtain ⟨c, h1, h2, h3, h4, h5⟩ := ih (fun w hw => hv w (List.mem_cons_of_mem _ hw)) b hb2.sorted hbs
    refine ⟨c, by simp [hb1, h1], h2, h3, ?_, ?_⟩
    · intro d
      rw [h4, hb2.has]
      simp only [List.mem_cons, exists_eq_or_imp, or_assoc]
    · intro d i
      rw [h5, hb2.coef]
      simp [add_assoc]

/-- C03: the result of summing block vectors with consistent block sizes does not depend on the order of summation, and is
the coefficientwise sum. -/
theorem C03_sum_any_order (size : Nat → Nat) (vs ws : List (DofVec K)) (hp : vs.Perm ws)
    (hv : ∀ v ∈ vs, v.Sorted ∧ HasSizes size v) :
    ∃ c, Res.foldlM addAssign [] vs = .ok c ∧ Res.foldlM addAssign [] ws = .ok c ∧
      ∀ d i, coef c d i = (vs.map fun v => coef v d i).sum := by
  have h0 : OMap.Sorted ([] : DofVec K) := List.Pairwise.nil
  have h0s : HasSizes size ([] : DofVec K) := by intro d x h; simp [OMap.find?] at h
  obtain ⟨c, c1, c2, c3, c4, c5⟩ := sum_aux size vs hv [] h0 h0s
  obtain ⟨e, e1, e2, e3, e4, e5⟩ := sum_aux size ws (fun w hw => hv w (hp.mem_iff.mpr hw)) [] h0 h0s
  have hce : c = e := by
    apply dofVec_ext c e c2 e2
    · intro d
      have hiff : (c.find? d).isSome ↔ (e.find? d).isSome := by
        rw [c4, e4]
        constructor
        · rintro (h | ⟨v, hv, h⟩)
          · exact Or.inl h
          · exact Or.inr ⟨v, hp.mem_iff.mp hv, h⟩
        · rintro (h | ⟨v, hv, h⟩)
          · exact Or.inl h
          · exact Or.inr ⟨v, hp.mem_iff.mpr hv, h⟩
      cases hx : OMap.find? c d with
      | none =>
        cases hy : OMap.find? e d with
        | none => rfl
        | some y => simp [hx, hy] at hiff
      | some x =>
        cases hy : OMap.find? e d with
        | none => simp [hx, hy] at hiff
        | some y => simp [c3 d x hx, e3 d y hy]
    · intro d i
      rw [c5, e5]
      congr 1
      exact (hp.map _).sum_eq
  refine ⟨c, c1, hce ▸ e1, ?_⟩
  intro d i; rw [c5]; simp [coef, OMap.find?]

/-- hypotheses are met by vectors with different sets of dof types -/
example : ∃ (size : Nat → Nat) (vs : List (DofVec ℚ)), (∀ v ∈ vs, v.Sorted ∧ HasSizes size v) ∧
    Res.foldlM addAssign [] vs = .ok [(1, [1]), (2, [4, 6])] := by
  refine ⟨fun d => if d = 1 then 1 else 2, [[(2, [1, 2])], [(1, [1]), (2, [3, 4])]], ?_, by decide +kernel⟩
  intro v hv
  simp at hv
  rcases hv with rfl | rfl
  · refine ⟨by simp [OMap.Sorted], ?_⟩
    intro d x h
    simp only [OMap.find?] at h
    split at h <;> simp at h; subst h; simp [*]
  · refine ⟨by simp [OMap.Sorted], ?_⟩
    intro d x h
    simp only [OMap.find?] at h
    split at h
    · simp at h; subst h; simp [*]
    · split at h <;> simp at h; subst h; simp [*]

/-! ### C56 -/

/-- specification of a map: a function with updates -/
def specStep {α : Type _} (dflt : α) (m : Nat → Option α) : DofContainerOp α → (Nat → Option α) × DofContainerOut α
  | .insert d a => if (m d).isSome then (m, .threw) else (Function.update m d (some a), .done)
  | .write d a => (Function.update m d (some a), .done)
  | .touch d => (Function.update m d (some ((m d).getD dflt)), .value ((m d).getD dflt))
  | .writeAt d a => if (m d).isSome then (Function.update m d (some a), .done) else (m, .threw)
  | .read d => (m, match m d with | some a => .value a | none => .threw)
  | .has d => (m, .bool (m d).isSome)

def specRun {α : Type _} (dflt : α) : (Nat → Option α) → List (DofContainerOp α) → List (DofContainerOut α)
  | _, [] => []
  | m, op :: ops => (specStep dflt m op).2 :: specRun dflt (specStep dflt m op).1 ops

theorem find?_set_eq_update {α : Type _} (m : OMap Nat α) (d : Nat) (a : α) :
    OMap.find? (m.set d a) = Function.update (OMap.find? m) d (some a) := by
  funext j
  rw [OMap.find?_set, Function.update_apply]

/-- C56: for every history of calls all observations of a `DofContainer` are those of a map. -/
theorem C56_dofContainer_is_map {α : Type _} (dflt : α) (ops : List (DofContainerOp α)) :
    (DofContainer.run dflt [] ops).2 = specRun dflt (fun _ => none) ops := by
  suffices h : ∀ m : OMap Nat α, (DofContainer.run dflt m ops).2 = specRun dflt (OMap.find? m) ops from h []
  induction ops with
  | nil => intro m; rfl
  | cons op ops ih =>
    intro m
    have step : (DofContainer.step dflt m op).2 = (specStep dflt (OMap.find? m) op).2 ∧
        OMap.find? (DofContainer.step dflt m op).1 = (specStep dflt (OMap.find? m) op).1 := by
      cases op with
      | insert d a => cases h : OMap.find? m d <;> simp [DofContainer.step, specStep, h, find?_set_eq_update]
      | write d a => simp [DofContainer.step, specStep, find?_set_eq_update]
      | touch d =>
        cases h : OMap.find? m d with
        | none => simp [DofContainer.step, specStep, h, find?_set_eq_update]
        | some a =>
          simp only [DofContainer.step, specStep, h, Option.getD_some, true_and]
          rw [← h, Function.update_eq_self]
      | writeAt d a => cases h : OMap.find? m d <;> simp [DofContainer.step, specStep, h, find?_set_eq_update]
      | read d => cases h : OMap.find? m d <;> simp [DofContainer.step, specStep, h]
      | has d => simp [DofContainer.step, specStep]
    simp only [DofContainer.run, specRun, ih, step.1, step.2]

example : (DofContainer.run 0 [] [.read 3, .insert 3 7, .insert 3 8, .read 3, .touch 1, .has 1]).2
    = [.threw, .done, .threw, .value 7, .value 0, .bool true] := by decide +kernel

/-! ### C55 -/

/-- the ids of the objects created by constructor calls (not copies) during a history, in order -/
def constructedIds : DofTypeWorld → List DofTypeEvent → List Nat
  | _, [] => []
  | w, .construct name num :: es =>
    (if name.isEmpty ∨ num ≤ 0 then [] else
      match (w.step (.construct name num)).1.objects.getLast? with | some o => [o.id] | none => []) ++
      constructedIds (w.step (.construct name num)).1 es
  | w, e :: es => constructedIds (w.step e).1 es

theorem constructedIds_ge (es : List DofTypeEvent) : ∀ w : DofTypeWorld,
    (constructedIds w es).Pairwise (· < ·) ∧ ∀ i ∈ constructedIds w es, w.counter ≤ i := by
  induction es with
  | nil => intro w; simp [constructedIds]
  | cons e es ih =>
    intro w
    cases e with
    | copy i =>
      have := ih (w.step (.copy i)).1
      have hc : (w.step (.copy i)).1.counter = w.counter := by
        simp only [DofTypeWorld.step]; cases w.objects[i]? <;> rfl
      rw [hc] at this
      exact this
    | construct name num =>
      have := ih (w.step (.construct name num)).1
      by_cases hb : name.isEmpty ∨ num ≤ 0
      · have hst : (w.step (.construct name num)).1 = ⟨w.counter + 1, w.objects⟩ := by
          simp only [DofTypeWorld.step, if_pos hb]
        simp only [constructedIds, if_pos hb, List.nil_append]
        refine ⟨this.1, ?_⟩
        intro i hi
        have := this.2 i hi
        rw [hst] at this; simp at this; omega
      · have hst : (w.step (.construct name num)).1 =
            ⟨w.counter + 1, w.objects ++ [⟨w.counter, name, num⟩]⟩ := by
          simp only [DofTypeWorld.step, if_neg hb]
        rw [constructedIds, if_neg hb, hst]
        rw [hst] at this
        simp only [List.getLast?_append, List.getLast?_singleton, Option.some_or]
        refine ⟨?_, ?_⟩
        · simp only [List.singleton_append, List.pairwise_cons]
          refine ⟨?_, this.1⟩
          intro i hi
          have := this.2 i hi; simp at this; omega
        · intro i hi
          simp only [List.singleton_append, List.mem_cons] at hi
          rcases hi with rfl | hi
          · exact Nat.le_refl _
          · have := this.2 i hi; simp at this; omega

/-- C55: in every history the dof types made by separate constructor calls have pairwise different ids; a copy equals its
source (id included); invalid arguments raise. -/
theorem C55_ids_unique (es : List DofTypeEvent) :
    (constructedIds ⟨0, []⟩ es).Nodup ∧
    (∀ (w : DofTypeWorld) (i : Nat) (o : DofType), w.objects[i]? = some o →
      (w.step (.copy i)).1.objects = w.objects ++ [o] ∧ (w.step (.copy i)).1.counter = w.counter) ∧
    ∀ (w : DofTypeWorld) (name : String) (num : Int),
      ((w.step (.construct name num)).2 = true ↔ name.isEmpty ∨ num ≤ 0) := by
  refine ⟨?_, ?_, ?_⟩
  · exact (constructedIds_ge es ⟨0, []⟩).1.imp fun h => Nat.ne_of_lt h
  · intro w i o h
    simp [DofTypeWorld.step, h]
  · intro w name num
    simp only [DofTypeWorld.step]
    split <;> simp_all

example : constructedIds ⟨0, []⟩ [.construct "u" 2, .construct "" 1, .copy 0, .construct "T" 1] = [0, 2] := by
  decide +kernel

end NuTo
