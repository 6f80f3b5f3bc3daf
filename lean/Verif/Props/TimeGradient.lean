import Verif.Props.TimeProblem
import Verif.Props.Assembler
import Verif.Props.DofVector

/-!
C86: gradient, hessian and history update of a time dependent problem are evaluated at the given dof values, time and time step,
and are the sums over all added functions and all cells of their groups; what is written as residual.
-/
set_option linter.unusedSectionVars false
namespace NuTo
namespace TimeProblem
open Assembly
variable {K : Type _} [Field K]

/-- the nodes of the dof types hold the vector, everything else is as before -/
structure Holds (nodesOf : Nat → List Nat) (x : DofVec K) (dofs : List Nat) (st st1 : NodeStore K) : Prop where
  values : ∀ d ∈ dofs, ∀ a ∈ nodesOf d, ∀ i k, (st a).dofNumbers[i]? = some k → val st1 a i = some (coef x d k.toNat)
  numbers : ∀ a, (st1 a).dofNumbers = (st a).dofNumbers
  instances : ∀ a k, k ≠ 0 → (st1 a).values[k]? = (st a).values[k]?
  others : ∀ a, (∀ d ∈ dofs, a ∉ nodesOf d) → st1 a = st a

/-- what a call needs: numbered nodes, a vector of that size -/
structure Usable (nodesOf : Nat → List Nat) (n : Nat → Nat) (sizes : DofSizes) (x : DofVec K) (dofs : List Nat)
    (st : NodeStore K) : Prop where
  nodup : dofs.Nodup
  numbered : Numbered nodesOf n dofs 0 st
  sizes : ∀ d ∈ dofs, sizes.size d = .ok (n d)
  vector : ∀ d ∈ dofs, ∃ y, x.find? d = some y ∧ y.length = n d

theorem merge_holds {nodesOf : Nat → List Nat} {n : Nat → Nat} {sizes : DofSizes} {x : DofVec K} {dofs : List Nat}
    {st : NodeStore K} (h : Usable nodesOf n sizes x dofs st) :
    ∃ st1, Merger.merge nodesOf x dofs 0 st = .ok st1 ∧ Holds nodesOf x dofs st st1 := by
  obtain ⟨st1, h1, h2, h3⟩ := merge_spec nodesOf n x 0 dofs h.nodup st h.numbered h.vector
  have hcases : ∀ a, st1 a = st a ∨ ∃ y, st1 a = Merger.merged y 0 (st a) := by
    intro a
    by_cases ha : ∃ d ∈ dofs, a ∈ nodesOf d
    · obtain ⟨d, hd, hm⟩ := ha
      obtain ⟨y, hy, _⟩ := h.vector d hd
      exact Or.inr ⟨y, h3 d hd y hy a hm⟩
    · push Not at ha; exact Or.inl (h2 a ha)
  refine ⟨st1, h1, ⟨?_, ?_, ?_, h2⟩⟩
  · intro d hd a ha i k hk
    obtain ⟨y, hy, hyl⟩ := h.vector d hd
    have hpos : 0 < (st a).values.length := (h.numbered.wf d hd a ha).2
    rw [val, h3 d hd y hy a ha]
    simp only [Merger.merged, coef, hy]
    rw [List.getD_eq_getElem?_getD, List.getElem?_set_self hpos]
    simp [hk]
  · intro a
    rcases hcases a with e | ⟨y, e⟩ <;> rw [e]
    rfl
  · intro a k hk
    rcases hcases a with e | ⟨y, e⟩ <;> rw [e]
    simp [Merger.merged, List.getElem?_set_ne (Ne.symm hk)]

/-- C86: `Gradient(x, dofs, t, dt)` writes `x` to the nodes, and entry `i` of a dof type is the sum over all added functions and
over the cells of their groups of what the cells add to `i` at time `t` and step `dt`, each once. -/
theorem C86_gradient (nodesOf : Nat → List Nat) (n : Nat → Nat) (sizes : DofSizes) (fs : List (Fn K (VecCell K)))
    (st : NodeStore K) (x : DofVec K) (dofs : List Nat) (t dt : K) (h : Usable nodesOf n sizes x dofs st)
    (hc : ∀ st', ∀ f ∈ fs, ∀ c ∈ f.cells st' t dt, VecCell.Fits c dofs n) :
    ∃ st1 g, gradient nodesOf sizes fs st x dofs t dt = .ok (st1, g) ∧ Holds nodesOf x dofs st st1 ∧
      (∀ d, (g.find? d).map List.length = if d ∈ dofs ∧ fs ≠ [] then some (n d) else none) ∧
      ∀ d ∈ dofs, ∀ i < n d, coef g d i = (fs.map fun f => ((f.cells st1 t dt).map fun c => VecCell.adds c d i).sum).sum := by
  obtain ⟨st1, h1, h2⟩ := merge_holds h
  have hstep : ∀ f ∈ fs, ∃ v, buildVector sizes dofs (f.threads st1 t dt) = .ok v ∧ v.Sorted ∧
      (∀ d, d ∉ dofs → v.find? d = none) ∧ ∀ d ∈ dofs, ∃ y, v.find? d = some y ∧ y.length = n d ∧
        ∀ i, i < n d → y[i]? = some ((f.cells st1 t dt).map fun c => VecCell.adds c d i).sum := by
    intro f hf
    exact C13_buildVector sizes dofs n _ _ (List.Perm.refl _) h.nodup h.sizes (fun c hm => hc st1 f hf c hm)
  have hvs : ∀ gs : List (Fn K (VecCell K)), (∀ f ∈ gs, f ∈ fs) → ∃ vs : List (DofVec K), vs.length = gs.length ∧
      (∀ v ∈ vs, v.Sorted ∧ HasSizes n v ∧ ∀ d, (v.find? d).isSome ↔ d ∈ dofs) ∧
      (∀ d ∈ dofs, ∀ i < n d, vs.map (fun v => coef v d i) =
        gs.map fun f => ((f.cells st1 t dt).map fun c => VecCell.adds c d i).sum) ∧
      ∀ a, Res.foldlM (gradientStep sizes dofs st1 t dt) a gs = Res.foldlM DofVec.addAssign a vs := by
    intro gs
    induction gs with
    | nil => intro _; exact ⟨[], rfl, by simp, by simp, fun _ => rfl⟩
    | cons f gs ih =>
      intro hm
      obtain ⟨vs, e1, e2, e3, e4⟩ := ih (fun g hg => hm g (by simp [hg]))
      obtain ⟨v, k1, k2, k3, k4⟩ := hstep f (hm f (by simp))
      refine ⟨v :: vs, by simp [e1], ?_, ?_, ?_⟩
      · intro w hw
        simp only [List.mem_cons] at hw
        rcases hw with rfl | hw
        · refine ⟨k2, ?_, ?_⟩
          · intro d y hy
            by_cases hd : d ∈ dofs
            · obtain ⟨z, z1, z2, _⟩ := k4 d hd
              rw [z1] at hy; cases hy; exact z2
            · rw [k3 d hd] at hy; cases hy
          · intro d
            by_cases hd : d ∈ dofs
            · obtain ⟨z, z1, _⟩ := k4 d hd
              simp [z1, hd]
            · simp [k3 d hd, hd]
        · exact e2 w hw
      · intro d hd i hi
        obtain ⟨z, z1, z2, z3⟩ := k4 d hd
        rw [List.map_cons, List.map_cons, e3 d hd i hi]
        congr 1
        unfold coef
        rw [z1]
        simp [List.getD_eq_getElem?_getD, z3 i hi]
      · intro a
        rw [Res.foldlM_cons, Res.foldlM_cons]
        simp only [gradientStep, k1, Res.bind_ok']
        cases DofVec.addAssign a v with
        | ok b => simp only [Res.bind_ok']; exact e4 b
        | throw => rfl
        | ub => rfl
  obtain ⟨vs, e1, e2, e3, e4⟩ := hvs fs (fun _ h => h)
  obtain ⟨g, g1, _, g3, g4, g5⟩ := sum_aux n vs (fun v hv => ⟨(e2 v hv).1, (e2 v hv).2.1⟩) [] List.Pairwise.nil
    (by intro d y hy; simp [OMap.find?] at hy)
  refine ⟨st1, g, ?_, h2, ?_, ?_⟩
  · unfold gradient
    rw [h1]; simp only [Res.bind_ok']
    rw [e4, g1]; rfl
  · intro d
    have h0 : (OMap.find? ([] : DofVec K) d).isSome = false := rfl
    split
    · next hd =>
      have : (g.find? d).isSome := by
        rw [g4]
        cases vs with
        | nil => exact absurd (List.eq_nil_of_length_eq_zero e1.symm) hd.2
        | cons v vs => exact Or.inr ⟨v, by simp, ((e2 v (by simp)).2.2 d).mpr hd.1⟩
      obtain ⟨y, hy⟩ := Option.isSome_iff_exists.mp this
      rw [hy, Option.map_some, g3 d y hy]
    · next hd =>
      have : ¬ (g.find? d).isSome := by
        rw [g4, h0]
        rintro (h | ⟨v, hv, hs⟩)
        · cases h
        · refine hd ⟨((e2 v hv).2.2 d).mp hs, ?_⟩
          rintro rfl
          simp at e1; simp [e1] at hv
      simp at this
      simp [this]
  · intro d hd i hi
    rw [g5, e3 d hd i hi]
    simp [coef, OMap.find?]

theorem spAdd_entry (a b : SpMat K) (i j : Nat) : (spAdd a b).entry i j = a.entry i j + b.entry i j := by
  simp [SpMat.entry, spAdd]

/-- C86: `Hessian0(x, dofs, t, dt)`: entry `(r, c)` of block `(I, J)` is the sum over all added functions and the cells of their
groups. -/
theorem C86_hessian (nodesOf : Nat → List Nat) (n : Nat → Nat) (sizes : DofSizes) (fs : List (Fn K (MatCell K)))
    (st : NodeStore K) (x : DofVec K) (dofs : List Nat) (t dt : K) (h : Usable nodesOf n sizes x dofs st)
    (hc : ∀ st', ∀ f ∈ fs, ∀ c ∈ f.cells st' t dt, MatCell.Fits c dofs n) :
    ∃ st1 m, hessian0 nodesOf sizes fs st x dofs t dt = .ok (st1, m) ∧ Holds nodesOf x dofs st st1 ∧
      (∀ I J, (I ∈ dofs ∧ J ∈ dofs ∧ fs ≠ []) ∨ m.find? (toLex (I, J)) = none) ∧
      ∀ I ∈ dofs, ∀ J ∈ dofs, fs ≠ [] → ∃ b, m.find? (toLex (I, J)) = some b ∧ b.rows = n I ∧ b.cols = n J ∧
        ∀ r c, b.entry r c = (fs.map fun f => ((f.cells st1 t dt).map fun e => MatCell.adds e I J r c).sum).sum := by
  obtain ⟨st1, h1, h2⟩ := merge_holds h
  have hstep : ∀ f ∈ fs, ∃ v, buildMatrix sizes dofs (f.threads st1 t dt) = .ok v ∧ v.Sorted ∧
      (∀ I J, ¬(I ∈ dofs ∧ J ∈ dofs) → v.find? (toLex (I, J)) = none) ∧
      ∀ I ∈ dofs, ∀ J ∈ dofs, ∃ b, v.find? (toLex (I, J)) = some b ∧ b.rows = n I ∧ b.cols = n J ∧ b.WF ∧
        ∀ r c, b.entry r c = ((f.cells st1 t dt).map fun e => MatCell.adds e I J r c).sum := by
    intro f hf
    obtain ⟨v, k1, k2, k3, k4⟩ := C14_buildMatrix_general sizes dofs n _ _ (List.Perm.refl _) h.sizes
      (fun c hm => hc st1 f hf c hm)
    refine ⟨v, k1, k2, k3, fun I hI J hJ => ?_⟩
    obtain ⟨b, b1, b2, b3, b4, b5⟩ := k4 I hI J hJ
    refine ⟨b, b1, b2, b3, b4, fun r c => ?_⟩
    rw [b5, List.count_eq_one_of_mem h.nodup hI, List.count_eq_one_of_mem h.nodup hJ]
    simp [Fn.cells]
  -- state of the loop: block sizes and entries
  have hloop : ∀ gs : List (Fn K (MatCell K)), (∀ f ∈ gs, f ∈ fs) → ∀ (a : DofSpMat K), a.Sorted →
      (∀ I J, ¬(I ∈ dofs ∧ J ∈ dofs) → a.find? (toLex (I, J)) = none) →
      (∀ I J b, a.find? (toLex (I, J)) = some b → b.rows = n I ∧ b.cols = n J) →
      ∃ m, Res.foldlM (hessianStep sizes dofs st1 t dt) a gs = .ok m ∧
        (∀ I J, ¬(I ∈ dofs ∧ J ∈ dofs) → m.find? (toLex (I, J)) = none) ∧
        ∀ I ∈ dofs, ∀ J ∈ dofs, (gs = [] → m = a) ∧ (gs ≠ [] → ∃ b, m.find? (toLex (I, J)) = some b ∧ b.rows = n I ∧
          b.cols = n J ∧ ∀ r c, b.entry r c = ((a.find? (toLex (I, J))).map fun b => b.entry r c).getD 0 +
            (gs.map fun f => ((f.cells st1 t dt).map fun e => MatCell.adds e I J r c).sum).sum) := by
    intro gs
    induction gs with
    | nil => intro _ a _ ha _; exact ⟨a, rfl, ha, fun I _ J _ => ⟨fun _ => rfl, fun h => absurd rfl h⟩⟩
    | cons f gs ih =>
      intro hm a hs hz hsz
      obtain ⟨v, k1, k2, k3, k4⟩ := hstep f (hm f (by simp))
      obtain ⟨w, w1, w2, w3⟩ := OMap.mergeWith_ok (P := sameShape) (F := spAdd) (g := id) a v hs k2 (by
        intro k b b' hb hb'
        obtain ⟨I, J, rfl⟩ : ∃ I J, k = toLex (I, J) := ⟨(ofLex k).1, (ofLex k).2, rfl⟩
        obtain ⟨r1, r2⟩ := hsz I J b hb
        by_cases hIJ : I ∈ dofs ∧ J ∈ dofs
        · obtain ⟨b2, q1, q2, q3, _⟩ := k4 I hIJ.1 J hIJ.2
          rw [q1] at hb'; cases hb'
          exact ⟨r1.trans q2.symm, r2.trans q3.symm⟩
        · rw [k3 I J hIJ] at hb'; cases hb')
      have hwz : ∀ I J, ¬(I ∈ dofs ∧ J ∈ dofs) → w.find? (toLex (I, J)) = none := by
        intro I J hIJ; rw [w3, hz I J hIJ, k3 I J hIJ]; rfl
      have hwe : ∀ I ∈ dofs, ∀ J ∈ dofs, ∃ b, w.find? (toLex (I, J)) = some b ∧ b.rows = n I ∧ b.cols = n J ∧
          ∀ r c, b.entry r c = ((a.find? (toLex (I, J))).map fun b => b.entry r c).getD 0 +
            ((f.cells st1 t dt).map fun e => MatCell.adds e I J r c).sum := by
        intro I hI J hJ
        obtain ⟨b2, q1, q2, q3, _, q5⟩ := k4 I hI J hJ
        rw [w3, q1]
        cases ha : a.find? (toLex (I, J)) with
        | none => exact ⟨b2, rfl, q2, q3, fun r c => by simp [q5]⟩
        | some b =>
          obtain ⟨r1, r2⟩ := hsz I J b ha
          exact ⟨spAdd b b2, rfl, r1, r2, fun r c => by rw [spAdd_entry, q5]; rfl⟩
      obtain ⟨m, m1, m2, m3⟩ := ih (fun g hg => hm g (by simp [hg])) w w2 hwz (by
        intro I J b hb
        by_cases hIJ : I ∈ dofs ∧ J ∈ dofs
        · obtain ⟨b', q1, q2, q3, _⟩ := hwe I hIJ.1 J hIJ.2
          rw [q1] at hb; cases hb; exact ⟨q2, q3⟩
        · rw [hwz I J hIJ] at hb; cases hb)
      refine ⟨m, ?_, m2, fun I hI J hJ => ⟨fun h => by simp at h, fun _ => ?_⟩⟩
      · rw [Res.foldlM_cons]
        simp only [hessianStep, k1, Res.bind_ok', w1]
        exact m1
      · obtain ⟨b, q1, q2, q3, q4⟩ := hwe I hI J hJ
        obtain ⟨p1, p2⟩ := m3 I hI J hJ
        by_cases hg : gs = []
        · rw [p1 hg, hg]
          exact ⟨b, q1, q2, q3, fun r c => by rw [q4]; simp⟩
        · obtain ⟨b', s1, s2, s3, s4⟩ := p2 hg
          refine ⟨b', s1, s2, s3, fun r c => ?_⟩
          rw [s4, q1, Option.map_some, Option.getD_some, q4, List.map_cons, List.sum_cons, add_assoc]
  obtain ⟨m, m1, m2, m3⟩ := hloop fs (fun _ h => h) [] List.Pairwise.nil (fun _ _ _ => rfl)
    (by intro I J b hb; simp [OMap.find?] at hb)
  refine ⟨st1, m, ?_, h2, ?_, ?_⟩
  · unfold hessian0
    rw [h1]; simp only [Res.bind_ok']
    rw [m1]; rfl
  · intro I J
    by_cases hIJ : I ∈ dofs ∧ J ∈ dofs
    · by_cases hf : fs = []
      · right; rw [(m3 I hIJ.1 J hIJ.2).1 hf]; rfl
      · exact Or.inl ⟨hIJ.1, hIJ.2, hf⟩
    · exact Or.inr (m2 I J hIJ)
  · intro I hI J hJ hf
    obtain ⟨b, q1, q2, q3, q4⟩ := (m3 I hI J hJ).2 hf
    exact ⟨b, q1, q2, q3, fun r c => by rw [q4]; simp [OMap.find?]⟩

/-- C86: the result does not depend on what the nodes of the listed dof types held before the call. -/
theorem C86_no_leftovers (nodesOf : Nat → List Nat) (n : Nat → Nat) (sizes : DofSizes) (fs : List (Fn K (VecCell K)))
    (hs : List (Fn K (MatCell K))) (st st' : NodeStore K) (x : DofVec K) (dofs : List Nat) (t dt : K)
    (h : Usable nodesOf n sizes x dofs st) (hn : ∀ a, (st' a).dofNumbers = (st a).dofNumbers)
    (hl : ∀ a, (st' a).values.length = (st a).values.length)
    (hlen : ∀ a, ((st' a).values.getD 0 []).length = ((st a).values.getD 0 []).length)
    (hi : ∀ a k, k ≠ 0 → (st' a).values[k]? = (st a).values[k]?)
    (ho : ∀ a, (∀ d ∈ dofs, a ∉ nodesOf d) → st' a = st a) :
    gradient nodesOf sizes fs st' x dofs t dt = gradient nodesOf sizes fs st x dofs t dt ∧
      hessian0 nodesOf sizes hs st' x dofs t dt = hessian0 nodesOf sizes hs st x dofs t dt := by
  have hwf : ∀ a, (st a).WF → (st' a).WF := by
    intro a hw
    refine ⟨fun h0 => hw.1 (List.eq_nil_of_length_eq_zero (by rw [← hl, h0]; rfl)), fun v hv => ?_⟩
    obtain ⟨k, hk, rfl⟩ := List.mem_iff_getElem.mp hv
    rw [hn]
    by_cases h0 : k = 0
    · subst h0
      have hk' : 0 < (st a).values.length := hl a ▸ hk
      have := hlen a
      rw [List.getD_eq_getElem?_getD, List.getElem?_eq_getElem hk, List.getD_eq_getElem?_getD,
        List.getElem?_eq_getElem hk'] at this
      simp only [Option.getD_some] at this
      rw [this]; exact hw.2 _ (List.getElem_mem hk')
    · have hk' : k < (st a).values.length := hl a ▸ hk
      have := hi a k h0
      rw [List.getElem?_eq_getElem hk, List.getElem?_eq_getElem hk'] at this
      rw [Option.some.inj this]; exact hw.2 _ (List.getElem_mem hk')
  obtain ⟨st1, a1, a2, a3⟩ := merge_spec nodesOf n x 0 dofs h.nodup st h.numbered h.vector
  obtain ⟨st1', b1, b2, b3⟩ := merge_spec nodesOf n x 0 dofs h.nodup st'
    ⟨h.numbered.nodup, fun d hd a ha => ⟨hwf a (h.numbered.wf d hd a ha).1, by rw [hl]; exact (h.numbered.wf d hd a ha).2⟩,
      fun d hd => (h.numbered.numbering d hd).of_sameNumbers hn, h.numbered.disjoint⟩ h.vector
  have hst : st1' = st1 := by
    funext a
    by_cases ha : ∃ d ∈ dofs, a ∈ nodesOf d
    · obtain ⟨d, hd, hm⟩ := ha
      obtain ⟨y, hy, _⟩ := h.vector d hd
      rw [a3 d hd y hy a hm, b3 d hd y hy a hm]
      unfold Merger.merged
      rw [hn]
      have : (st' a).values.set 0 ((st a).dofNumbers.map fun d => y.getD d.toNat 0) =
          (st a).values.set 0 ((st a).dofNumbers.map fun d => y.getD d.toNat 0) := by
        apply List.ext_getElem?
        intro k
        by_cases hk : k = 0
        · subst hk
          rw [List.getElem?_set, List.getElem?_set, hl]; simp
        · rw [List.getElem?_set_ne (Ne.symm hk), List.getElem?_set_ne (Ne.symm hk), hi a k hk]
      rw [this]
    · push Not at ha
      rw [a2 a ha, b2 a ha, ho a ha]
  unfold gradient hessian0
  rw [a1, b1, hst]
  exact ⟨rfl, rfl⟩

/-- C86: without any gradient (hessian) function the result has no dof types at all (so that converting it raises). -/
theorem C86_no_functions (nodesOf : Nat → List Nat) (n : Nat → Nat) (sizes : DofSizes) (st : NodeStore K) (x : DofVec K)
    (d : Nat) (dofs : List Nat) (t dt : K) (h : Usable nodesOf n sizes x (d :: dofs) st) :
    ∃ st1 g m, gradient nodesOf sizes [] st x (d :: dofs) t dt = .ok (st1, g) ∧
      hessian0 nodesOf sizes [] st x (d :: dofs) t dt = .ok (st1, m) ∧ g.toEigen (d :: dofs) = .throw := by
  obtain ⟨st1, h1, _⟩ := merge_holds h
  refine ⟨st1, [], [], ?_, ?_, rfl⟩
  · unfold gradient; rw [h1]; rfl
  · unfold hessian0; rw [h1]; rfl

/-- C86: `UpdateHistory` applies every added function exactly once to every cell of its group, in the order in which the
functions were added, with the given values at the nodes; the history data of cells outside the groups stay. -/
theorem C86_update {H : Type _} (nodesOf : Nat → List Nat) (n : Nat → Nat) (sizes : DofSizes) (us : List (Update K H))
    (st : NodeStore K) (x : DofVec K) (dofs : List Nat) (t dt : K) (hist : Nat → H)
    (h : Usable nodesOf n sizes x dofs st) (hg : ∀ u ∈ us, u.group.Nodup) :
    ∃ st1 hist1, updateHistory nodesOf us st x dofs t dt hist = .ok (st1, hist1) ∧ Holds nodesOf x dofs st st1 ∧
      ∀ c, hist1 c = (us.filter fun u => c ∈ u.group).foldl (fun v u => u.f st1 t dt c v) (hist c) := by
  obtain ⟨st1, h1, h2⟩ := merge_holds h
  refine ⟨st1, _, by unfold updateHistory; rw [h1]; rfl, h2, ?_⟩
  have inner : ∀ (u : Update K H) (l : List Nat), l.Nodup → ∀ (hist : Nat → H) (c : Nat),
      l.foldl (fun (h : Nat → H) c => Function.update h c (u.f st1 t dt c (h c))) hist c =
      if c ∈ l then u.f st1 t dt c (hist c) else hist c := by
    intro u l
    induction l with
    | nil => intro _ hist c; simp
    | cons e l ih =>
      intro hl hist c
      obtain ⟨hl1, hl2⟩ := List.nodup_cons.mp hl
      rw [List.foldl_cons, ih hl2]
      by_cases hce : c = e
      · subst hce; simp [hl1]
      · simp [hce]
  clear h1 h2
  induction us generalizing hist with
  | nil => intro c; rfl
  | cons u us ih =>
    intro c
    rw [List.foldl_cons, ih _ (fun w hw => hg w (by simp [hw])), inner u u.group (hg u (by simp))]
    by_cases hc : c ∈ u.group
    · simp [hc]
    · simp [hc]

theorem get_ok (v : DofVec K) (d : Nat) (y : List K) (hy : v.find? d = some y) (numbers : List Int)
    (hr : ∀ k ∈ numbers, 0 ≤ k ∧ k < y.length) :
    DofVec.get v d numbers = .ok (numbers.map fun k => coef v d k.toNat) := by
  unfold DofVec.get
  induction numbers with
  | nil => rfl
  | cons k l ih =>
    obtain ⟨h0, h1⟩ := hr k (by simp)
    rw [List.foldr_cons, ih (fun j hj => hr j (by simp [hj]))]
    have hk : k.toNat < y.length := by omega
    simp only [OMap.at', hy, Res.bind_ok', if_neg (not_lt.mpr h0), List.getElem?_eq_getElem hk, List.map_cons, coef]
    simp [List.getD_eq_getElem?_getD, List.getElem?_eq_getElem hk]

/-- C86: the line written by `WriteTimeDofResidual` for functions that do not depend on the time: the time, the mean of the dof
values, and the sum of the gradient entries at that time.  (Missing: functions that do depend on the time, see below.) -/
theorem C86_written_partial (nodesOf : Nat → List Nat) (n : Nat → Nat) (sizes : DofSizes) (fs : List (Fn K (VecCell K)))
    (st : NodeStore K) (x : DofVec K) (time step : K) (dof : Nat) (numbers : List Int) (hne : numbers ≠ []) (hfs : fs ≠ [])
    (h : Usable nodesOf n sizes x [dof] st) (hr : ∀ k ∈ numbers, 0 ≤ k ∧ k < (n dof : Int))
    (ht : ∀ f ∈ fs, ∀ st' t t', f.threads st' t step = f.threads st' t' step)
    (hc : ∀ st' t, ∀ f ∈ fs, ∀ c ∈ f.cells st' t step, VecCell.Fits c [dof] n) :
    ∃ st1, Holds nodesOf x [dof] st st1 ∧
      writeTimeDofResidual nodesOf sizes fs st x time step dof numbers = .ok (time,
        (numbers.map fun k => coef x dof k.toNat).sum / numbers.length,
        (numbers.map fun k => (fs.map fun f =>
          ((f.cells st1 time step).map fun c => VecCell.adds c dof k.toNat).sum).sum).sum) := by
  obtain ⟨st1, g, h1, h2, h3, h4⟩ := C86_gradient nodesOf n sizes fs st x [dof] (time - step) step h
    (fun st' f hf c hm => hc st' _ f hf c hm)
  refine ⟨st1, h2, ?_⟩
  obtain ⟨y, hy, hyl⟩ := h.vector dof (by simp)
  have hgl := h3 dof
  rw [if_pos ⟨by simp, hfs⟩] at hgl
  obtain ⟨z, hz, hzl⟩ := Option.map_eq_some_iff.mp hgl
  unfold writeTimeDofResidual
  rw [h1]; simp only [Res.bind_ok']
  rw [get_ok x dof y hy numbers (by rw [hyl]; exact hr), get_ok g dof z hz numbers (by rw [hzl]; exact hr)]
  simp only [Res.bind_ok', Res.require, if_pos hne]
  congr 3
  apply congrArg List.sum
  apply List.map_congr_left
  intro k hk
  obtain ⟨hk0, hk1⟩ := hr k hk
  rw [h4 dof (by simp) k.toNat (by omega)]
  apply congrArg List.sum
  apply List.map_congr_left
  intro f hf
  unfold Fn.cells
  rw [ht f hf st1 (time - step) time]

/-! one spring of stiffness 3 between node 1 and ground, pulled by the load `t`; a second dof type on node 2 -/

def exNodes86 : Nat → List Nat := fun d => if d = 0 then [1] else [2]
def exStore86 (u w : ℚ) : NodeStore ℚ := fun a => if a = 1 then ⟨[[u]], [0]⟩ else ⟨[[w]], [0]⟩
def exSizes86 : DofSizes := ⟨[(0, 1), (1, 1)], [(0, 0), (1, 0)]⟩
/-- internal force `3 u` -/
def exSpring : Fn ℚ (VecCell ℚ) := ⟨fun st _ _ => [[⟨[(0, [3 * (val st 1 0).getD 0])], fun _ => [0]⟩]]⟩
/-- external load `t` -/
def exLoad : Fn ℚ (VecCell ℚ) := ⟨fun _ t _ => [[⟨[(0, [-t])], fun _ => [0]⟩]]⟩
/-- coupling with the second dof type -/
def exCoupled : Fn ℚ (VecCell ℚ) := ⟨fun st _ _ => [[⟨[(0, [(val st 2 0).getD 0])], fun _ => [0]⟩]]⟩

theorem exUsable (u w : ℚ) (x : DofVec ℚ) (hx : ∃ a, x.find? 0 = some [a]) :
    Usable exNodes86 (fun _ => 1) exSizes86 x [0] (exStore86 u w) := by
  refine ⟨by simp, ⟨?_, ?_, ?_, ?_⟩, ?_, ?_⟩ <;> simp only [List.mem_cons, List.not_mem_nil, or_false, forall_eq]
  · decide
  · intro a ha
    simp [exNodes86] at ha
    subst ha; simp [exStore86, Node.WF]
  · simp [IsNumbering, exNodes86, exStore86]
  · simp
  · decide
  · obtain ⟨a, ha⟩ := hx; exact ⟨[a], ha, rfl⟩

theorem exFits (f : Fn ℚ (VecCell ℚ)) (hf : f ∈ [exSpring, exLoad, exCoupled]) (st' : NodeStore ℚ) (t dt : ℚ) :
    ∀ c ∈ f.cells st' t dt, VecCell.Fits c [0] (fun _ => 1) := by
  simp only [List.mem_cons, List.not_mem_nil, or_false] at hf
  rcases hf with rfl | rfl | rfl <;>
  · intro c hc
    simp [Fn.cells, exSpring, exLoad, exCoupled] at hc
    subst hc
    refine ⟨by simp [OMap.Sorted], ?_⟩
    intro d hd vals hv
    simp at hd; subst hd
    simp [OMap.find?] at hv; subst hv
    simp [NumberingOK]

example : Usable exNodes86 (fun _ => 1) exSizes86 [(0, [5])] [0] (exStore86 7 9) ∧
    (gradient exNodes86 exSizes86 [exSpring, exLoad] (exStore86 7 9) [(0, [5])] [0] 4 1).bind (fun r => .ok ((r.1 1).values, r.2)) =
      .ok ([[5]], [(0, [11])]) ∧
    writeTimeDofResidual exNodes86 exSizes86 [exSpring] (exStore86 7 9) [(0, [5])] 4 1 0 [0] = .ok (4, 5, 15) :=
  ⟨exUsable 7 9 _ ⟨5, rfl⟩, by decide +kernel, by decide +kernel⟩

/-- C86 is false for the written residual with loads that depend on the time: the gradient is evaluated at the time of the last
step's beginning, while the new time is written.  At time 4 the state `u = 4/3` is in equilibrium (gradient 0 at time 4), the
line for time 4 shows a residual of 1. -/
theorem C86_written_time_counterexample :
    ∃ (x : DofVec ℚ), (gradient exNodes86 exSizes86 [exSpring, exLoad] (exStore86 0 0) x [0] 4 1).bind (fun r => .ok r.2) =
        .ok [(0, [0])] ∧
      writeTimeDofResidual exNodes86 exSizes86 [exSpring, exLoad] (exStore86 0 0) x 4 1 0 [0] = .ok (4, 4 / 3, 1) :=
  ⟨[(0, [4 / 3])], by decide +kernel, by decide +kernel⟩

/-- C86 is false for the written residual with several dof types, too: only the dof type asked for is written to the nodes.  If
the nodes of the other dof type hold something else than the solution (after a load step that failed), the residual is that of a
mixture. -/
theorem C86_written_leftovers_counterexample :
    ∃ (x : DofVec ℚ) (st : NodeStore ℚ),
      (gradient exNodes86 exSizes86 [exCoupled] st x [0, 1] 4 1).bind (fun r => .ok (coef r.2 0 0)) = .ok 6 ∧
      writeTimeDofResidual exNodes86 exSizes86 [exCoupled] st x 4 1 0 [0] = .ok (4, 5, 100) :=
  ⟨[(0, [5]), (1, [6])], exStore86 0 100, by decide +kernel, by decide +kernel⟩

end TimeProblem
end NuTo
