import Verif.Lemmas.Assembler
import Mathlib.Tactic.NormNum
import Mathlib.Tactic.FieldSimp

/-!
C13, C14, C15: assembly is independent of the schedule and adds every cell exactly once; diagonal lumping.
-/
set_option linter.unusedSectionVars false
namespace NuTo
open Assembly
variable {K : Type _} [Field K]

/-! ### C13 -/

/-- what a cell adds to entry `i` of dof type `d`: the local values whose global number is `i` -/
def VecCell.adds (c : VecCell K) (d i : Nat) : K :=
  match c.grad.find? d with
  | some vals => scatter (c.numbering d) vals i
  | none => 0

/-- the cell's local numbers are global numbers below `n` and match the size of the local vector -/
def VecCell.Fits (c : VecCell K) (dofTypes : List Nat) (n : Nat → Nat) : Prop :=
  c.grad.Sorted ∧ ∀ d ∈ dofTypes, ∀ vals, c.grad.find? d = some vals → NumberingOK (n d) (c.numbering d) vals.length

theorem vecCellStep_ok (c : VecCell K) (dofTypes : List Nat) (n : Nat → Nat) (hc : VecCell.Fits c dofTypes n)
    (g : Nat → Nat → K) (v : DofVec K) (h : Rep dofTypes n g v) :
    ∃ v', vecCellStep dofTypes v c = .ok v' ∧
      Rep dofTypes n (fun d i => g d i + (dofTypes.count d : K) * VecCell.adds c d i) v' := by
  have hmem : ∀ d ∈ dofIntersection c.grad.dofTypes dofTypes, ∃ vals, c.grad.find? d = some vals := by
    intro d hd
    exact Option.isSome_iff_exists.mp (OMap.find?_isSome_iff.mpr (mem_dofIntersection hd).1)
  obtain ⟨v', h1, h2⟩ := dofLoop (vecDofStep c) dofTypes n c.numbering (fun d => (c.grad.find? d).getD [])
    (dofIntersection c.grad.dofTypes dofTypes) (by
      intro v d hd
      obtain ⟨vals, hv⟩ := hmem d hd
      simp [vecDofStep, OMap.at', hv]) (by
      intro d hd
      obtain ⟨vals, hv⟩ := hmem d hd
      refine ⟨(mem_dofIntersection hd).2, ?_⟩
      simp only [hv, Option.getD_some]
      exact hc.2 d (mem_dofIntersection hd).2 vals hv) g v h
  refine ⟨v', h1, h2.congr ?_⟩
  intro d hd i _
  congr 1
  rw [count_dofIntersection]
  unfold VecCell.adds
  cases hf : c.grad.find? d with
  | none =>
    have : d ∉ c.grad.dofTypes := by
      intro hm
      have := OMap.find?_isSome_iff.mpr hm
      rw [hf] at this; cases this
    simp [List.count_eq_zero_of_not_mem this]
  | some vals =>
    have hm : d ∈ c.grad.dofTypes := OMap.find?_isSome_iff.mp (by rw [hf]; rfl)
    have : c.grad.dofTypes.count d = 1 := List.count_eq_one_of_mem (OMap.nodup_keys hc.1) hm
    simp [this]

theorem throwOnZero_ok {α : Type _} (s : DofSizes) (dofTypes : List Nat) (n : Nat → Nat)
    (hs : ∀ d ∈ dofTypes, s.size d = .ok (n d)) (r : Res α) : throwOnZero s dofTypes r = r := by
  unfold throwOnZero
  rw [if_pos]
  intro d hd
  have := hs d hd
  unfold DofSizes.size OMap.at' at this
  cases hf : s.indep.find? d with
  | none => rw [hf] at this; cases this
  | some a => rfl

/-- C13 in full generality: for every schedule the result has exactly the requested dof types; entry `i` is the sum over the
cells of what they add to `i` -- times the number of times the dof type is listed in the request. -/
theorem C13_buildVector_general (s : DofSizes) (dofTypes : List Nat) (n : Nat → Nat) (cells : List (VecCell K))
    (threads : List (List (VecCell K))) (hp : threads.flatten.Perm cells) (hs : ∀ d ∈ dofTypes, s.size d = .ok (n d))
    (hc : ∀ c ∈ cells, VecCell.Fits c dofTypes n) :
    ∃ v, buildVector s dofTypes threads = .ok v ∧ v.Sorted ∧
      ∀ d, v.find? d = if d ∈ dofTypes then
        some ((List.range (n d)).map fun i => (dofTypes.count d : K) * (cells.map fun c => VecCell.adds c d i).sum) else none := by
  obtain ⟨v0, a1, a2⟩ := resizedVector_ok (K := K) s dofTypes n hs
  obtain ⟨v, b1, b2⟩ := threadLoop (vecCellStep dofTypes) (vecThread s dofTypes) v0 dofTypes n a2
    (fun c d i => (dofTypes.count d : K) * VecCell.adds c d i) (by
      intro g cells; unfold vecThread; rw [a1]; rfl) threads (by
      intro c hm g v hv
      exact vecCellStep_ok c dofTypes n (hc c (hp.mem_iff.mp hm)) g v hv) _ v0 a2
  refine ⟨v, ?_, b2.sorted, ?_⟩
  · unfold buildVector
    rw [throwOnZero_ok s dofTypes n hs, a1]
    exact b1
  · intro d
    rw [b2.find]
    split
    · congr 1
      apply List.map_congr_left
      intro i _
      rw [zero_add, (hp.map _).sum_eq, List.sum_map_mul_left]
    · rfl

/-- C13: each cell is counted exactly once, whatever the schedule (every dof type requested once). -/
theorem C13_buildVector (s : DofSizes) (dofTypes : List Nat) (n : Nat → Nat) (cells : List (VecCell K))
    (threads : List (List (VecCell K))) (hp : threads.flatten.Perm cells) (hd : dofTypes.Nodup)
    (hs : ∀ d ∈ dofTypes, s.size d = .ok (n d)) (hc : ∀ c ∈ cells, VecCell.Fits c dofTypes n) :
    ∃ v, buildVector s dofTypes threads = .ok v ∧ v.Sorted ∧ (∀ d, d ∉ dofTypes → v.find? d = none) ∧
      ∀ d ∈ dofTypes, ∃ x, v.find? d = some x ∧ x.length = n d ∧
        ∀ i, i < n d → x[i]? = some (cells.map fun c => VecCell.adds c d i).sum := by
  obtain ⟨v, h1, h2, h3⟩ := C13_buildVector_general s dofTypes n cells threads hp hs hc
  refine ⟨v, h1, h2, fun d hdn => by rw [h3, if_neg hdn], ?_⟩
  intro d hdm
  refine ⟨_, by rw [h3, if_pos hdm], by simp, ?_⟩
  intro i hi
  simp [hi, List.count_eq_one_of_mem hd hdm]

/-- C13: two schedules of the same cells give the same result. -/
theorem C13_schedule_independent (s : DofSizes) (dofTypes : List Nat) (n : Nat → Nat)
    (t1 t2 : List (List (VecCell K))) (hp : t1.flatten.Perm t2.flatten) (hs : ∀ d ∈ dofTypes, s.size d = .ok (n d))
    (hc : ∀ c ∈ t1.flatten, VecCell.Fits c dofTypes n) : buildVector s dofTypes t1 = buildVector s dofTypes t2 := by
  obtain ⟨v, h1, h2, h3⟩ := C13_buildVector_general s dofTypes n _ t1 (List.Perm.refl _) hs hc
  obtain ⟨w, g1, g2, g3⟩ := C13_buildVector_general s dofTypes n _ t2 hp.symm hs hc
  rw [h1, g1, OMap.ext_find? h2 g2 (fun k => by rw [h3, g3])]

/-- C13, C14: a requested dof type without numbering raises. -/
theorem C13_missing_numbering (s : DofSizes) (dofTypes : List Nat) (h : ∃ d ∈ dofTypes, s.indep.find? d = none)
    (threads : List (List (VecCell K))) : buildVector s dofTypes threads = .throw := by
  obtain ⟨d, hd, hn⟩ := h
  unfold buildVector throwOnZero
  rw [if_neg]
  intro h
  have := h d hd
  rw [hn] at this; cases this

/-! ### C14 -/

/-- what a cell adds to entry `(r, c)` of block `(I, J)` -/
def MatCell.adds (c : MatCell K) (I J r k : Nat) : K :=
  match c.hess.find? (toLex (I, J)) with
  | some m => scatter2 (c.numbering I) (c.numbering J) m r k
  | none => 0

/-- the cell delivers all blocks among its requested dof types (a missing block raises an exception in the code), of sizes
matching its numbering, which is inside the global sizes -/
def MatCell.Fits (c : MatCell K) (dofTypes : List Nat) (n : Nat → Nat) : Prop :=
  ∀ I ∈ dofTypes, ∀ J ∈ dofTypes, I ∈ dofTypes2 c.hess → J ∈ dofTypes2 c.hess →
    ∃ m, c.hess.find? (toLex (I, J)) = some m ∧ NumberingOK (n I) (c.numbering I) m.rows ∧
      NumberingOK (n J) (c.numbering J) m.cols

theorem matCellStep_ok (c : MatCell K) (dofTypes : List Nat) (n : Nat → Nat) (hc : MatCell.Fits c dofTypes n)
    (g : Nat → Nat → Nat → Nat → K) (t : TripMap K) (h : TRep dofTypes n g t) :
    ∃ t', matCellStep dofTypes t c = .ok t' ∧ TRep dofTypes n (fun I J r k => g I J r k +
      (dofTypes.count I * dofTypes.count J : K) * MatCell.adds c I J r k) t' := by
  set L := dofIntersection (dofTypes2 c.hess) dofTypes with hL
  have hblk : ∀ p ∈ pairs L, ∃ m, c.hess.find? (toLex p) = some m ∧ NumberingOK (n p.1) (c.numbering p.1) m.rows ∧
      NumberingOK (n p.2) (c.numbering p.2) m.cols := by
    intro p hp
    obtain ⟨h1, h2⟩ := mem_pairs.mp hp
    have a := mem_dofIntersection h1
    have b := mem_dofIntersection h2
    exact hc p.1 a.2 p.2 b.2 a.1 b.1
  have hrun : matCellStep dofTypes t c =
      Res.foldlM (fun t (p : Nat × Nat) => matPairStep c p.1 t p.2) t (pairs L) := by
    unfold matCellStep
    rw [← foldlM_pairs]
    rfl
  obtain ⟨t', h1, h2⟩ := pairLoop (fun t (p : Nat × Nat) => matPairStep c p.1 t p.2) dofTypes n c.numbering
    (fun I J => (c.hess.find? (toLex (I, J))).getD ⟨0, 0, fun _ _ => 0⟩) (pairs L) (by
      intro t p hp
      obtain ⟨m, hm, _⟩ := hblk p hp
      simp [matPairStep, at2, OMap.at', hm]) (by
      intro p hp
      obtain ⟨m, hm, h1, h2⟩ := hblk p hp
      simp only [hm, Option.getD_some]
      exact ⟨h1, h2⟩) g t h
  refine ⟨t', by rw [hrun]; exact h1, h2.congr ?_⟩
  intro I hI J hJ r k
  congr 1
  rw [count_pairs, hL, count_dofIntersection, count_dofIntersection]
  unfold MatCell.adds
  by_cases h1 : I ∈ dofTypes2 c.hess ∧ J ∈ dofTypes2 c.hess
  · obtain ⟨m, hm, _⟩ := hc I hI J hJ h1.1 h1.2
    rw [hm, List.count_eq_one_of_mem (nodup_dofTypes2 _) h1.1, List.count_eq_one_of_mem (nodup_dofTypes2 _) h1.2]
    simp
  · have hnone : c.hess.find? (toLex (I, J)) = none := by
      cases hf : c.hess.find? (toLex (I, J)) with
      | none => rfl
      | some m =>
        have hk : toLex (I, J) ∈ OMap.keys c.hess := OMap.find?_isSome_iff.mp (by rw [hf]; rfl)
        exact absurd ⟨(mem_dofTypes2 _ _).mpr ⟨_, hk, Or.inl rfl⟩, (mem_dofTypes2 _ _).mpr ⟨_, hk, Or.inr rfl⟩⟩ h1
    rw [hnone]
    rcases not_and_or.mp h1 with h | h
    · simp [List.count_eq_zero_of_not_mem h]
    · simp [List.count_eq_zero_of_not_mem h]

theorem hessianLoop (s : DofSizes) (t : TripMap K) (dofTypes : List Nat) (n : Nat → Nat)
    (hs : ∀ d ∈ dofTypes, s.size d = .ok (n d)) (hb : ∀ I ∈ dofTypes, ∀ J ∈ dofTypes, InBounds t (I, J) (n I) (n J))
    (P : List (Nat × Nat)) (hP : ∀ p ∈ P, p.1 ∈ dofTypes ∧ p.2 ∈ dofTypes) : ∀ h : DofSpMat K, h.Sorted →
    ∃ h', Res.foldlM (hessianStep s t) h P = .ok h' ∧ h'.Sorted ∧ ∀ p, h'.find? (toLex p) =
      if p ∈ P then some ⟨n p.1, n p.2, (t.find? (toLex p)).getD []⟩ else h.find? (toLex p) := by
  induction P with
  | nil => intro h hh; exact ⟨h, rfl, hh, by simp⟩
  | cons q P ih =>
    intro h hh
    have hq := hP q (by simp)
    have h1 : hessianStep s t h q = .ok (OMap.set h (toLex q) ⟨n q.1, n q.2, (t.find? (toLex q)).getD []⟩) := by
      unfold hessianStep SpMat.setFromTriplets Res.require
      rw [hs _ hq.1, hs _ hq.2]
      simp only [Res.bind_ok']
      rw [if_pos (show ∀ x ∈ (OMap.find? t (toLex q)).getD [], x.row < n q.1 ∧ x.col < n q.2 from hb q.1 hq.1 q.2 hq.2)]
      rfl
    obtain ⟨h', e1, e2, e3⟩ := ih (fun p hp => hP p (by simp [hp])) _ (OMap.sorted_set hh (toLex q) _)
    refine ⟨h', by rw [Res.foldlM_cons, h1]; exact e1, e2, ?_⟩
    intro p
    rw [e3]
    by_cases hp : p ∈ P
    · simp [hp]
    · rw [if_neg hp, OMap.find?_set]
      by_cases hpq : p = q
      · subst hpq; simp
      · have : toLex p ≠ toLex q := fun h' => hpq (toLex.injective h')
        rw [if_neg this, if_neg (by simp [hpq, hp])]

/-- C14 in full generality (with multiplicities of the requested dof types). -/
theorem C14_buildMatrix_general (s : DofSizes) (dofTypes : List Nat) (n : Nat → Nat) (cells : List (MatCell K))
    (threads : List (List (MatCell K))) (hp : threads.flatten.Perm cells) (hs : ∀ d ∈ dofTypes, s.size d = .ok (n d))
    (hc : ∀ c ∈ cells, MatCell.Fits c dofTypes n) :
    ∃ h, buildMatrix s dofTypes threads = .ok h ∧ h.Sorted ∧
      (∀ I J, ¬(I ∈ dofTypes ∧ J ∈ dofTypes) → h.find? (toLex (I, J)) = none) ∧
      ∀ I ∈ dofTypes, ∀ J ∈ dofTypes, ∃ m, h.find? (toLex (I, J)) = some m ∧ m.rows = n I ∧ m.cols = n J ∧ m.WF ∧
        ∀ r c, m.entry r c = (dofTypes.count I * dofTypes.count J : K) * (cells.map fun x => MatCell.adds x I J r c).sum := by
  have h0 : TRep dofTypes n (fun _ _ _ _ => (0 : K)) [] := ⟨by simp [tsum, OMap.find?], by simp [InBounds, OMap.find?]⟩
  have hcells : ∀ (cells : List (MatCell K)), (∀ c ∈ cells, MatCell.Fits c dofTypes n) → ∀ g t, TRep dofTypes n g t →
      ∃ t', Res.foldlM (matCellStep dofTypes) t cells = .ok t' ∧ TRep dofTypes n (fun I J r k => g I J r k +
        (dofTypes.count I * dofTypes.count J : K) * (cells.map fun x => MatCell.adds x I J r k).sum) t' := by
    intro cells
    induction cells with
    | nil => intro _ g t h; exact ⟨t, rfl, h.congr (by simp)⟩
    | cons c cells ih =>
      intro hcs g t h
      obtain ⟨t1, a1, a2⟩ := matCellStep_ok c dofTypes n (hcs c (by simp)) g t h
      obtain ⟨t2, b1, b2⟩ := ih (fun c' h' => hcs c' (by simp [h'])) _ t1 a2
      refine ⟨t2, by rw [Res.foldlM_cons, a1]; exact b1, b2.congr ?_⟩
      intro I _ J _ r k
      simp only [List.map_cons, List.sum_cons]; ring
  have hthreads : ∀ (threads : List (List (MatCell K))), (∀ c ∈ threads.flatten, MatCell.Fits c dofTypes n) →
      ∀ g t, TRep dofTypes n g t → ∃ t', Res.foldlM (matThread dofTypes) t threads = .ok t' ∧
        TRep dofTypes n (fun I J r k => g I J r k + (dofTypes.count I * dofTypes.count J : K) *
          (threads.flatten.map fun x => MatCell.adds x I J r k).sum) t' := by
    intro threads
    induction threads with
    | nil => intro _ g t h; exact ⟨t, rfl, h.congr (by simp)⟩
    | cons cs threads ih =>
      intro hcs g t h
      obtain ⟨loc, a1, a2⟩ := hcells cs (fun c h' => hcs c (by simp [h'])) _ [] h0
      obtain ⟨p1, p2⟩ := spliceLoop (pairs dofTypes) t loc
      have h1 : matThread dofTypes t cs = .ok ((pairs dofTypes).foldl spliceStep (t, loc)).1 := by
        unfold matThread; rw [a1]; rfl
      have h2 : TRep dofTypes n (fun I J r k => g I J r k + (dofTypes.count I * dofTypes.count J : K) *
          (cs.map fun x => MatCell.adds x I J r k).sum) ((pairs dofTypes).foldl spliceStep (t, loc)).1 := by
        refine ⟨?_, ?_⟩
        · intro I hI J hJ r k
          rw [p1, if_pos (mem_pairs.mpr ⟨hI, hJ⟩), h.sum I hI J hJ, a2.sum I hI J hJ, zero_add]
        · intro I hI J hJ
          exact p2 _ _ _ (h.bound I hI J hJ) (fun _ => a2.bound I hI J hJ)
      obtain ⟨t', b1, b2⟩ := ih (fun c h' => hcs c (by rw [List.flatten_cons, List.mem_append]; exact Or.inr h')) _ _ h2
      refine ⟨t', by rw [Res.foldlM_cons, h1]; exact b1, b2.congr ?_⟩
      intro I _ J _ r k
      simp only [List.flatten_cons, List.map_append, List.sum_append]; ring
  obtain ⟨t, b1, b2⟩ := hthreads threads (fun c h' => hc c (hp.mem_iff.mp h')) _ [] h0
  obtain ⟨h, e1, e2, e3⟩ := hessianLoop s t dofTypes n hs b2.bound (pairs dofTypes) (fun p h' => mem_pairs.mp h') []
    List.Pairwise.nil
  refine ⟨h, ?_, e2, ?_, ?_⟩
  · unfold buildMatrix
    rw [throwOnZero_ok s dofTypes n hs, b1]
    exact e1
  · intro I J hn
    rw [e3, if_neg (fun hm => hn (mem_pairs.mp hm))]
    rfl
  · intro I hI J hJ
    refine ⟨⟨n I, n J, (t.find? (toLex (I, J))).getD []⟩, by rw [e3, if_pos (mem_pairs.mpr ⟨hI, hJ⟩)], rfl, rfl,
      b2.bound I hI J hJ, ?_⟩
    intro r c
    have := b2.sum I hI J hJ r c
    rw [zero_add, (hp.map _).sum_eq] at this
    exact this

/-- C14: every cell is counted exactly once, whatever the schedule. -/
theorem C14_buildMatrix (s : DofSizes) (dofTypes : List Nat) (n : Nat → Nat) (cells : List (MatCell K))
    (threads : List (List (MatCell K))) (hp : threads.flatten.Perm cells) (hd : dofTypes.Nodup)
    (hs : ∀ d ∈ dofTypes, s.size d = .ok (n d)) (hc : ∀ c ∈ cells, MatCell.Fits c dofTypes n) :
    ∃ h, buildMatrix s dofTypes threads = .ok h ∧
      (∀ I J, ¬(I ∈ dofTypes ∧ J ∈ dofTypes) → h.find? (toLex (I, J)) = none) ∧
      ∀ I ∈ dofTypes, ∀ J ∈ dofTypes, ∃ m, h.find? (toLex (I, J)) = some m ∧ m.rows = n I ∧ m.cols = n J ∧ m.WF ∧
        ∀ r c, m.entry r c = (cells.map fun x => MatCell.adds x I J r c).sum := by
  obtain ⟨h, h1, _, h3, h4⟩ := C14_buildMatrix_general s dofTypes n cells threads hp hs hc
  refine ⟨h, h1, h3, ?_⟩
  intro I hI J hJ
  obtain ⟨m, m1, m2, m3, m4, m5⟩ := h4 I hI J hJ
  refine ⟨m, m1, m2, m3, m4, ?_⟩
  intro r c
  rw [m5, List.count_eq_one_of_mem hd hI, List.count_eq_one_of_mem hd hJ]
  simp

theorem C14_missing_numbering (s : DofSizes) (dofTypes : List Nat) (h : ∃ d ∈ dofTypes, s.indep.find? d = none)
    (threads : List (List (MatCell K))) : buildMatrix s dofTypes threads = .throw := by
  obtain ⟨d, hd, hn⟩ := h
  unfold buildMatrix throwOnZero
  rw [if_neg]
  intro h
  have := h d hd
  rw [hn] at this; cases this

/-! ### C15 -/

section
variable [DecidableEq K]

/-- sum of all entries of a block -/
def blockTotal (m : DMat K) : K := ((List.range m.rows).map fun i => ((List.range m.cols).map fun j => m.coef i j).sum).sum
/-- sum of the diagonal entries of a square block -/
def diagTotal (m : DMat K) : K := ((List.range m.rows).map fun i => m.coef i i).sum

/-- C15, one block: the lumped diagonal is proportional to the diagonal, and its sum is the block total divided by the number
of components. -/
theorem C15_lumped_block_partial (num : K) (m : DMat K) (hsq : m.rows = m.cols) (hd : diagTotal m ≠ 0) :
    ∃ l, lumpedDiagonal num m = .ok l ∧ l.length = m.rows ∧ l.sum = blockTotal m / num ∧
      ∃ factor, ∀ i, i < m.rows → l.getD i 0 = factor * m.coef i i := by
  have hmin : min m.rows m.cols = m.rows := by rw [hsq]; simp
  unfold lumpedDiagonal Res.require
  simp only
  rw [hmin]
  change ∃ l, (if diagTotal m ≠ 0 then _ else _) = _ ∧ _
  rw [if_pos hd]
  refine ⟨_, rfl, by simp, ?_, (blockTotal m / diagTotal m / num), ?_⟩
  · have hs : ∀ (l : List K) (f : K), (l.map fun x => x * f).sum = l.sum * f := by
      intro l f; rw [List.sum_map_mul_right]; simp
    rw [hs]
    change diagTotal m * (blockTotal m / diagTotal m / num) = _
    field_simp
  · intro i hi
    simp only [List.getD_eq_getElem?_getD, List.getElem?_map, List.getElem?_range hi, Option.map_some, Option.getD_some]
    unfold blockTotal diagTotal
    ring

/-- C15 holds for scalar dof types: the lumped entries of a block sum to the block total. -/
theorem C15_scalar_mass_partial (m : DMat K) (hsq : m.rows = m.cols) (hd : diagTotal m ≠ 0) :
    ∃ l, lumpedDiagonal 1 m = .ok l ∧ l.sum = blockTotal m := by
  obtain ⟨l, h1, _, h3, _⟩ := C15_lumped_block_partial 1 m hsq hd
  exact ⟨l, h1, by rw [h3, div_one]⟩

/-- C15 is false as stated for dof types with several components: the mass matrix of two nodes (masses 1 each) with two
components has total 4 (2 per direction), the lumped matrix only 2 (1 per direction). -/
theorem C15_vector_dof_counterexample : ∃ (m : DMat ℚ) (l : List ℚ), lumpedDiagonal 2 m = .ok l ∧
    blockTotal m = 4 ∧ l = [1 / 2, 1 / 2, 1 / 2, 1 / 2] ∧ l.sum ≠ blockTotal m := by
  refine ⟨⟨4, 4, fun i j => if i = j then 1 else 0⟩, [1 / 2, 1 / 2, 1 / 2, 1 / 2], ?_, ?_, rfl, ?_⟩ <;> decide +kernel

/-- what a cell adds to the lumped entry `i` of dof type `d` -/
def MatCell.lumpedAdds (c : MatCell K) (num : Nat → K) (d i : Nat) : K :=
  match c.hess.find? (toLex (d, d)) with
  | some m => scatter (c.numbering d) ((List.range m.rows).map fun k => m.coef k k * (blockTotal m / diagTotal m / num d)) i
  | none => 0

/-- the requested diagonal blocks of the cell exist, are square with non-zero diagonal sum, and match the numbering -/
def MatCell.LumpFits (c : MatCell K) (dofTypes : List Nat) (n : Nat → Nat) : Prop :=
  ∀ d ∈ dofTypes, d ∈ dofTypes2 c.hess → ∃ m, c.hess.find? (toLex (d, d)) = some m ∧ m.rows = m.cols ∧ diagTotal m ≠ 0 ∧
    NumberingOK (n d) (c.numbering d) m.rows

/-- C15: the assembled lumped matrix is the sum of the cells' lumped diagonals, for every schedule.
Missing for the full claim: see `C15_vector_dof_counterexample`. -/
theorem C15_assembled_partial (num : Nat → K) (s : DofSizes) (dofTypes : List Nat) (n : Nat → Nat)
    (cells : List (MatCell K)) (threads : List (List (MatCell K))) (hp : threads.flatten.Perm cells) (hd : dofTypes.Nodup)
    (hs : ∀ d ∈ dofTypes, s.size d = .ok (n d)) (hc : ∀ c ∈ cells, MatCell.LumpFits c dofTypes n) :
    ∃ v, buildLumped num s dofTypes threads = .ok v ∧ (∀ d, d ∉ dofTypes → v.find? d = none) ∧
      ∀ d ∈ dofTypes, ∃ x, v.find? d = some x ∧ x.length = n d ∧
        ∀ i, i < n d → x[i]? = some (cells.map fun c => MatCell.lumpedAdds c num d i).sum := by
  obtain ⟨v0, a1, a2⟩ := resizedVector_ok (K := K) s dofTypes n hs
  have hcell : ∀ c ∈ cells, ∀ g v, Rep dofTypes n g v → ∃ v', lumpCellStep num dofTypes v c = .ok v' ∧
      Rep dofTypes n (fun d i => g d i + MatCell.lumpedAdds c num d i) v' := by
    intro c hcm g v h
    have hblk : ∀ d ∈ dofIntersection (dofTypes2 c.hess) dofTypes, ∃ m, c.hess.find? (toLex (d, d)) = some m ∧
        lumpedDiagonal (num d) m = .ok ((List.range m.rows).map fun k => m.coef k k * (blockTotal m / diagTotal m / num d)) ∧
        NumberingOK (n d) (c.numbering d) m.rows := by
      intro d hdm
      have a := mem_dofIntersection hdm
      obtain ⟨m, m1, m2, m3, m4⟩ := hc c hcm d a.2 a.1
      refine ⟨m, m1, ?_, m4⟩
      unfold lumpedDiagonal Res.require
      simp only
      rw [show min m.rows m.cols = m.rows by rw [m2]; simp]
      rw [if_pos (show ((List.range m.rows).map fun i => m.coef i i).sum ≠ 0 from m3), List.map_map]
      rfl
    obtain ⟨v', h1, h2⟩ := dofLoop (lumpDofStep num c) dofTypes n c.numbering
      (fun d => match c.hess.find? (toLex (d, d)) with
        | some m => (List.range m.rows).map fun k => m.coef k k * (blockTotal m / diagTotal m / num d)
        | none => []) (dofIntersection (dofTypes2 c.hess) dofTypes) (by
        intro v d hdm
        obtain ⟨m, m1, m2, _⟩ := hblk d hdm
        simp only [lumpDofStep, at2, OMap.at', m1, Res.bind_ok', m2]) (by
        intro d hdm
        obtain ⟨m, m1, _, m3⟩ := hblk d hdm
        refine ⟨(mem_dofIntersection hdm).2, ?_⟩
        simp only [m1, List.length_map, List.length_range]
        exact m3) g v h
    refine ⟨v', h1, h2.congr ?_⟩
    intro d hdm i _
    congr 1
    rw [count_dofIntersection, List.count_eq_one_of_mem hd hdm, mul_one]
    unfold MatCell.lumpedAdds
    by_cases hin : d ∈ dofTypes2 c.hess
    · obtain ⟨m, m1, _⟩ := hc c hcm d hdm hin
      rw [m1, List.count_eq_one_of_mem (nodup_dofTypes2 _) hin]
      simp
    · have hnone : c.hess.find? (toLex (d, d)) = none := by
        cases hf : c.hess.find? (toLex (d, d)) with
        | none => rfl
        | some m =>
          have hk : toLex (d, d) ∈ OMap.keys c.hess := OMap.find?_isSome_iff.mp (by rw [hf]; rfl)
          exact absurd ((mem_dofTypes2 _ _).mpr ⟨_, hk, Or.inl rfl⟩) hin
      rw [hnone, List.count_eq_zero_of_not_mem hin]
      simp
  obtain ⟨v, b1, b2⟩ := threadLoop (lumpCellStep num dofTypes) (lumpThread num s dofTypes) v0 dofTypes n a2
    (fun c d i => MatCell.lumpedAdds c num d i) (by
      intro g cells; unfold lumpThread; rw [a1]; rfl) threads (fun c hm => hcell c (hp.mem_iff.mp hm)) _ v0 a2
  refine ⟨v, by unfold buildLumped; rw [a1]; exact b1, fun d hdn => by rw [b2.find, if_neg hdn], ?_⟩
  intro d hdm
  refine ⟨_, by rw [b2.find, if_pos hdm], by simp, ?_⟩
  intro i hi
  simp only [zero_add, (hp.map _).sum_eq, List.getElem?_map, List.getElem?_range hi, Option.map_some]

theorem sum_scatter (numbers : List Int) (vals : List K) (N : Nat) (h : ∀ g ∈ numbers, 0 ≤ g ∧ g < (N : Int)) :
    ((List.range N).map fun i => scatter numbers vals i).sum =
      ((List.range numbers.length).map fun k => vals.getD k 0).sum := by
  unfold scatter
  have swap : ∀ (A B : List Nat) (f : Nat → Nat → K), (A.map fun a => (B.map fun b => f a b).sum).sum =
      (B.map fun b => (A.map fun a => f a b).sum).sum := by
    intro A B f
    induction A with
    | nil => simp
    | cons a A ih => simp only [List.map_cons, List.sum_cons, ih, List.sum_map_add]
  rw [swap]
  congr 1
  apply List.map_congr_left
  intro k hk
  have hk' := List.mem_range.mp hk
  have hb := h _ (List.getElem_mem hk')
  have hget : numbers.getD k 0 = numbers[k] := by simp [List.getD_eq_getElem?_getD, hk']
  rw [hget]
  have one : ∀ (M : Nat) (y : K) (g : Nat), ((List.range M).map fun i : Nat => if (g : Int) = (i : Int) then y else 0).sum =
      if g < M then y else 0 := by
    intro M y g
    induction M with
    | zero => simp
    | succ M ih =>
      rw [List.range_succ, List.map_append, List.sum_append, ih]
      simp only [List.map_cons, List.map_nil, List.sum_cons, List.sum_nil, add_zero, Int.natCast_inj]
      by_cases h1 : g < M
      · have : g ≠ M := by omega
        simp [h1, this, Nat.lt_succ_of_lt h1]
      · by_cases h2 : g = M
        · subst h2; simp
        · have : ¬ g < M + 1 := by omega
          simp [h1, h2, this]
  have := one N (vals.getD k 0) (numbers[k]).toNat
  rw [show (((numbers[k]).toNat : Int)) = numbers[k] by omega, if_pos (by omega)] at this
  exact this

/-- C15: total assembled mass of a scalar dof type = sum over the cells of their full block totals. -/
theorem C15_total_mass_partial (num : Nat → K) (s : DofSizes) (dofTypes : List Nat) (n : Nat → Nat)
    (cells : List (MatCell K)) (threads : List (List (MatCell K))) (hp : threads.flatten.Perm cells) (hd : dofTypes.Nodup)
    (hs : ∀ d ∈ dofTypes, s.size d = .ok (n d)) (hc : ∀ c ∈ cells, MatCell.LumpFits c dofTypes n)
    (d : Nat) (hdm : d ∈ dofTypes) (hlen : ∀ c ∈ cells, ∃ m, c.hess.find? (toLex (d, d)) = some m ∧
      (c.numbering d).length = m.rows) :
    ∃ v x, buildLumped num s dofTypes threads = .ok v ∧ v.find? d = some x ∧
      x.sum = (cells.map fun c => match c.hess.find? (toLex (d, d)) with
        | some m => blockTotal m
        | none => 0).sum / num d := by
  obtain ⟨v, h1, _, h3⟩ := C15_assembled_partial num s dofTypes n cells threads hp hd hs hc
  obtain ⟨x, x1, x2, x3⟩ := h3 d hdm
  refine ⟨v, x, h1, x1, ?_⟩
  have hx : x = (List.range (n d)).map fun i => (cells.map fun c => MatCell.lumpedAdds c num d i).sum := by
    apply List.ext_getElem?
    intro i
    by_cases hi : i < n d
    · rw [x3 i hi]; simp [hi]
    · rw [List.getElem?_eq_none (by omega), List.getElem?_eq_none (by simp; omega)]
  rw [hx]
  have hsum : ∀ cells : List (MatCell K), (∀ c ∈ cells, MatCell.LumpFits c dofTypes n) →
      (∀ c ∈ cells, ∃ m, c.hess.find? (toLex (d, d)) = some m ∧ (c.numbering d).length = m.rows) →
      ((List.range (n d)).map fun i => (cells.map fun c => MatCell.lumpedAdds c num d i).sum).sum =
      (cells.map fun c => match c.hess.find? (toLex (d, d)) with
        | some m => blockTotal m
        | none => 0).sum / num d := by
    intro cells
    induction cells with
    | nil => simp
    | cons c cells ih =>
      intro ha hb
      simp only [List.map_cons, List.sum_cons]
      rw [List.sum_map_add, ih (fun c' h' => ha c' (by simp [h'])) (fun c' h' => hb c' (by simp [h'])), add_div]
      congr 1
      obtain ⟨m, m1, m2⟩ := hb c (by simp)
      have hin : d ∈ dofTypes2 c.hess := (mem_dofTypes2 _ _).mpr
        ⟨toLex (d, d), OMap.find?_isSome_iff.mp (by rw [m1]; rfl), Or.inl rfl⟩
      obtain ⟨m', k1, k2, k3, k4⟩ := ha c (by simp) d hdm hin
      rw [m1] at k1
      simp only [Option.some.injEq] at k1
      subst k1
      unfold MatCell.lumpedAdds
      rw [m1]
      simp only
      rw [sum_scatter _ _ _ k4.1, m2]
      have : ((List.range m.rows).map fun k => ((List.range m.rows).map fun k => m.coef k k *
          (blockTotal m / diagTotal m / num d)).getD k 0) = (List.range m.rows).map fun k => m.coef k k *
          (blockTotal m / diagTotal m / num d) := by
        apply List.map_congr_left
        intro k hk
        exact map_range_getD _ _ k (List.mem_range.mp hk)
      rw [this, List.sum_map_mul_right]
      change diagTotal m * (blockTotal m / diagTotal m / num d) = _
      field_simp
  exact hsum cells hc hlen

end

/-! examples: two cells sharing global dof 2, two threads -/

def exSizes : DofSizes := ⟨[(0, 3)], [(0, 2)]⟩
def exVecCell (a b c : Int) : VecCell ℚ := ⟨[(0, [11, 22, 33])], fun _ => [a, b, c]⟩
def exMatCell (a b : Int) : MatCell ℚ := ⟨[(toLex (0, 0), ⟨2, 2, fun i j => if i = j then 2 else 1⟩)], fun _ => [a, b]⟩

example : (∀ d ∈ [0], exSizes.size d = .ok 5) ∧ VecCell.Fits (exVecCell 0 1 2) [0] (fun _ => 5) ∧
    VecCell.Fits (exVecCell 2 3 4) [0] (fun _ => 5) ∧
    buildVector exSizes [0] [[exVecCell 2 3 4], [exVecCell 0 1 2]] = .ok [(0, [11, 22, 44, 22, 33])] := by
  refine ⟨by decide, ⟨by simp [exVecCell, OMap.Sorted], ?_⟩, ⟨by simp [exVecCell, OMap.Sorted], ?_⟩, by decide +kernel⟩
  all_goals
    intro d hd vals hv
    simp at hd; subst hd
    simp [exVecCell, OMap.find?] at hv; subst hv
    simp [NumberingOK, exVecCell]

/-- a dof type requested twice is counted twice (not covered by C13, which requests each dof type once) -/
example : buildVector exSizes [0, 0] [[exVecCell 2 3 4, exVecCell 0 1 2]] = .ok [(0, [22, 44, 88, 44, 66])] := by
  decide +kernel

example : MatCell.Fits (exMatCell 0 1) [0] (fun _ => 5) ∧ MatCell.LumpFits (exMatCell 1 4) [0] (fun _ => 5) ∧
    (∃ h, buildMatrix exSizes [0] [[exMatCell 0 1], [exMatCell 1 4]] = .ok h ∧
      (h.find? (toLex (0, 0))).map (fun m => m.entry 1 1) = some 4) ∧
    buildLumped (fun _ => 1) exSizes [0] [[exMatCell 1 4], [exMatCell 0 1]] = .ok [(0, [3, 6, 0, 0, 3])] := by
  refine ⟨?_, ?_, ⟨_, rfl, by decide +kernel⟩, by decide +kernel⟩
  · intro I hI J hJ _ _
    simp at hI hJ; subst hI; subst hJ
    exact ⟨_, rfl, by simp [NumberingOK, exMatCell], by simp [NumberingOK, exMatCell]⟩
  · intro d hd _
    simp at hd; subst hd
    exact ⟨_, rfl, rfl, by decide +kernel, by simp [NumberingOK, exMatCell]⟩

end NuTo
