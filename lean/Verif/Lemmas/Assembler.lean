import Verif.Model.Assembler
import Verif.Lemmas.OMap
import Verif.Lemmas.DofVector
import Verif.Lemmas.SpMat
import Mathlib.Tactic.Ring
import Mathlib.Data.List.Perm.Basic
import Mathlib.Data.List.Count
import Mathlib.Algebra.BigOperators.Group.List.Basic

set_option linter.unusedSectionVars false
namespace NuTo.Assembly
variable {K : Type _} [Field K]

/-- entry `i` of the vector obtained by adding `vals[k]` at position `numbers[k]` for every `k` -/
def scatter (numbers : List Int) (vals : List K) (i : Nat) : K :=
  ((List.range numbers.length).map fun k => if numbers.getD k 0 = (i : Int) then vals.getD k 0 else 0).sum

/-- the block vector `v` has exactly the dof types `dofs`, with sizes `n` and coefficients `g` -/
structure Rep (dofs : List Nat) (n : Nat → Nat) (g : Nat → Nat → K) (v : DofVec K) : Prop where
  sorted : v.Sorted
  find : ∀ d, v.find? d = if d ∈ dofs then some ((List.range (n d)).map (g d)) else none

theorem map_range_getD (n : Nat) (g : Nat → K) (i : Nat) (hi : i < n) : ((List.range n).map g).getD i 0 = g i := by
  simp [List.getD_eq_getElem?_getD, hi]

theorem map_range_set (n : Nat) (g : Nat → K) (i : Nat) (y : K) (_hi : i < n) :
    ((List.range n).map g).set i (g i + y) = (List.range n).map fun j => g j + if i = j then y else 0 := by
  apply List.ext_getElem (by simp)
  intro j h1 h2
  simp only [List.length_set, List.length_map, List.length_range] at h1
  rw [List.getElem_set]
  split
  · rename_i h; subst h; simp
  · rename_i h; simp [h]

theorem accumulate_aux (numbers : List Int) (vals : List K) (n : Nat) (ks : List Nat)
    (hk : ∀ k ∈ ks, ∃ a : Nat, numbers[k]? = some (a : Int) ∧ a < n ∧ k < vals.length) (g : Nat → K) :
    Res.foldlM (accStep numbers vals) ((List.range n).map g) ks =
      .ok ((List.range n).map fun i => g i +
        (ks.map fun k => if numbers.getD k 0 = (i : Int) then vals.getD k 0 else 0).sum) := by
  induction ks generalizing g with
  | nil => simp
  | cons k ks ih =>
    obtain ⟨a, h1, h2, h3⟩ := hk k (by simp)
    have hstep : accStep numbers vals ((List.range n).map g) k =
        .ok ((List.range n).map fun j => g j + if a = j then vals.getD k 0 else 0) := by
      unfold accStep
      rw [h1, List.getElem?_eq_getElem h3]
      simp only [Res.require, Int.toNat_natCast, List.length_map, List.length_range]
      rw [if_pos ⟨Int.natCast_nonneg a, h2⟩, map_range_getD n g a h2, map_range_set n g a _ h2]
      simp [List.getD_eq_getElem?_getD, h3]
    rw [Res.foldlM_cons, hstep, Res.bind_ok', ih (fun k' h' => hk k' (by simp [h']))]
    congr 1
    apply List.map_congr_left
    intro i _
    have hg : numbers.getD k 0 = (a : Int) := by rw [List.getD_eq_getElem?_getD, h1]; rfl
    rw [List.map_cons, List.sum_cons, hg]
    simp only [Int.natCast_inj]
    ring

/-- local numbering of a block: every number is a valid index of the global block and there is a local value for it -/
def NumberingOK (n : Nat) (numbers : List Int) (len : Nat) : Prop :=
  (∀ g ∈ numbers, 0 ≤ g ∧ g < (n : Int)) ∧ numbers.length ≤ len

theorem accumulate_ok (numbers : List Int) (vals : List K) (n : Nat) (h : NumberingOK n numbers vals.length) (g : Nat → K) :
    accumulate numbers vals ((List.range n).map g) = .ok ((List.range n).map fun i => g i + scatter numbers vals i) := by
  unfold accumulate scatter
  apply accumulate_aux
  intro k hk
  have hk' := List.mem_range.mp hk
  have hm := h.1 _ (List.getElem_mem hk')
  refine ⟨(numbers[k]).toNat, ?_, by omega, by have := h.2; omega⟩
  rw [List.getElem?_eq_getElem hk']
  congr 1
  omega

theorem Rep.set {dofs : List Nat} {n : Nat → Nat} {g : Nat → Nat → K} {v : DofVec K} (h : Rep dofs n g v) (d : Nat)
    (hd : d ∈ dofs) (g' : Nat → K) :
    Rep dofs n (fun e i => if e = d then g' i else g e i) (OMap.set v d ((List.range (n d)).map g')) := by
  refine ⟨OMap.sorted_set h.sorted _ _, ?_⟩
  intro e
  rw [OMap.find?_set]
  by_cases he : e = d
  · subst he; simp [hd]
  · rw [if_neg he, h.find e]
    simp [he]

theorem Rep.congr {dofs : List Nat} {n : Nat → Nat} {g g' : Nat → Nat → K} {v : DofVec K} (h : Rep dofs n g v)
    (hg : ∀ d ∈ dofs, ∀ i, i < n d → g d i = g' d i) : Rep dofs n g' v := by
  refine ⟨h.sorted, ?_⟩
  intro d
  rw [h.find d]
  split
  · rename_i hd
    congr 1
    apply List.map_congr_left
    intro i hi
    exact hg d hd i (List.mem_range.mp hi)
  · rfl

theorem Rep.unique {dofs : List Nat} {n : Nat → Nat} {g : Nat → Nat → K} {v w : DofVec K} (h : Rep dofs n g v)
    (h' : Rep dofs n g w) : v = w :=
  OMap.ext_find? h.sorted h'.sorted fun k => by rw [h.find, h'.find]

/-- generic accumulation over a list of dof types, each with local values -/
theorem dofLoop (step : DofVec K → Nat → Res (DofVec K)) (dofs : List Nat) (n : Nat → Nat)
    (numbering : Nat → List Int) (vals : Nat → List K) (L : List Nat)
    (hstep : ∀ v d, d ∈ L → step v d =
      (accumulate (numbering d) (vals d) ((OMap.find? v d).getD [])).bind fun x => .ok (OMap.set v d x))
    (hL : ∀ d ∈ L, d ∈ dofs ∧ NumberingOK (n d) (numbering d) (vals d).length) :
    ∀ (g : Nat → Nat → K) (v : DofVec K), Rep dofs n g v → ∃ v', Res.foldlM step v L = .ok v' ∧
      Rep dofs n (fun d i => g d i + (L.count d : K) * scatter (numbering d) (vals d) i) v' := by
  induction L with
  | nil => intro g v h; exact ⟨v, rfl, h.congr (by simp)⟩
  | cons d L ih =>
    intro g v h
    obtain ⟨hd, hn⟩ := hL d (by simp)
    have h1 : step v d = .ok (OMap.set v d ((List.range (n d)).map fun i => g d i + scatter (numbering d) (vals d) i)) := by
      rw [hstep v d (by simp), h.find d, if_pos hd]
      simp only [Option.getD_some]
      rw [accumulate_ok _ _ _ hn]
      rfl
    obtain ⟨v', e1, e2⟩ := ih (fun v e he => hstep v e (by simp [he])) (fun e he => hL e (by simp [he])) _ _
      (h.set d hd fun i => g d i + scatter (numbering d) (vals d) i)
    refine ⟨v', by rw [Res.foldlM_cons, h1]; exact e1, e2.congr ?_⟩
    intro e _ i _
    by_cases he : e = d
    · subst he
      simp only [if_true, List.count_cons_self, Nat.cast_add, Nat.cast_one]
      ring
    · simp only [he, if_false]
      rw [List.count_cons_of_ne (Ne.symm he)]

theorem count_dofIntersection (one two : List Nat) (d : Nat) :
    (dofIntersection one two).count d = one.count d * two.count d := by
  unfold dofIntersection
  induction one with
  | nil => simp
  | cons e one ih =>
    rw [List.flatMap_cons, List.count_append, ih, List.count_cons]
    have hf : (two.filter fun d2 => e = d2).length = two.count e := by
      rw [List.count, List.countP_eq_length_filter]
      congr 1
      apply List.filter_congr
      intro x _
      rw [Bool.eq_iff_iff, beq_iff_eq, decide_eq_true_eq]
      exact ⟨Eq.symm, Eq.symm⟩
    have h2 : ((two.filter fun d2 => e = d2).map fun _ => e) = List.replicate (two.count e) e := by
      rw [List.map_const', hf]
    rw [h2, List.count_replicate]
    by_cases h : e = d
    · subst h; simp; ring
    · simp [h]

theorem mem_dofIntersection {one two : List Nat} {d : Nat} (h : d ∈ dofIntersection one two) : d ∈ one ∧ d ∈ two := by
  have := List.count_pos_iff.mpr h
  rw [count_dofIntersection] at this
  exact ⟨List.count_pos_iff.mp (Nat.pos_of_mul_pos_right this), List.count_pos_iff.mp (Nat.pos_of_mul_pos_left this)⟩

theorem resizedVector_ok (s : DofSizes) (dofTypes : List Nat) (n : Nat → Nat) (h : ∀ d ∈ dofTypes, s.size d = .ok (n d)) :
    ∃ v, resizedVector (K := K) s dofTypes = .ok v ∧ Rep dofTypes n (fun _ _ => 0) v := by
  have key : ∀ (L : List Nat) (pre : List Nat) (v : DofVec K), (∀ d ∈ L, s.size d = .ok (n d)) →
      Rep pre n (fun _ _ => 0) v → ∃ v', Res.foldlM (resizeStep s) v L = .ok v' ∧ Rep (pre ++ L) n (fun _ _ => 0) v' := by
    intro L
    induction L with
    | nil => intro pre v _ hv; exact ⟨v, rfl, by simpa using hv⟩
    | cons d L ih =>
      intro pre v hL hv
      have h1 : resizeStep s v d = .ok (OMap.set v d (List.replicate (n d) 0)) := by
        unfold resizeStep; rw [hL d (by simp)]; rfl
      have h2 : Rep (pre ++ [d]) n (fun _ _ => (0 : K)) (OMap.set v d (List.replicate (n d) 0)) := by
        refine ⟨OMap.sorted_set hv.sorted _ _, ?_⟩
        intro e
        rw [OMap.find?_set]
        by_cases he : e = d
        · subst he
          simp [List.map_const']
        · rw [if_neg he, hv.find e]; simp [he]
      obtain ⟨v', e1, e2⟩ := ih (pre ++ [d]) _ (fun e he => hL e (by simp [he])) h2
      exact ⟨v', by rw [Res.foldlM_cons, h1]; exact e1, by simpa using e2⟩
  have := key dofTypes [] [] h ⟨List.Pairwise.nil, by simp [OMap.find?]⟩
  simpa [resizedVector] using this

theorem Rep.addAssign {dofs : List Nat} {n : Nat → Nat} {g g' : Nat → Nat → K} {v w : DofVec K} (h : Rep dofs n g v)
    (h' : Rep dofs n g' w) : ∃ r, DofVec.addAssign v w = .ok r ∧ Rep dofs n (fun d i => g d i + g' d i) r := by
  obtain ⟨c, h1, h2, h3⟩ := OMap.mergeWith_ok (P := DofVec.SameSize) (F := List.zipWith (· + ·)) (g := id) v w h.sorted
    h'.sorted (by
      intro k x y hx hy
      rw [h.find] at hx
      rw [h'.find] at hy
      split at hx
      · rename_i hk
        rw [if_pos hk] at hy
        simp only [Option.some.injEq] at hx hy
        subst hx; subst hy
        simp [DofVec.SameSize]
      · cases hx)
  refine ⟨c, h1, h2, ?_⟩
  intro d
  rw [h3, h.find, h'.find]
  split
  · simp only [mergeEntry]
    congr 1
    apply List.ext_getElem (by simp)
    intro i hi1 hi2
    simp
  · rfl

/-- generic: threads that each compute a local vector and add it -/
theorem threadLoop {C : Type _} (cellStep : DofVec K → C → Res (DofVec K)) (thread : DofVec K → List C → Res (DofVec K))
    (v0 : DofVec K) (dofs : List Nat) (n : Nat → Nat) (h0 : Rep dofs n (fun _ _ => 0) v0)
    (contr : C → Nat → Nat → K)
    (hthread : ∀ g cells, thread g cells = (Res.foldlM cellStep v0 cells).bind fun loc => DofVec.addAssign g loc)
    (threads : List (List C))
    (hcell : ∀ c ∈ threads.flatten, ∀ g v, Rep dofs n g v → ∃ v', cellStep v c = .ok v' ∧
      Rep dofs n (fun d i => g d i + contr c d i) v') :
    ∀ g v, Rep dofs n g v → ∃ v', Res.foldlM thread v threads = .ok v' ∧
      Rep dofs n (fun d i => g d i + (threads.flatten.map fun c => contr c d i).sum) v' := by
  have hcells : ∀ (cells : List C), (∀ c ∈ cells, ∀ g v, Rep dofs n g v → ∃ v', cellStep v c = .ok v' ∧
      Rep dofs n (fun d i => g d i + contr c d i) v') → ∀ g v, Rep dofs n g v →
      ∃ v', Res.foldlM cellStep v cells = .ok v' ∧ Rep dofs n (fun d i => g d i + (cells.map fun c => contr c d i).sum) v' := by
    intro cells
    induction cells with
    | nil => intro _ g v h; exact ⟨v, rfl, h.congr (by simp)⟩
    | cons c cells ih =>
      intro hc g v h
      obtain ⟨v1, a1, a2⟩ := hc c (by simp) g v h
      obtain ⟨v2, b1, b2⟩ := ih (fun c' h' => hc c' (by simp [h'])) _ v1 a2
      refine ⟨v2, by rw [Res.foldlM_cons, a1]; exact b1, b2.congr ?_⟩
      intro d _ i _
      simp only [List.map_cons, List.sum_cons]; ring
  induction threads with
  | nil => intro g v h; exact ⟨v, rfl, h.congr (by simp)⟩
  | cons cells threads ih =>
    intro g v h
    obtain ⟨loc, a1, a2⟩ := hcells cells (fun c hc => hcell c (by simp [hc])) _ v0 h0
    obtain ⟨v1, b1, b2⟩ := h.addAssign a2
    have hth : thread v cells = .ok v1 := by rw [hthread, a1]; exact b1
    obtain ⟨v2, c1, c2⟩ := ih (fun c hc => hcell c (by
      rw [List.flatten_cons, List.mem_append]; exact Or.inr hc)) _ v1 b2
    refine ⟨v2, by rw [Res.foldlM_cons, hth]; exact c1, c2.congr ?_⟩
    intro d _ i _
    simp only [List.flatten_cons, List.map_append, List.sum_append]; ring

/-! matrices -/

/-- sum of the triplets of block `p` at position `(r, c)` -/
def tsum (t : TripMap K) (p : Nat × Nat) (r c : Nat) : K :=
  (((t.find? (toLex p)).getD []).map fun x => if x.row = r ∧ x.col = c then x.val else 0).sum

/-- all triplets of block `p` are inside an `nr × nc` matrix -/
def InBounds (t : TripMap K) (p : Nat × Nat) (nr nc : Nat) : Prop :=
  ∀ x ∈ (t.find? (toLex p)).getD [], x.row < nr ∧ x.col < nc

/-- entry `(r, c)` of the matrix obtained by adding `m(i, j)` at `(rows[i], cols[j])` for all `i, j` -/
def scatter2 (rowNums colNums : List Int) (m : DMat K) (r c : Nat) : K :=
  ((List.range rowNums.length).map fun i => ((List.range colNums.length).map fun j =>
    if rowNums.getD i 0 = (r : Int) ∧ colNums.getD j 0 = (c : Int) then m.coef i j else 0).sum).sum

theorem tsum_append (t : TripMap K) (d0 d1 : Nat) (l : List (Triplet K)) (p : Nat × Nat) (r c : Nat) :
    tsum (appendTriplets t d0 d1 l) p r c =
      tsum t p r c + if p = (d0, d1) then (l.map fun x => if x.row = r ∧ x.col = c then x.val else 0).sum else 0 := by
  unfold tsum appendTriplets
  rw [OMap.find?_set]
  by_cases h : p = (d0, d1)
  · subst h; simp
  · have : toLex p ≠ toLex (d0, d1) := fun h' => h (toLex.injective h')
    rw [if_neg this, if_neg h, add_zero]

theorem inBounds_append (t : TripMap K) (d0 d1 : Nat) (l : List (Triplet K)) (p : Nat × Nat) (nr nc : Nat)
    (ht : InBounds t p nr nc) (hl : p = (d0, d1) → ∀ x ∈ l, x.row < nr ∧ x.col < nc) :
    InBounds (appendTriplets t d0 d1 l) p nr nc := by
  unfold InBounds appendTriplets at *
  rw [OMap.find?_set]
  by_cases h : p = (d0, d1)
  · subst h
    rw [if_pos rfl]
    simp only [Option.getD_some, List.mem_append]
    rintro x (hx | hx)
    · exact ht x hx
    · exact hl rfl x hx
  · have : toLex p ≠ toLex (d0, d1) := fun h' => h (toLex.injective h')
    rw [if_neg this]; exact ht

theorem getD_nonneg {l : List Int} (h : ∀ g ∈ l, 0 ≤ g) (i : Nat) (hi : i < l.length) : l.getD i 0 = ((l.getD i 0).toNat : Int) := by
  have := h l[i] (List.getElem_mem hi)
  simp only [List.getD_eq_getElem?_getD, List.getElem?_eq_getElem hi, Option.getD_some]
  omega

/-- the block triplets of a block whose numbering fits -/
theorem blockTriplets_ok (rowNums colNums : List Int) (m : DMat K) (nr nc : Nat) (h1 : NumberingOK nr rowNums m.rows)
    (h2 : NumberingOK nc colNums m.cols) :
    ∃ l, blockTriplets rowNums colNums m = .ok l ∧ (∀ x ∈ l, x.row < nr ∧ x.col < nc) ∧
      ∀ r c, (l.map fun x => if x.row = r ∧ x.col = c then x.val else 0).sum = scatter2 rowNums colNums m r c := by
  refine ⟨_, by unfold blockTriplets Res.require; exact if_pos ⟨fun g hg => (h1.1 g hg).1, fun g hg => (h2.1 g hg).1, h1.2, h2.2⟩,
    ?_, ?_⟩
  · intro x hx
    obtain ⟨i, hi, hx⟩ := List.mem_flatMap.mp hx
    obtain ⟨j, hj, rfl⟩ := List.mem_map.mp hx
    have hi' := List.mem_range.mp hi
    have hj' := List.mem_range.mp hj
    have a := h1.1 _ (List.getElem_mem hi')
    have b := h2.1 _ (List.getElem_mem hj')
    simp only [List.getD_eq_getElem?_getD, List.getElem?_eq_getElem hi', List.getElem?_eq_getElem hj', Option.getD_some]
    omega
  · intro r c
    unfold scatter2
    rw [DofSpMat.sum_map_flatMap]
    congr 1
    apply List.map_congr_left
    intro i hi
    rw [List.map_map]
    congr 1
    apply List.map_congr_left
    intro j hj
    have a := getD_nonneg (fun g hg => (h1.1 g hg).1) i (List.mem_range.mp hi)
    have b := getD_nonneg (fun g hg => (h2.1 g hg).1) j (List.mem_range.mp hj)
    simp only [Function.comp]
    have e1 : (rowNums.getD i 0 = (r : Int)) ↔ (rowNums.getD i 0).toNat = r := by omega
    have e2 : (colNums.getD j 0 = (c : Int)) ↔ (colNums.getD j 0).toNat = c := by omega
    simp only [e1, e2]

theorem blockTriplets_sum (rowNums colNums : List Int) (m : DMat K) (l : List (Triplet K))
    (h : blockTriplets rowNums colNums m = .ok l) (r c : Nat) :
    (l.map fun x => if x.row = r ∧ x.col = c then x.val else 0).sum = scatter2 rowNums colNums m r c := by
  unfold blockTriplets Res.require at h
  split at h
  · rename_i hc
    simp only [Res.ok.injEq] at h
    subst h
    unfold scatter2
    rw [DofSpMat.sum_map_flatMap]
    congr 1
    apply List.map_congr_left
    intro i hi
    rw [List.map_map]
    congr 1
    apply List.map_congr_left
    intro j hj
    have a := getD_nonneg hc.1 i (List.mem_range.mp hi)
    have b := getD_nonneg hc.2.1 j (List.mem_range.mp hj)
    simp only [Function.comp]
    have e1 : (rowNums.getD i 0 = (r : Int)) ↔ (rowNums.getD i 0).toNat = r := by omega
    have e2 : (colNums.getD j 0 = (c : Int)) ↔ (colNums.getD j 0).toNat = c := by omega
    simp only [e1, e2]
  · cases h

/-- invariant of a triplet map: block sums and bounds for the pairs of `dofs` -/
structure TRep (dofs : List Nat) (n : Nat → Nat) (g : Nat → Nat → Nat → Nat → K) (t : TripMap K) : Prop where
  sum : ∀ I ∈ dofs, ∀ J ∈ dofs, ∀ r c, tsum t (I, J) r c = g I J r c
  bound : ∀ I ∈ dofs, ∀ J ∈ dofs, InBounds t (I, J) (n I) (n J)

theorem TRep.congr {dofs : List Nat} {n : Nat → Nat} {g g' : Nat → Nat → Nat → Nat → K} {t : TripMap K} (h : TRep dofs n g t)
    (hg : ∀ I ∈ dofs, ∀ J ∈ dofs, ∀ r c, g I J r c = g' I J r c) : TRep dofs n g' t :=
  ⟨fun I hI J hJ r c => by rw [h.sum I hI J hJ, hg I hI J hJ], h.bound⟩

/-- generic loop over pairs of dof types -/
theorem pairLoop (step : TripMap K → Nat × Nat → Res (TripMap K)) (dofs : List Nat) (n : Nat → Nat)
    (numbering : Nat → List Int) (blk : Nat → Nat → DMat K) (P : List (Nat × Nat))
    (hstep : ∀ t p, p ∈ P → step t p = (blockTriplets (numbering p.1) (numbering p.2) (blk p.1 p.2)).bind fun l =>
      .ok (appendTriplets t p.1 p.2 l))
    (hP : ∀ p ∈ P, NumberingOK (n p.1) (numbering p.1) (blk p.1 p.2).rows ∧
      NumberingOK (n p.2) (numbering p.2) (blk p.1 p.2).cols) :
    ∀ g t, TRep dofs n g t → ∃ t', Res.foldlM step t P = .ok t' ∧
      TRep dofs n (fun I J r c => g I J r c + (P.count (I, J) : K) * scatter2 (numbering I) (numbering J) (blk I J) r c) t' := by
  induction P with
  | nil => intro g t h; exact ⟨t, rfl, h.congr (by simp)⟩
  | cons p P ih =>
    intro g t h
    obtain ⟨l, l1, l2, l3⟩ := blockTriplets_ok _ _ _ _ _ (hP p (by simp)).1 (hP p (by simp)).2
    have h1 : step t p = .ok (appendTriplets t p.1 p.2 l) := by rw [hstep t p (by simp), l1]; rfl
    have h2 : TRep dofs n (fun I J r c => g I J r c + if (I, J) = p then scatter2 (numbering p.1) (numbering p.2)
        (blk p.1 p.2) r c else 0) (appendTriplets t p.1 p.2 l) := by
      refine ⟨?_, ?_⟩
      · intro I hI J hJ r c
        rw [tsum_append, h.sum I hI J hJ, l3]
      · intro I hI J hJ
        apply inBounds_append _ _ _ _ _ _ _ (h.bound I hI J hJ)
        intro he x hx
        simp only [Prod.mk.injEq] at he
        rw [he.1, he.2]
        exact l2 x hx
    obtain ⟨t', e1, e2⟩ := ih (fun t q hq => hstep t q (by simp [hq])) (fun q hq => hP q (by simp [hq])) _ _ h2
    refine ⟨t', by rw [Res.foldlM_cons, h1]; exact e1, e2.congr ?_⟩
    intro I _ J _ r c
    by_cases he : (I, J) = p
    · subst he
      simp only [if_true, List.count_cons_self, Nat.cast_add, Nat.cast_one]
      ring
    · simp only [he, if_false]
      rw [List.count_cons_of_ne (Ne.symm he)]
      ring

theorem count_pairs (l : List Nat) (I J : Nat) : (pairs l).count (I, J) = l.count I * l.count J := by
  unfold pairs
  have h1 : ∀ i, (l.map fun j => (i, j)).count (I, J) = if i = I then l.count J else 0 := by
    intro i
    split
    · rename_i h
      subst h
      exact List.count_map_of_injective l _ (fun a b h => (Prod.mk.inj h).2) J
    · rename_i h
      rw [List.count_eq_zero]
      intro hm
      obtain ⟨j, _, hj⟩ := List.mem_map.mp hm
      exact h (Prod.mk.inj hj).1
  have : ∀ l' : List Nat, (l'.flatMap fun i => l.map fun j => (i, j)).count (I, J) = l'.count I * l.count J := by
    intro l'
    induction l' with
    | nil => simp
    | cons i l' ih =>
      rw [List.flatMap_cons, List.count_append, h1, ih, List.count_cons]
      by_cases h : i = I
      · subst h; simp; ring
      · simp [h]
  exact this l

theorem mem_pairs {l : List Nat} {p : Nat × Nat} : p ∈ pairs l ↔ p.1 ∈ l ∧ p.2 ∈ l := by
  unfold pairs
  simp only [List.mem_flatMap, List.mem_map]
  constructor
  · rintro ⟨a, ha, b, hb, rfl⟩; exact ⟨ha, hb⟩
  · rintro ⟨h1, h2⟩; exact ⟨p.1, h1, p.2, h2, rfl⟩

theorem mem_addUnique {l : List Nat} {d e : Nat} : e ∈ addUnique l d ↔ e ∈ l ∨ e = d := by
  unfold addUnique
  split
  · constructor
    · exact Or.inl
    · rintro (h | rfl) <;> assumption
  · simp

theorem nodup_addUnique {l : List Nat} (h : l.Nodup) (d : Nat) : (addUnique l d).Nodup := by
  unfold addUnique
  split
  · exact h
  · rename_i hd
    rw [List.nodup_append]
    refine ⟨h, by simp, ?_⟩
    intro a ha b hb hab
    simp at hb
    subst hb; subst hab; exact hd ha

theorem mem_dofTypes2 {α : Type _} (m : OMap (Nat ×ₗ Nat) α) (d : Nat) :
    d ∈ dofTypes2 m ↔ ∃ k ∈ m.keys, (ofLex k).1 = d ∨ (ofLex k).2 = d := by
  unfold dofTypes2
  have : ∀ (ks : List (Nat ×ₗ Nat)) (acc : List Nat), d ∈ ks.foldl dofTypesStep acc ↔
      d ∈ acc ∨ ∃ k ∈ ks, (ofLex k).1 = d ∨ (ofLex k).2 = d := by
    intro ks
    induction ks with
    | nil => intro acc; simp
    | cons k ks ih =>
      intro acc
      rw [List.foldl_cons, ih]
      unfold dofTypesStep
      rw [mem_addUnique, mem_addUnique]
      constructor
      · rintro ((( h | h) | h) | ⟨k', h1, h2⟩)
        · exact Or.inl h
        · exact Or.inr ⟨k, by simp, Or.inl h.symm⟩
        · exact Or.inr ⟨k, by simp, Or.inr h.symm⟩
        · exact Or.inr ⟨k', by simp [h1], h2⟩
      · rintro (h | ⟨k', h1, h2⟩)
        · exact Or.inl (Or.inl (Or.inl h))
        · rcases List.mem_cons.mp h1 with rfl | h1
          · rcases h2 with h2 | h2
            · exact Or.inl (Or.inl (Or.inr h2.symm))
            · exact Or.inl (Or.inr h2.symm)
          · exact Or.inr ⟨k', h1, h2⟩
  rw [this]; simp

theorem nodup_dofTypes2 {α : Type _} (m : OMap (Nat ×ₗ Nat) α) : (dofTypes2 m).Nodup := by
  unfold dofTypes2
  have : ∀ (ks : List (Nat ×ₗ Nat)) (acc : List Nat), acc.Nodup → (ks.foldl dofTypesStep acc).Nodup := by
    intro ks
    induction ks with
    | nil => intro acc h; exact h
    | cons k ks ih => intro acc h; exact ih _ (nodup_addUnique (nodup_addUnique h _) _)
  exact this _ _ List.nodup_nil

theorem nodup_pairs {l : List Nat} (h : l.Nodup) : (pairs l).Nodup := by
  rw [List.nodup_iff_count_le_one] at *
  intro p
  rw [show p = (p.1, p.2) from rfl, count_pairs]
  exact Nat.mul_le_mul (h p.1) (h p.2)

theorem foldlM_flatMap {α β γ : Type _} (f : β → γ → Res β) (g : α → List γ) (l : List α) :
    ∀ b, Res.foldlM f b (l.flatMap g) = Res.foldlM (fun b a => Res.foldlM f b (g a)) b l := by
  have happ : ∀ (l1 l2 : List γ) b, Res.foldlM f b (l1 ++ l2) = (Res.foldlM f b l1).bind fun b' => Res.foldlM f b' l2 := by
    intro l1
    induction l1 with
    | nil => intro l2 b; rfl
    | cons x l1 ih =>
      intro l2 b
      rw [List.cons_append, Res.foldlM_cons, Res.foldlM_cons]
      cases f b x with
      | ok a => simp only [Res.bind_ok']; exact ih l2 a
      | throw => rfl
      | ub => rfl
  induction l with
  | nil => intro b; rfl
  | cons a l ih =>
    intro b
    rw [List.flatMap_cons, happ, Res.foldlM_cons]
    congr 1
    funext b'
    exact ih b'

theorem foldlM_map {α β γ : Type _} (f : β → γ → Res β) (g : α → γ) (l : List α) :
    ∀ b, Res.foldlM f b (l.map g) = Res.foldlM (fun b a => f b (g a)) b l := by
  induction l with
  | nil => intro b; rfl
  | cons a l ih =>
    intro b
    rw [List.map_cons, Res.foldlM_cons, Res.foldlM_cons]
    congr 1; funext b'; exact ih b'

theorem foldlM_pairs {β : Type _} (f : β → Nat × Nat → Res β) (l : List Nat) (b : β) :
    Res.foldlM (fun b i => Res.foldlM (fun b j => f b (i, j)) b l) b l = Res.foldlM f b (pairs l) := by
  unfold pairs
  rw [foldlM_flatMap]
  congr 1
  funext b i
  rw [foldlM_map]

theorem spliceLoop (P : List (Nat × Nat)) : ∀ (t loc : TripMap K),
    (∀ p r c, tsum (P.foldl spliceStep (t, loc)).1 p r c = tsum t p r c + if p ∈ P then tsum loc p r c else 0) ∧
    (∀ p nr nc, InBounds t p nr nc → (p ∈ P → InBounds loc p nr nc) → InBounds (P.foldl spliceStep (t, loc)).1 p nr nc) := by
  induction P with
  | nil => intro t loc; exact ⟨by simp, fun p nr nc h _ => h⟩
  | cons q P ih =>
    intro t loc
    obtain ⟨h1, h2⟩ := ih (spliceStep (t, loc) q).1 (spliceStep (t, loc) q).2
    rw [List.foldl_cons]
    have hloc : ∀ p r c, tsum (spliceStep (t, loc) q).2 p r c = if p = q then 0 else tsum loc p r c := by
      intro p r c
      unfold spliceStep tsum
      rw [OMap.find?_set]
      by_cases h : p = q
      · subst h; simp
      · have : toLex p ≠ toLex q := fun h' => h (toLex.injective h')
        rw [if_neg this, if_neg h]
    constructor
    · intro p r c
      rw [h1 p r c, hloc]
      have : tsum (spliceStep (t, loc) q).1 p r c = tsum t p r c + if p = q then tsum loc p r c else 0 := by
        unfold spliceStep
        rw [tsum_append]
        by_cases h : p = q
        · subst h; simp [tsum]
        · simp [h]
      rw [this]
      by_cases h : p = q
      · subst h; simp
      · simp [h]
    · intro p nr nc ht hl
      apply h2
      · unfold spliceStep
        apply inBounds_append _ _ _ _ _ _ _ ht
        intro hp
        have hp' : p = q := hp
        subst hp'
        exact hl (by simp)
      · intro hp
        unfold spliceStep InBounds
        rw [OMap.find?_set]
        by_cases h : p = q
        · subst h; simp
        · have : toLex p ≠ toLex q := fun h' => h (toLex.injective h')
          rw [if_neg this]
          exact hl (by simp [hp])

end NuTo.Assembly
