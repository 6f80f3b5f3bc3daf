import Verif.Model.SpMat
import Mathlib.Algebra.BigOperators.Fin
import Mathlib.Algebra.BigOperators.Ring.Finset
import Mathlib.Algebra.BigOperators.Intervals
import Mathlib.Tactic.Ring

set_option linter.unusedSectionVars false
namespace NuTo
variable {K : Type _} [Field K]

/-- dof types paired with the running offset -/
def withOffsets (size : Nat → Nat) : Nat → List Nat → List (Nat × Nat)
  | _, [] => []
  | s, d :: ds => (d, s) :: withOffsets size (s + size d) ds

theorem sum_withOffsets_zero (size : Nat → Nat) (I : Nat) (g : Nat → Nat → K) (ds : List Nat) :
    ∀ s, (∀ d ∈ ds, ∀ s, ¬(s ≤ I ∧ I < s + size d) → g d s = 0) → I < s →
      ((withOffsets size s ds).map fun e => g e.1 e.2).sum = 0 := by
  induction ds with
  | nil => intros; rfl
  | cons d ds ih =>
    intro s hg h
    simp only [withOffsets, List.map_cons, List.sum_cons]
    rw [hg d (by simp) s (by omega), ih _ (fun e he => hg e (by simp [he])) (by omega), add_zero]

/-- only the block containing the index contributes -/
theorem sum_withOffsets (size : Nat → Nat) (I : Nat) (g : Nat → Nat → K) (ds : List Nat) :
    ∀ s, (∀ d ∈ ds, ∀ s, ¬(s ≤ I ∧ I < s + size d) → g d s = 0) →
      ∀ p (hp : p < ds.length), s + ((ds.take p).map size).sum ≤ I →
        I < s + ((ds.take p).map size).sum + size ds[p] →
        ((withOffsets size s ds).map fun e => g e.1 e.2).sum = g ds[p] (s + ((ds.take p).map size).sum) := by
  induction ds with
  | nil => intro s hg p hp; simp at hp
  | cons d ds ih =>
    intro s hg p hp h1 h2
    simp only [withOffsets, List.map_cons, List.sum_cons]
    cases p with
    | zero =>
      simp only [List.take_zero, List.map_nil, List.sum_nil, Nat.add_zero, List.getElem_cons_zero] at *
      rw [sum_withOffsets_zero size I g ds _ (fun e he => hg e (by simp [he])) h2, add_zero]
    | succ p =>
      simp only [List.take_succ_cons, List.map_cons, List.sum_cons, List.getElem_cons_succ] at *
      rw [hg d (by simp) s (by omega), zero_add,
        ih (s + size d) (fun e he => hg e (by simp [he])) p (by simpa using hp) (by omega) (by omega)]
      congr 1; omega

theorem mem_withOffsets (size : Nat → Nat) (ds : List Nat) : ∀ s e, e ∈ withOffsets size s ds →
    e.1 ∈ ds ∧ e.2 + size e.1 ≤ s + (ds.map size).sum := by
  induction ds with
  | nil => intro s e h; simp [withOffsets] at h
  | cons d ds ih =>
    intro s e h
    simp only [withOffsets, List.mem_cons] at h
    rcases h with rfl | h
    · simp
    · have := ih _ e h
      simp only [List.mem_cons, List.map_cons, List.sum_cons]
      exact ⟨Or.inr this.1, by omega⟩

namespace DofSpMat

/-- consistent block sizes for the dof types in `dofs`; `b r c` is the block -/
structure Consistent (v : DofSpMat K) (dofs : List Nat) (rs cs : Nat → Nat) (b : Nat → Nat → SpMat K) : Prop where
  block : ∀ r ∈ dofs, ∀ c ∈ dofs, v.at2 r c = .ok (b r c)
  rows : ∀ r ∈ dofs, ∀ c ∈ dofs, (b r c).rows = rs r
  cols : ∀ r ∈ dofs, ∀ c ∈ dofs, (b r c).cols = cs c
  wf : ∀ r ∈ dofs, ∀ c ∈ dofs, (b r c).WF

def shift (sr sc : Nat) (ts : List (Triplet K)) : List (Triplet K) :=
  ts.map fun t => ⟨t.row + sr, t.col + sc, t.val⟩

variable {v : DofSpMat K} {rs cs size : Nat → Nat} {b : Nat → Nat → SpMat K}

theorem rowLoop (r sr : Nat) (ds : List Nat) (hb : ∀ c ∈ ds, v.at2 r c = .ok (b r c))
    (hc : ∀ c ∈ ds, (b r c).cols = size c) : ∀ acc s,
    Res.foldlM (rowStep v r sr) (acc, s) ds =
      .ok (acc ++ (withOffsets size s ds).flatMap (fun e => shift sr e.2 (b r e.1).entries), s + (ds.map size).sum) := by
  induction ds with
  | nil => intro acc s; simp [withOffsets]
  | cons c ds ih =>
    intro acc s
    simp only [Res.foldlM_cons, rowStep, hb c (by simp), Res.bind_ok']
    rw [ih (fun d hd => hb d (by simp [hd])) (fun d hd => hc d (by simp [hd]))]
    simp only [withOffsets, List.flatMap_cons, hc c (by simp), shift, List.append_assoc, List.map_cons, List.sum_cons]
    congr 2; omega

theorem colLoop (dofs : List Nat) (h : Consistent v dofs rs cs b) (ds : List Nat) (hs : ∀ d ∈ ds, d ∈ dofs) : ∀ acc s,
    Res.foldlM (colStep v dofs) (acc, s) ds =
      .ok (acc ++ (withOffsets rs s ds).flatMap (fun f =>
        (withOffsets cs 0 dofs).flatMap (fun e => shift f.2 e.2 (b f.1 e.1).entries)), s + (ds.map rs).sum) := by
  induction ds with
  | nil => intro acc s; simp [withOffsets]
  | cons r ds ih =>
    intro acc s
    have hr := hs r (by simp)
    simp only [Res.foldlM_cons, colStep]
    rw [rowLoop r s dofs (h.block r hr) (h.cols r hr)]
    simp only [Res.bind_ok', h.block r hr r hr]
    rw [ih (fun d hd => hs d (by simp [hd]))]
    simp only [withOffsets, List.flatMap_cons, h.rows r hr r hr, List.append_assoc, List.map_cons, List.sum_cons]
    congr 2; omega

theorem totalRows_ok (dofs : List Nat) (h : Consistent v dofs rs cs b) (ds : List Nat) (hs : ∀ d ∈ ds, d ∈ dofs) : ∀ n,
    Res.foldlM (fun n d => (v.at2 d d).bind fun m => .ok (n + m.rows)) n ds = .ok (n + (ds.map rs).sum) := by
  induction ds with
  | nil => intro n; simp
  | cons d ds ih =>
    intro n
    have hr := hs d (by simp)
    simp only [Res.foldlM_cons, h.block d hr d hr, Res.bind_ok', h.rows d hr d hr]
    rw [ih (fun d hd => hs d (by simp [hd]))]
    simp; omega

theorem totalCols_ok (dofs : List Nat) (h : Consistent v dofs rs cs b) (ds : List Nat) (hs : ∀ d ∈ ds, d ∈ dofs) : ∀ n,
    Res.foldlM (fun n d => (v.at2 d d).bind fun m => .ok (n + m.cols)) n ds = .ok (n + (ds.map cs).sum) := by
  induction ds with
  | nil => intro n; simp
  | cons d ds ih =>
    intro n
    have hr := hs d (by simp)
    simp only [Res.foldlM_cons, h.block d hr d hr, Res.bind_ok', h.cols d hr d hr]
    rw [ih (fun d hd => hs d (by simp [hd]))]
    simp; omega

/-- all triplets of the flat matrix -/
def allTriplets (rs cs : Nat → Nat) (b : Nat → Nat → SpMat K) (dofs : List Nat) : List (Triplet K) :=
  (withOffsets rs 0 dofs).flatMap (fun f =>
        (withOffsets cs 0 dofs).flatMap (fun e => shift f.2 e.2 (b f.1 e.1).entries))

theorem shift_zero (ts : List (Triplet K)) : shift 0 0 ts = ts := by
  unfold shift; conv_rhs => rw [← List.map_id ts]
  rfl

theorem mem_allTriplets (dofs : List Nat) (h : Consistent v dofs rs cs b) (t : Triplet K)
    (ht : t ∈ allTriplets rs cs b dofs) : t.row < (dofs.map rs).sum ∧ t.col < (dofs.map cs).sum := by
  simp only [allTriplets, List.mem_flatMap, shift, List.mem_map] at ht
  obtain ⟨f, hf, e, he, u, hu, rfl⟩ := ht
  have h1 := mem_withOffsets rs dofs 0 f hf
  have h2 := mem_withOffsets cs dofs 0 e he
  have h3 := h.wf f.1 h1.1 e.1 h2.1 u hu
  rw [h.rows _ h1.1 _ h2.1, h.cols _ h1.1 _ h2.1] at h3
  simp only; omega

theorem toEigen_ok (dofs : List Nat) (h : Consistent v dofs rs cs b) :
    ∃ M, v.toEigen dofs = .ok M ∧ M.rows = (dofs.map rs).sum ∧ M.cols = (dofs.map cs).sum ∧
      M.entries = allTriplets rs cs b dofs := by
  have gen : ((Res.foldlM (colStep v dofs) ([], 0) dofs).bind fun r =>
      (v.totalRows dofs).bind fun nr => (v.totalCols dofs).bind fun nc => SpMat.setFromTriplets nr nc r.1) =
        .ok ⟨(dofs.map rs).sum, (dofs.map cs).sum, allTriplets rs cs b dofs⟩ := by
    rw [colLoop dofs h dofs (fun _ h => h)]
    unfold totalRows totalCols
    rw [totalRows_ok dofs h dofs (fun _ h => h), totalCols_ok dofs h dofs (fun _ h => h)]
    simp only [Res.bind_ok', Nat.zero_add, List.nil_append, SpMat.setFromTriplets, Res.require]
    rw [if_pos]
    · rfl
    · intro t ht; exact mem_allTriplets dofs h t ht
  match dofs, h, gen with
  | [], _, gen => exact ⟨_, gen, rfl, rfl, rfl⟩
  | [d], h, _ =>
    refine ⟨b d d, h.block d (by simp) d (by simp), ?_, ?_, ?_⟩
    · simpa using h.rows d (by simp) d (by simp)
    · simpa using h.cols d (by simp) d (by simp)
    · simp [allTriplets, withOffsets, shift_zero]
  | _ :: _ :: _, _, gen => exact ⟨_, gen, rfl, rfl, rfl⟩

theorem sum_map_flatMap {α β : Type _} (l : List α) (f : α → List β) (g : β → K) :
    ((l.flatMap f).map g).sum = (l.map fun a => ((f a).map g).sum).sum := by
  induction l with
  | nil => rfl
  | cons a l ih => simp [List.flatMap_cons, ih]

theorem list_sum_zero {α : Type _} (l : List α) (g : α → K) (h : ∀ a ∈ l, g a = 0) : (l.map g).sum = 0 := by
  induction l with
  | nil => rfl
  | cons a l ih => simp [h a (by simp), ih (fun b hb => h b (by simp [hb]))]

theorem entry_allTriplets (dofs : List Nat) (h : Consistent v dofs rs cs b) (p q i j : Nat)
    (hp : p < dofs.length) (hq : q < dofs.length) (hi : i < rs dofs[p]) (hj : j < cs dofs[q]) :
    ((allTriplets rs cs b dofs).map fun t => if t.row = ((dofs.take p).map rs).sum + i ∧
        t.col = ((dofs.take q).map cs).sum + j then t.val else 0).sum = (b dofs[p] dofs[q]).entry i j := by
  unfold allTriplets
  rw [sum_map_flatMap]
  set I := ((dofs.take p).map rs).sum + i with hI
  set J := ((dofs.take q).map cs).sum + j with hJ
  have wfr : ∀ r ∈ dofs, ∀ c ∈ dofs, ∀ t ∈ (b r c).entries, t.row < rs r ∧ t.col < cs c := by
    intro r hr c hc t ht
    have := h.wf r hr c hc t ht
    rwa [h.rows r hr c hc, h.cols r hr c hc] at this
  have step1 := sum_withOffsets rs I (fun r sr => (((withOffsets cs 0 dofs).flatMap
      (fun e => shift sr e.2 (b r e.1).entries)).map fun t => if t.row = I ∧ t.col = J then t.val else 0).sum)
      dofs 0 (by
        intro r hr sr hn
        apply list_sum_zero
        intro t ht
        simp only [List.mem_flatMap, shift, List.mem_map] at ht
        obtain ⟨e, he, u, hu, rfl⟩ := ht
        have h2 := mem_withOffsets cs dofs 0 e he
        have h3 := wfr r hr e.1 h2.1 u hu
        rw [if_neg]
        simp only
        omega) p hp (by omega) (by omega)
  rw [step1, sum_map_flatMap]
  simp only [Nat.zero_add]
  have step2 := sum_withOffsets cs J (fun c sc => ((shift ((dofs.take p).map rs).sum sc
      (b dofs[p] c).entries).map fun t => if t.row = I ∧ t.col = J then t.val else 0).sum)
      dofs 0 (by
        intro c hc sc hn
        apply list_sum_zero
        intro t ht
        simp only [shift, List.mem_map] at ht
        obtain ⟨u, hu, rfl⟩ := ht
        have h3 := wfr dofs[p] (List.getElem_mem hp) c hc u hu
        rw [if_neg]
        simp only
        omega) q hq (by omega) (by omega)
  rw [step2]
  simp only [Nat.zero_add, shift, List.map_map, SpMat.entry]
  congr 1
  apply List.map_congr_left
  intro t _
  simp only [Function.comp, hI, hJ]
  have : (t.row + ((dofs.take p).map rs).sum = ((dofs.take p).map rs).sum + i ∧
    t.col + ((dofs.take q).map cs).sum = ((dofs.take q).map cs).sum + j) ↔ (t.row = i ∧ t.col = j) := by omega
  simp only [this]

end DofSpMat

/-- a sum over a concatenated range is the sum over the pieces -/
theorem sum_range_blocks (size : Nat → Nat) (ds : List Nat) : ∀ (f : Nat → K),
    ∑ j ∈ Finset.range (ds.map size).sum, f j =
      ∑ q : Fin ds.length, ∑ j ∈ Finset.range (size ds[q]), f (((ds.take q).map size).sum + j) := by
  induction ds with
  | nil => intro f; simp
  | cons d ds ih =>
    intro f
    rw [List.map_cons, List.sum_cons, Finset.sum_range_add, ih]
    refine Eq.trans ?_ (Fin.sum_univ_succ (n := ds.length) _).symm
    congr 1
    · simp
    · apply Finset.sum_congr rfl
      intro q _
      simp [Nat.add_assoc]

/-- the product computed from stored entries is the sum over all columns -/
theorem SpMat.mulVec_sum (m : SpMat K) (hw : m.WF) (x : List K) (i : Nat) :
    (m.entries.map fun t => if t.row = i then t.val * x.getD t.col 0 else 0).sum =
      ∑ j ∈ Finset.range m.cols, m.entry i j * x.getD j 0 := by
  unfold SpMat.entry
  unfold SpMat.WF at hw
  generalize m.cols = n at *
  generalize m.rows = nr at *
  generalize m.entries = ts at *
  induction ts with
  | nil => simp
  | cons t ts ih =>
    simp only [List.map_cons, List.sum_cons]
    rw [ih (fun u hu => hw u (by simp [hu]))]
    simp only [add_mul, Finset.sum_add_distrib]
    congr 1
    by_cases hr : t.row = i
    · simp only [hr, true_and, if_true]
      rw [Finset.sum_eq_single t.col]
      · simp
      · intro j _ hj; simp [Ne.symm hj]
      · intro hc; exact absurd (Finset.mem_range.mpr (hw t (by simp)).2) hc
    · simp [hr]

/-- offset + index inside a concatenation -/
theorem flatMap_getD (f : Nat → List K) (ds : List Nat) : ∀ q (hq : q < ds.length) j (_ : j < (f ds[q]).length),
    (ds.flatMap f).getD (((ds.take q).map fun d => (f d).length).sum + j) 0 = (f ds[q]).getD j 0 := by
  induction ds with
  | nil => intro q hq; simp at hq
  | cons d ds ih =>
    intro q hq j hj
    rw [List.flatMap_cons]
    cases q with
    | zero =>
      simp only [List.take_zero, List.map_nil, List.sum_nil, Nat.zero_add, List.getElem_cons_zero] at *
      simp only [List.getD_eq_getElem?_getD]
      rw [List.getElem?_append_left hj]
    | succ q =>
      simp only [List.take_succ_cons, List.map_cons, List.sum_cons, List.getElem_cons_succ] at *
      have := ih q (by simpa using hq) j hj
      simp only [List.getD_eq_getElem?_getD] at *
      rw [List.getElem?_append_right (by omega), ← this]
      congr 2; omega

end NuTo
