import Verif.Lemmas.SpMat
import Verif.Lemmas.DofVector
import Mathlib.Algebra.Field.Rat

/-!
C04: flat block matrices.
-/
set_option linter.unusedSectionVars false
namespace NuTo
variable {K : Type _} [Field K]

/-- first row/column of the `p`-th dof type of the list -/
def blockOffset (size : Nat → Nat) (dofs : List Nat) (p : Nat) : Nat := ((dofs.take p).map size).sum

/-- C04: entry (i,j) of block (r,c) is found at (offset r + i, offset c + j). -/
theorem C04_toEigen_blocks (v : DofSpMat K) (dofs : List Nat) (rs cs : Nat → Nat) (b : Nat → Nat → SpMat K)
    (h : DofSpMat.Consistent v dofs rs cs b) :
    ∃ M, v.toEigen dofs = .ok M ∧ M.rows = (dofs.map rs).sum ∧ M.cols = (dofs.map cs).sum ∧ M.WF ∧
      ∀ p q i j (hp : p < dofs.length) (hq : q < dofs.length), i < rs dofs[p] → j < cs dofs[q] →
        M.entry (blockOffset rs dofs p + i) (blockOffset cs dofs q + j) = (b dofs[p] dofs[q]).entry i j := by
  obtain ⟨M, h1, h2, h3, h4⟩ := DofSpMat.toEigen_ok dofs h
  refine ⟨M, h1, h2, h3, ?_, ?_⟩
  · intro t ht
    rw [h2, h3]
    exact DofSpMat.mem_allTriplets dofs h t (h4 ▸ ht)
  · intro p q i j hp hq hi hj
    unfold SpMat.entry
    rw [h4]
    exact DofSpMat.entry_allTriplets dofs h p q i j hp hq hi hj

/-- C04: flat matrix times flat vector is the flat version of the block product: row `offset r + i` of the product is
`∑_c ∑_j block(r,c)(i,j) * x_c(j)`. -/
theorem C04_toEigen_product (v : DofSpMat K) (dofs : List Nat) (rs cs : Nat → Nat) (b : Nat → Nat → SpMat K)
    (h : DofSpMat.Consistent v dofs rs cs b)
    (x : DofVec K) (blocks : Nat → List K) (hx : ∀ d ∈ dofs, x.find? d = some (blocks d))
    (hl : ∀ d ∈ dofs, (blocks d).length = cs d) :
    ∃ M xs y, v.toEigen dofs = .ok M ∧ x.toEigen dofs = .ok xs ∧ M.mulVec xs = .ok y ∧
      y.length = (dofs.map rs).sum ∧
      ∀ p i (hp : p < dofs.length), i < rs dofs[p] → y.getD (blockOffset rs dofs p + i) 0 =
        ∑ q : Fin dofs.length, ∑ j ∈ Finset.range (cs dofs[q]),
          (b dofs[p] dofs[q]).entry i j * (blocks dofs[q]).getD j 0 := by
  obtain ⟨M, h1, h2, h3, hw, h4⟩ := C04_toEigen_blocks v dofs rs cs b h
  have hsz : ∀ l : List Nat, (∀ d ∈ l, d ∈ dofs) → (l.map fun d => (blocks d).length) = l.map cs := by
    intro l hm; exact List.map_congr_left fun d hd => hl d (hm d hd)
  have hlen : (dofs.flatMap blocks).length = M.cols := by
    rw [List.length_flatMap, h3, hsz dofs (fun _ h => h)]
  refine ⟨M, dofs.flatMap blocks, (List.range M.rows).map fun i => (M.entries.map fun t =>
    if t.row = i then t.val * (dofs.flatMap blocks).getD t.col 0 else 0).sum, h1,
    DofVec.toEigen_eq x blocks dofs hx, ?_, ?_, ?_⟩
  · unfold SpMat.mulVec Res.require; rw [if_pos hlen]
  · rw [List.length_map, List.length_range, h2]
  · intro p i hp hi
    have hbound : blockOffset rs dofs p + i < M.rows := by
      rw [h2]
      have hsplit : (dofs.map rs).sum = blockOffset rs dofs p + (rs dofs[p] + ((dofs.drop (p+1)).map rs).sum) := by
        conv_lhs => rw [← List.take_append_drop p dofs, List.drop_eq_getElem_cons hp, List.map_append, List.sum_append,
          List.map_cons, List.sum_cons]
        rfl
      omega
    simp only [List.getD_eq_getElem?_getD, List.getElem?_map, List.getElem?_range hbound, Option.map_some,
      Option.getD_some]
    have hm := SpMat.mulVec_sum M hw (dofs.flatMap blocks) (blockOffset rs dofs p + i)
    simp only [List.getD_eq_getElem?_getD] at hm
    rw [hm, h3, sum_range_blocks]
    apply Finset.sum_congr rfl
    intro q _
    apply Finset.sum_congr rfl
    intro j hj
    have hj' := Finset.mem_range.mp hj
    have e1 := h4 p q i j hp q.2 hi hj'
    unfold blockOffset at e1 ⊢
    rw [e1]
    congr 1
    have e2 := flatMap_getD blocks dofs q q.2 j (by
      have := hl dofs[(q : Nat)] (List.getElem_mem _)
      exact lt_of_lt_of_eq hj' this.symm)
    rw [hsz _ (fun d hd => List.mem_of_mem_take hd)] at e2
    simpa [List.getD_eq_getElem?_getD] using e2

/-- two dof types of sizes 1 and 2 with a coupling block, listed in the order 7, 3 -/
example : ∃ (v : DofSpMat ℚ) (size : Nat → Nat) (b : Nat → Nat → SpMat ℚ),
    DofSpMat.Consistent v [7, 3] size size b ∧
    v.toEigen [7, 3] = .ok ⟨3, 3, [⟨0, 0, 4⟩, ⟨1, 0, 5⟩, ⟨2, 2, 6⟩]⟩ := by
  let b : Nat → Nat → SpMat ℚ := fun r c =>
    if r = 7 then (if c = 7 then ⟨1, 1, [⟨0, 0, 4⟩]⟩ else ⟨1, 2, []⟩)
    else (if c = 7 then ⟨2, 1, [⟨0, 0, 5⟩]⟩ else ⟨2, 2, [⟨1, 1, 6⟩]⟩)
  refine ⟨[(toLex (3, 3), b 3 3), (toLex (3, 7), b 3 7), (toLex (7, 3), b 7 3), (toLex (7, 7), b 7 7)],
    fun d => if d = 7 then 1 else 2, b, ?_, by decide +kernel⟩
  constructor <;> simp only [List.mem_cons, List.not_mem_nil, or_false] <;> rintro r (rfl | rfl) c (rfl | rfl) <;>
    first | rfl | decide +kernel

end NuTo
