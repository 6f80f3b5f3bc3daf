import Verif.Model.DofVector
import Mathlib.Algebra.BigOperators.Group.List.Basic
import Mathlib.Algebra.BigOperators.Group.Finset.Basic
import Mathlib.Data.Prod.Lex

/-!
Sparse matrices and block matrices (`DofMatrixContainer`, `DofMatrixSparse`).
-/
namespace NuTo

/-- `Eigen::Triplet` -/
structure Triplet (K : Type _) where
  row : Nat
  col : Nat
  val : K
deriving DecidableEq, Repr

/-- `Eigen::SparseMatrix`: its size and the stored entries.  Eigen's contract: a coefficient is the stored value at that
position, 0 otherwise; `setFromTriplets` sums values of equal position.  Here the summation is part of reading a coefficient
(`entry`), so the triplet list itself may serve as the matrix. -/
structure SpMat (K : Type _) where
  rows : Nat
  cols : Nat
  entries : List (Triplet K)
deriving DecidableEq, Repr

namespace SpMat
variable {K : Type _} [Field K]

/-- `coeff(i, j)` -/
def entry (m : SpMat K) (i j : Nat) : K :=
  (m.entries.map fun t => if t.row = i ∧ t.col = j then t.val else 0).sum

/-- all stored positions are inside the matrix -/
def WF (m : SpMat K) : Prop := ∀ t ∈ m.entries, t.row < m.rows ∧ t.col < m.cols

instance (m : SpMat K) : Decidable m.WF := inferInstanceAs (Decidable (∀ t ∈ m.entries, _))

/-- `setFromTriplets` on a matrix of given size: a position outside is undefined -/
def setFromTriplets (rows cols : Nat) (ts : List (Triplet K)) : Res (SpMat K) :=
  Res.require (∀ t ∈ ts, t.row < rows ∧ t.col < cols) (.ok ⟨rows, cols, ts⟩)

/-- matrix times dense vector (Eigen: needs `cols = x.size()`) -/
def mulVec (m : SpMat K) (x : List K) : Res (List K) :=
  Res.require (x.length = m.cols) (.ok ((List.range m.rows).map fun i =>
    (m.entries.map fun t => if t.row = i then t.val * x.getD t.col 0 else 0).sum))

/-- transposed matrix -/
def transpose (m : SpMat K) : SpMat K := ⟨m.cols, m.rows, m.entries.map fun t => ⟨t.col, t.row, t.val⟩⟩

end SpMat

/-- `DofMatrixSparse<T>`: a `std::map` keyed by pairs of dof ids in lexicographic order
(DofMatrixContainer.h 109-121, DofMatrixSparse.h 10-11) -/
abbrev DofSpMat (K : Type _) := OMap (Nat ×ₗ Nat) (SpMat K)

namespace DofSpMat
variable {K : Type _} [Field K]

/-- const `operator()(d0, d1)`, DofMatrixContainer.h 21-24 -/
def at2 (v : DofSpMat K) (d0 d1 : Nat) : Res (SpMat K) := OMap.at' v (toLex (d0, d1))

/-- `TotalRows`, DofMatrixSparseConvertEigen.h 8-14 -/
def totalRows (v : DofSpMat K) (dofs : List Nat) : Res Nat :=
  Res.foldlM (fun n d => (v.at2 d d).bind fun m => .ok (n + m.rows)) 0 dofs

/-- `TotalCols`, DofMatrixSparseConvertEigen.h 17-23 -/
def totalCols (v : DofSpMat K) (dofs : List Nat) : Res Nat :=
  Res.foldlM (fun n d => (v.at2 d d).bind fun m => .ok (n + m.cols)) 0 dofs

/-- inner loop of `ToEigen`, DofMatrixSparseConvertEigen.h 52-60: state = (triplets, startCol) -/
def rowStep (v : DofSpMat K) (dofRow startRow : Nat) (s : List (Triplet K) × Nat) (dofCol : Nat) :
    Res (List (Triplet K) × Nat) :=
  (v.at2 dofRow dofCol).bind fun mat =>
    .ok (s.1 ++ mat.entries.map (fun t => ⟨t.row + startRow, t.col + s.2, t.val⟩), s.2 + mat.cols)

/-- outer loop, lines 49-62: state = (triplets, startRow) -/
def colStep (v : DofSpMat K) (dofs : List Nat) (s : List (Triplet K) × Nat) (dofRow : Nat) :
    Res (List (Triplet K) × Nat) :=
  (Res.foldlM (rowStep v dofRow s.2) (s.1, 0) dofs).bind fun r =>
    (v.at2 dofRow dofRow).bind fun mat => .ok (r.1, s.2 + mat.rows)

/-- `ToEigen`, DofMatrixSparseConvertEigen.h 41-67.  (`TotalNonZeros` in `reserve` reads the same blocks as the loops.) -/
def toEigen (v : DofSpMat K) (dofs : List Nat) : Res (SpMat K) :=
  match dofs with
  | [d] => v.at2 d d
  | _ =>
    (Res.foldlM (colStep v dofs) ([], 0) dofs).bind fun r =>
      (v.totalRows dofs).bind fun nr => (v.totalCols dofs).bind fun nc => SpMat.setFromTriplets nr nc r.1

end DofSpMat
end NuTo
