/-
C40: Jacobian matrix, determinant and inverse of the element map.
-/
import Verif.Model.Jacobian
import Mathlib.LinearAlgebra.Matrix.Determinant.Basic
import Mathlib.LinearAlgebra.Matrix.Notation
import Mathlib.Data.Matrix.Mul
import Mathlib.Algebra.BigOperators.Fin
import Mathlib.Tactic.Ring
import Mathlib.Tactic.Linarith
import Mathlib.Tactic.FieldSimp
import Mathlib.Tactic.NormNum
import Mathlib.Tactic.FinCases
import Mathlib.Tactic.LinearCombination

namespace NuTo

namespace Jacobian

/-- The upper left block of a function of row and column as a matrix. -/
def toMat (r c : Nat) (f : Nat → Nat → ℝ) : Matrix (Fin r) (Fin c) ℝ := fun i j => f i j

/-- The possible outcomes of the constructor. -/
theorem make_cases {nv : List ℝ} {cols : Nat} {dN : List (List ℝ)} {J : Jacobian}
    (h : make nv cols dN = .ok J) :
    dN.length ≠ 0 ∧ J.cols = cols ∧ J.rows = nv.length / dN.length ∧
    J.jac = calculate J.rows nv dN ∧
    ((J.rows = 1 ∧ J.cols = 1 ∧ J.inv = inv1 J.jac ∧ J.det = det1 J.jac) ∨
     (J.rows = 2 ∧ J.cols = 2 ∧ J.inv = inv2 J.jac ∧ J.det = det2 J.jac) ∨
     (J.rows = 3 ∧ J.cols = 3 ∧ J.inv = inv3 J.jac ∧ J.det = det3 J.jac) ∨
     (J.rows = 2 ∧ J.cols = 1 ∧ J.inv = inv2 (extended 1 J.jac (normal2 J.jac)) ∧
       J.det = -det2 (extended 1 J.jac (normal2 J.jac)) ∧ J.normal = normal2 J.jac) ∨
     (J.rows = 3 ∧ J.cols = 2 ∧ J.inv = inv3 (extended 2 J.jac (normal3 J.jac)) ∧
       J.det = det3 (extended 2 J.jac (normal3 J.jac)) ∧ J.normal = normal3 J.jac)) := by
  rw [make] at h
  split at h
  · cases h
  next hn =>
  dsimp only at h
  split at h
  · next hc =>
    split at h
    · next hg =>
      cases h
      exact ⟨hn, by dsimp only; omega, hg.symm, by rw [hg],
        Or.inl ⟨rfl, rfl, by rw [hg], by rw [hg]⟩⟩
    · next hg =>
      cases h
      exact ⟨hn, by dsimp only; omega, hg.symm, by rw [hg],
        Or.inr (Or.inl ⟨rfl, rfl, by rw [hg], by rw [hg]⟩)⟩
    · next hg =>
      cases h
      exact ⟨hn, by dsimp only; omega, hg.symm, by rw [hg],
        Or.inr (Or.inr (Or.inl ⟨rfl, rfl, by rw [hg], by rw [hg]⟩))⟩
    · cases h
  · next hc =>
    split at h
    · next hc1 =>
      split at h
      · next hg =>
        cases h
        exact ⟨hn, by dsimp only; omega, hg.symm, by rw [hg],
          Or.inr (Or.inr (Or.inr (Or.inl ⟨rfl, rfl, by rw [hg], by rw [hg], by rw [hg]⟩)))⟩
      · next hg =>
        cases h
        exact ⟨hn, by dsimp only; omega, hg.symm, by rw [hg],
          Or.inr (Or.inr (Or.inr (Or.inr ⟨rfl, rfl, by rw [hg], by rw [hg], by rw [hg]⟩)))⟩
      · cases h
    · cases h

/-- Entry `(d, j)` is `Σ_i x_i,d dN_i/dξ_j`, the coordinates being stored node by node. -/
theorem C40_entries {nv : List ℝ} {cols : Nat} {dN : List (List ℝ)} {J : Jacobian}
    (h : make nv cols dN = .ok J) (d j : Nat) :
    J.jac d j = ∑ i ∈ Finset.range dN.length,
      nv.getD (J.rows * i + d) 0 * (dN.getD i []).getD j 0 := by
  obtain ⟨_, _, _, hj, _⟩ := make_cases h
  rw [hj, calculate, ← List.sum_toFinset _ List.nodup_range, List.toFinset_range]

/-- Elements as large as the space: determinant and two-sided inverse of the matrix. -/
theorem C40_square {nv : List ℝ} {cols : Nat} {dN : List (List ℝ)} {J : Jacobian}
    (h : make nv cols dN = .ok J) (hs : J.rows = J.cols) :
    J.det = (toMat J.rows J.rows J.jac).det ∧
    (J.det ≠ 0 → toMat J.rows J.rows J.jac * toMat J.rows J.rows J.inv = 1 ∧
      toMat J.rows J.rows J.inv * toMat J.rows J.rows J.jac = 1) := by
  have key : J.det = (toMat J.rows J.rows J.jac).det ∧
      (J.det ≠ 0 → toMat J.rows J.rows J.jac * toMat J.rows J.rows J.inv = 1) := by
    obtain ⟨_, _, _, _, hc⟩ := make_cases h
    obtain ⟨r, c, jac, inv, det, nrm⟩ := J
    dsimp only at hs hc ⊢
    rcases hc with ⟨h1, h2, h3, h4⟩ | ⟨h1, h2, h3, h4⟩ | ⟨h1, h2, h3, h4⟩ | ⟨h1, h2, _⟩ |
      ⟨h1, h2, _⟩
    · subst h1 h3 h4
      constructor
      · simp [toMat, det1]
      · intro hd
        have hd : jac 0 0 ≠ 0 := hd
        ext i j
        fin_cases i; fin_cases j
        simp [Matrix.mul_apply, toMat, inv1, hd]
    · subst h1 h3 h4
      constructor
      · simp [toMat, det2, Matrix.det_fin_two]; ring
      · intro hd
        ext i j
        fin_cases i <;> fin_cases j <;>
          simp [Matrix.mul_apply, Fin.sum_univ_two, toMat, inv2] <;> field_simp <;>
          simp only [det2] <;> ring
    · subst h1 h3 h4
      constructor
      · simp [toMat, det3, brute3, Matrix.det_fin_three]; ring
      · intro hd
        ext i j
        fin_cases i <;> fin_cases j <;>
          simp [Matrix.mul_apply, Fin.sum_univ_three, toMat, inv3, cofactor3] <;> field_simp <;>
          simp only [det3, brute3] <;> ring
    · omega
    · omega
  exact ⟨key.1, fun hd => ⟨key.2 hd, mul_eq_one_comm.1 (key.2 hd)⟩⟩

theorem normalized_sq {n : Nat} {v : Nat → ℝ} {z : ℝ}
    (hz : z = ((List.range n).map fun k => v k * v k).sum) (hpos : 0 < z) (d : Nat) :
    normalized n v d = v d / Real.sqrt z := by
  subst hz
  simp only [normalized, if_pos hpos]

/-- Lines in the plane and surfaces in space: the determinant is the square root of the Gram
determinant; `Inv` is a left inverse of the Jacobian and annihilates the normal; the normal
is a unit vector orthogonal to the element. -/
theorem C40_embedded {nv : List ℝ} {cols : Nat} {dN : List (List ℝ)} {J : Jacobian}
    (h : make nv cols dN = .ok J) (hs : J.rows = J.cols + 1) :
    J.det = Real.sqrt ((toMat J.rows J.cols J.jac).transpose * toMat J.rows J.cols J.jac).det ∧
    (J.det ≠ 0 →
      toMat J.cols J.rows J.inv * toMat J.rows J.cols J.jac = 1 ∧
      (toMat J.cols J.rows J.inv).mulVec (fun d => J.normal d) = 0 ∧
      (toMat J.rows J.cols J.jac).transpose.mulVec (fun d => J.normal d) = 0 ∧
      ∑ d ∈ Finset.range J.rows, J.normal d * J.normal d = 1) := by
  obtain ⟨_, _, _, _, hc⟩ := make_cases h
  obtain ⟨r, c, jac, inv, det, nrm⟩ := J
  dsimp only at hs hc ⊢
  rcases hc with ⟨h1, h2, _⟩ | ⟨h1, h2, _⟩ | ⟨h1, h2, _⟩ | ⟨h1, h2, h3, h4, h5⟩ |
    ⟨h1, h2, h3, h4, h5⟩
  · omega
  · omega
  · omega
  · subst h1 h2 h3 h5
    have hG : ((toMat 2 1 jac).transpose * toMat 2 1 jac).det =
        jac 1 0 * jac 1 0 + jac 0 0 * jac 0 0 := by
      simp [Matrix.mul_apply, Fin.sum_univ_two, toMat]; ring
    have hz : jac 1 0 * jac 1 0 + jac 0 0 * jac 0 0 = ((List.range 2).map fun k =>
        (fun d => match d with | 0 => jac 1 0 | _ => -jac 0 0 : Nat → ℝ) k *
        (fun d => match d with | 0 => jac 1 0 | _ => -jac 0 0 : Nat → ℝ) k).sum := by
      simp [List.range_succ]
    have hnn : 0 ≤ jac 1 0 * jac 1 0 + jac 0 0 * jac 0 0 :=
      add_nonneg (mul_self_nonneg _) (mul_self_nonneg _)
    rw [hG]
    rcases hnn.eq_or_lt with h0 | hpos
    · have j1 : jac 1 0 = 0 := by nlinarith [mul_self_nonneg (jac 1 0), mul_self_nonneg (jac 0 0)]
      have j0 : jac 0 0 = 0 := by nlinarith [mul_self_nonneg (jac 1 0), mul_self_nonneg (jac 0 0)]
      have hd : det = 0 := by
        rw [h4]
        simp [det2, extended, j0, j1]
      rw [← h0, hd]
      exact ⟨by simp, fun hc => absurd rfl hc⟩
    · have n0 : normal2 jac 0 = jac 1 0 / Real.sqrt (jac 1 0 * jac 1 0 + jac 0 0 * jac 0 0) :=
        normalized_sq hz hpos 0
      have n1 : normal2 jac 1 = -jac 0 0 / Real.sqrt (jac 1 0 * jac 1 0 + jac 0 0 * jac 0 0) :=
        normalized_sq hz hpos 1
      have hs : 0 < Real.sqrt (jac 1 0 * jac 1 0 + jac 0 0 * jac 0 0) := Real.sqrt_pos.2 hpos
      have hss := Real.mul_self_sqrt hnn
      generalize Real.sqrt (jac 1 0 * jac 1 0 + jac 0 0 * jac 0 0) = s at n0 n1 hs hss ⊢
      have hs0 : s ≠ 0 := hs.ne'
      have hD : det2 (extended 1 jac (normal2 jac)) = -s := by
        simp only [det2, extended, n0, n1]
        simp
        field_simp
        linarith
      refine ⟨by rw [h4, hD, neg_neg], fun _ => ⟨?_, ?_, ?_, ?_⟩⟩
      · ext i j
        fin_cases i; fin_cases j
        simp [Matrix.mul_apply, Fin.sum_univ_two, toMat, inv2, hD, extended, n0, n1]
        field_simp
        linarith
      · ext i
        fin_cases i
        simp [Matrix.mulVec, dotProduct, Fin.sum_univ_two, toMat, inv2, hD, extended, n0, n1]
        field_simp
        ring
      · ext i
        fin_cases i
        simp [Matrix.mulVec, dotProduct, Fin.sum_univ_two, toMat, n0, n1]
        field_simp
        ring
      · simp [Finset.sum_range_succ, n0, n1]
        field_simp
        linarith
  · subst h1 h2 h3 h5
    set c0 := jac 1 0 * jac 2 1 - jac 2 0 * jac 1 1 with hc0
    set c1 := jac 2 0 * jac 0 1 - jac 0 0 * jac 2 1 with hc1
    set c2 := jac 0 0 * jac 1 1 - jac 1 0 * jac 0 1 with hc2
    have hG : ((toMat 3 2 jac).transpose * toMat 3 2 jac).det =
        c0 * c0 + c1 * c1 + c2 * c2 := by
      simp [Matrix.mul_apply, Fin.sum_univ_three, toMat, Matrix.det_fin_two]; ring
    have hz : c0 * c0 + c1 * c1 + c2 * c2 = ((List.range 3).map fun k =>
        cross (fun d => jac d 0) (fun d => jac d 1) k *
        cross (fun d => jac d 0) (fun d => jac d 1) k).sum := by
      simp [List.range_succ, cross]; ring
    have hnn : 0 ≤ c0 * c0 + c1 * c1 + c2 * c2 :=
      add_nonneg (add_nonneg (mul_self_nonneg _) (mul_self_nonneg _)) (mul_self_nonneg _)
    rw [hG]
    rcases hnn.eq_or_lt with h0 | hpos
    · have z0 : c0 = 0 := by
        nlinarith [mul_self_nonneg c0, mul_self_nonneg c1, mul_self_nonneg c2]
      have z1 : c1 = 0 := by
        nlinarith [mul_self_nonneg c0, mul_self_nonneg c1, mul_self_nonneg c2]
      have z2 : c2 = 0 := by
        nlinarith [mul_self_nonneg c0, mul_self_nonneg c1, mul_self_nonneg c2]
      have hd : det = 0 := by
        rw [h4]
        simp only [det3, brute3, extended]
        simp
        linear_combination normal3 jac 0 * z0 + normal3 jac 1 * z1 + normal3 jac 2 * z2 -
          normal3 jac 0 * hc0 - normal3 jac 1 * hc1 - normal3 jac 2 * hc2
      rw [← h0, hd]
      exact ⟨by simp, fun hc => absurd rfl hc⟩
    · have n0 : normal3 jac 0 = c0 / Real.sqrt (c0 * c0 + c1 * c1 + c2 * c2) :=
        normalized_sq hz hpos 0
      have n1 : normal3 jac 1 = c1 / Real.sqrt (c0 * c0 + c1 * c1 + c2 * c2) :=
        normalized_sq hz hpos 1
      have n2 : normal3 jac 2 = c2 / Real.sqrt (c0 * c0 + c1 * c1 + c2 * c2) :=
        normalized_sq hz hpos 2
      have hs : 0 < Real.sqrt (c0 * c0 + c1 * c1 + c2 * c2) := Real.sqrt_pos.2 hpos
      have hss := Real.mul_self_sqrt hnn
      generalize Real.sqrt (c0 * c0 + c1 * c1 + c2 * c2) = s at n0 n1 n2 hs hss ⊢
      have hs0 : s ≠ 0 := hs.ne'
      have hD : det3 (extended 2 jac (normal3 jac)) = s := by
        simp only [det3, brute3, extended, n0, n1, n2]
        simp
        field_simp
        linear_combination c0 * (-hc0) - c1 * hc1 - c2 * hc2 - hss
      have hsc : s * s = c0 * c0 + c1 * c1 + c2 * c2 := hss
      refine ⟨by rw [h4, hD], fun _ => ⟨?_, ?_, ?_, ?_⟩⟩
      · ext i j
        fin_cases i <;> fin_cases j <;>
          simp [Matrix.mul_apply, Fin.sum_univ_three, toMat, inv3, cofactor3, hD, extended,
            n0, n1, n2] <;> field_simp <;> rw [hc0, hc1, hc2] at * <;>
          first | linear_combination hsc | linear_combination -hsc | ring
      · ext i
        fin_cases i <;>
          simp [Matrix.mulVec, dotProduct, Fin.sum_univ_three, toMat, inv3, cofactor3, hD,
            extended, n0, n1, n2] <;> field_simp <;> ring
      · ext i
        fin_cases i <;>
          simp [Matrix.mulVec, dotProduct, Fin.sum_univ_three, toMat, n0, n1, n2] <;>
          field_simp <;> rw [hc0, hc1, hc2] <;> ring
      · simp [Finset.sum_range_succ, n0, n1, n2]
        field_simp
        linarith

/-- Chain rule: the derivatives in space times the Jacobian are the derivatives in natural
coordinates. -/
theorem C40_chain_rule {nv : List ℝ} {cols : Nat} {dN : List (List ℝ)} {J : Jacobian}
    (h : make nv cols dN = .ok J) (hd : J.det ≠ 0) (i k : Nat) (hk : k < cols) :
    ∑ d ∈ Finset.range J.rows, J.transform dN i d * J.jac d k = (dN.getD i []).getD k 0 := by
  have hcol : J.cols = cols := (make_cases h).2.1
  have hinv : toMat J.cols J.rows J.inv * toMat J.rows J.cols J.jac = 1 := by
    by_cases hs : J.rows = J.cols
    · have := (C40_square h hs).2 hd
      obtain ⟨r, c, jac, inv, det, nrm⟩ := J
      dsimp only at hs this ⊢
      subst hs
      exact this.2
    · have hs' : J.rows = J.cols + 1 := by
        obtain ⟨_, _, _, _, hc⟩ := make_cases h
        omega
      exact ((C40_embedded h hs').2 hd).1
  have hentry : ∀ j, j < cols → ∑ d ∈ Finset.range J.rows, J.inv j d * J.jac d k =
      if j = k then 1 else 0 := by
    intro j hj
    have := congrFun (congrFun hinv ⟨j, by omega⟩) ⟨k, by omega⟩
    rw [Matrix.mul_apply, Matrix.one_apply] at this
    simp only [toMat, Fin.mk.injEq] at this
    rw [← this, Finset.sum_range]
  have htr : ∀ d, J.transform dN i d =
      ∑ j ∈ Finset.range cols, (dN.getD i []).getD j 0 * J.inv j d := by
    intro d
    rw [transform, ← List.sum_toFinset _ List.nodup_range, List.toFinset_range, hcol]
  simp only [htr, Finset.sum_mul]
  rw [Finset.sum_comm]
  have : ∀ j ∈ Finset.range cols, ∑ d ∈ Finset.range J.rows,
      (dN.getD i []).getD j 0 * J.inv j d * J.jac d k =
      (dN.getD i []).getD j 0 * if j = k then 1 else 0 := by
    intro j hj
    rw [← hentry j (Finset.mem_range.1 hj), Finset.mul_sum]
    exact Finset.sum_congr rfl fun d _ => by ring
  rw [Finset.sum_congr rfl this]
  simp [Finset.mem_range, hk]

/-- When the constructor succeeds: elements of dimension one to three, in a space of the same
dimension or (lines and surfaces) of one dimension more; everything else raises, except equal
dimensions outside one to three. -/
theorem C40_outcomes (nv : List ℝ) (cols dim : Nat) (dN : List (List ℝ)) (hn : 0 < dN.length)
    (hl : nv.length = dN.length * dim) :
    ((∃ J, make nv cols dN = .ok J) ↔
      (cols = dim ∧ 1 ≤ dim ∧ dim ≤ 3) ∨ (dim = cols + 1 ∧ 2 ≤ dim ∧ dim ≤ 3)) ∧
    (make nv cols dN = .throw ↔ cols ≠ dim ∧ ¬ (dim = cols + 1 ∧ 2 ≤ dim ∧ dim ≤ 3)) := by
  have hg : nv.length / dN.length = dim := by rw [hl, Nat.mul_div_cancel_left _ hn]
  rw [make, if_neg (by omega)]
  dsimp only
  rw [hg]
  by_cases hc : cols = dim
  · rw [if_pos hc]
    match dim, hc with
    | 0, hc => simp; omega
    | 1, hc => simp [hc]
    | 2, hc => simp [hc]
    | 3, hc => simp [hc]
    | n + 4, hc => simp; omega
  · rw [if_neg hc]
    by_cases hc1 : dim = cols + 1
    · rw [if_pos hc1]
      match dim, hc1 with
      | 1, hc => simp; omega
      | 2, hc => simp; omega
      | 3, hc => simp; omega
      | n + 4, hc => simp; omega
    · rw [if_neg hc1]
      simp [hc, hc1]

/-- The hypotheses are met: a line from (0,0) to (6,8) has the length ratio 5 and the normal
(4/5, -3/5). -/
example : ∃ J, make [0, 0, 6, 8] 1 [[-1 / 2], [1 / 2]] = .ok J ∧ J.rows = J.cols + 1 ∧
    J.det = 5 ∧ J.normal 0 = 4 / 5 ∧ J.normal 1 = -3 / 5 := by
  have h := (C40_outcomes [0, 0, 6, 8] 1 2 [[-1 / 2], [1 / 2]] (by simp) (by simp)).1.2
    (Or.inr ⟨rfl, by omega, by omega⟩)
  obtain ⟨J, hJ⟩ := h
  obtain ⟨_, h1, h2, h3, hc⟩ := make_cases hJ
  have hr : J.rows = 2 := by rw [h2]; rfl
  have hs : J.rows = J.cols + 1 := by omega
  have j0 : J.jac 0 0 = 3 := by
    rw [C40_entries hJ, hr]; simp [Finset.sum_range_succ]; norm_num
  have j1 : J.jac 1 0 = 4 := by
    rw [C40_entries hJ, hr]; simp [Finset.sum_range_succ]; norm_num
  have hz : (25 : ℝ) = ((List.range 2).map fun k =>
        (fun d => match d with | 0 => J.jac 1 0 | _ => -J.jac 0 0 : Nat → ℝ) k *
        (fun d => match d with | 0 => J.jac 1 0 | _ => -J.jac 0 0 : Nat → ℝ) k).sum := by
    simp [List.range_succ, j0, j1]; norm_num
  have s25 : Real.sqrt 25 = 5 := by
    rw [show (25 : ℝ) = 5 * 5 by norm_num]; exact Real.sqrt_mul_self (by norm_num)
  have hn : J.normal = normal2 J.jac := by
    rcases hc with h | h | h | h | h
    · omega
    · omega
    · omega
    · exact h.2.2.2.2
    · omega
  refine ⟨J, hJ, hs, ?_, ?_, ?_⟩
  · have hdet := (C40_embedded hJ hs).1
    rw [hdet]
    have hcol : J.cols = 1 := by omega
    obtain ⟨r, c, jac, inv, det, nrm⟩ := J
    dsimp only at hr hcol j0 j1 ⊢
    subst hr hcol
    rw [← s25]
    congr 1
    simp [Matrix.mul_apply, Fin.sum_univ_two, toMat, j0, j1]
    norm_num
  · rw [hn]
    exact (normalized_sq hz (by norm_num) 0).trans (by simp [s25, j1])
  · rw [hn]
    exact (normalized_sq hz (by norm_num) 1).trans (by simp [s25, j0])

end Jacobian

end NuTo
