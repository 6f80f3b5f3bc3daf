/-
C39: the differential operators and the matrix of shape functions.
-/
import Verif.Model.Cell
import Verif.Props.Jacobian
import Verif.Props.LocalDamage
import Verif.Lemmas.MatrixAssembler
import Mathlib.Data.List.GetD
import Mathlib.Algebra.BigOperators.Intervals

set_option linter.unusedSectionVars false

namespace NuTo

open Finset

section Field

variable {K : Type} [Field K]

/-- Component `(a, b)` of the displacement gradient: `Σ_i u_i,a dN_i/dx_b`, the displacements being
stored node by node. -/
def displacementGradient (dim : Nat) (dNdX : DMat K) (u : List K) (a b : Nat) : K :=
  ∑ i ∈ range dNdX.rows, u.getD (dim * i + a) 0 * dNdX.coef i b

theorem sum_range_list (n : Nat) (f : Nat → K) : ((List.range n).map f).sum = ∑ i ∈ range n, f i := by
  rw [← List.sum_toFinset _ List.nodup_range, List.toFinset_range]

theorem sum_range_mul2 (m : Nat) (f : Nat → K) :
    ∑ j ∈ range (m * 2), f j = ∑ i ∈ range m, (f (i * 2) + f (i * 2 + 1)) := by
  induction m with
  | zero => simp
  | succ m ih => rw [Nat.succ_mul, sum_range_succ, sum_range_succ, sum_range_succ, ih]; ring

theorem sum_range_mul3 (m : Nat) (f : Nat → K) :
    ∑ j ∈ range (m * 3), f j = ∑ i ∈ range m, (f (i * 3) + f (i * 3 + 1) + f (i * 3 + 2)) := by
  induction m with
  | zero => simp
  | succ m ih =>
    rw [Nat.succ_mul, sum_range_succ, sum_range_succ, sum_range_succ, sum_range_succ, ih]; ring

theorem DMat.set_coef (m : DMat K) (i j a b : Nat) (x : K) :
    (m.set i j x).coef a b = if a = i ∧ b = j then x else m.coef a b := rfl

theorem strain2_coef (dNdX : DMat K) (m r i c : Nat) (hc : c < 2) :
    ((List.range m).foldl (Nabla.strainStep2 dNdX) (DMat.zero 3 (dNdX.rows * 2))).coef r (i * 2 + c) =
      if i < m then
        (if r = 0 ∧ c = 0 then dNdX.coef i 0 else if r = 1 ∧ c = 1 then dNdX.coef i 1
         else if r = 2 ∧ c = 0 then dNdX.coef i 1 else if r = 2 ∧ c = 1 then dNdX.coef i 0 else 0)
      else 0 := by
  induction m with
  | zero => simp [DMat.zero]
  | succ m ih =>
    rw [List.range_succ, List.foldl_append]
    simp only [List.foldl_cons, List.foldl_nil, Nabla.strainStep2, DMat.set_coef, ih]
    by_cases h : i = m
    · subst h
      rcases c with _ | _ | c
      · rcases r with _ | _ | _ | r <;> simp
      · rcases r with _ | _ | _ | r <;> simp
      · omega
    · have e1 : ∀ k < 2, i * 2 + c ≠ m * 2 + k := by intro k hk; omega
      have e10 := e1 0 (by omega)
      have e11 := e1 1 (by omega)
      rw [add_zero] at e10
      simp only [e10, e11, and_false, if_false]
      by_cases hi : i < m
      · rw [if_pos hi, if_pos (show i < m + 1 by omega)]
      · rw [if_neg hi, if_neg (show ¬ i < m + 1 by omega)]

theorem strain3_coef (dNdX : DMat K) (m r i c : Nat) (hc : c < 3) :
    ((List.range m).foldl (Nabla.strainStep3 dNdX) (DMat.zero 6 (dNdX.rows * 3))).coef r (i * 3 + c) =
      if i < m then
        (if r = 0 ∧ c = 0 then dNdX.coef i 0 else if r = 1 ∧ c = 1 then dNdX.coef i 1
         else if r = 2 ∧ c = 2 then dNdX.coef i 2
         else if r = 3 ∧ c = 1 then dNdX.coef i 2 else if r = 3 ∧ c = 2 then dNdX.coef i 1
         else if r = 4 ∧ c = 0 then dNdX.coef i 2 else if r = 4 ∧ c = 2 then dNdX.coef i 0
         else if r = 5 ∧ c = 0 then dNdX.coef i 1 else if r = 5 ∧ c = 1 then dNdX.coef i 0 else 0)
      else 0 := by
  induction m with
  | zero => simp [DMat.zero]
  | succ m ih =>
    rw [List.range_succ, List.foldl_append]
    simp only [List.foldl_cons, List.foldl_nil, Nabla.strainStep3, DMat.set_coef, ih]
    by_cases h : i = m
    · subst h
      rcases c with _ | _ | _ | c
      · rcases r with _ | _ | _ | _ | _ | _ | r <;> simp
      · rcases r with _ | _ | _ | _ | _ | _ | r <;> simp
      · rcases r with _ | _ | _ | _ | _ | _ | r <;> simp
      · omega
    · have e1 : ∀ k < 3, i * 3 + c ≠ m * 3 + k := by intro k hk; omega
      have e10 := e1 0 (by omega)
      have e11 := e1 1 (by omega)
      have e12 := e1 2 (by omega)
      rw [add_zero] at e10
      simp only [e10, e11, e12, and_false, if_false]
      by_cases hi : i < m
      · rw [if_pos hi, if_pos (show i < m + 1 by omega)]
      · rw [if_neg hi, if_neg (show ¬ i < m + 1 by omega)]

theorem strainStep2_dims (dNdX B : DMat K) (i : Nat) :
    (Nabla.strainStep2 dNdX B i).rows = B.rows ∧ (Nabla.strainStep2 dNdX B i).cols = B.cols := by
  simp only [Nabla.strainStep2, DMat.set, and_self]

theorem strain2_dims (dNdX : DMat K) (m : Nat) :
    ((List.range m).foldl (Nabla.strainStep2 dNdX) (DMat.zero 3 (dNdX.rows * 2))).rows = 3 ∧
    ((List.range m).foldl (Nabla.strainStep2 dNdX) (DMat.zero 3 (dNdX.rows * 2))).cols = dNdX.rows * 2 := by
  induction m with
  | zero => exact ⟨rfl, rfl⟩
  | succ m ih =>
    rw [List.range_succ, List.foldl_append, List.foldl_cons, List.foldl_nil,
      (strainStep2_dims _ _ _).1, (strainStep2_dims _ _ _).2]
    exact ih

theorem strainStep3_dims (dNdX B : DMat K) (i : Nat) :
    (Nabla.strainStep3 dNdX B i).rows = B.rows ∧ (Nabla.strainStep3 dNdX B i).cols = B.cols := by
  simp only [Nabla.strainStep3, DMat.set, and_self]

theorem strain3_dims (dNdX : DMat K) (m : Nat) :
    ((List.range m).foldl (Nabla.strainStep3 dNdX) (DMat.zero 6 (dNdX.rows * 3))).rows = 6 ∧
    ((List.range m).foldl (Nabla.strainStep3 dNdX) (DMat.zero 6 (dNdX.rows * 3))).cols = dNdX.rows * 3 := by
  induction m with
  | zero => exact ⟨rfl, rfl⟩
  | succ m ih =>
    rw [List.range_succ, List.foldl_append, List.foldl_cons, List.foldl_nil,
      (strainStep3_dims _ _ _).1, (strainStep3_dims _ _ _).2]
    exact ih

/-- C39: in one dimension the strain is the displacement derivative. -/
theorem C39_strain1 (dNdX : DMat K) (u : List K) (hd : dNdX.cols = 1) (hu : u.length = dNdX.rows) :
    ∃ B, Nabla.strain dNdX = .ok B ∧ B.mulVec u = .ok [displacementGradient 1 dNdX u 0 0] := by
  refine ⟨dNdX.transpose, by rw [Nabla.strain, hd]; rfl, ?_⟩
  rw [DMat.mulVec, Res.require, if_pos (by exact hu.symm)]
  simp only [DMat.transpose, hd, List.range_one, List.map_cons, List.map_nil, sum_range_list,
    displacementGradient, one_mul, add_zero]
  simp only [mul_comm]

/-- C39: in two dimensions the strain operator gives `(ε_xx, ε_yy, γ_xy)` of the interpolated
displacement. -/
theorem C39_strain2 (dNdX : DMat K) (u : List K) (hd : dNdX.cols = 2) (hu : u.length = 2 * dNdX.rows) :
    ∃ B, Nabla.strain dNdX = .ok B ∧ B.mulVec u = .ok
      [displacementGradient 2 dNdX u 0 0, displacementGradient 2 dNdX u 1 1,
       displacementGradient 2 dNdX u 0 1 + displacementGradient 2 dNdX u 1 0] := by
  refine ⟨_, by rw [Nabla.strain, hd]; rfl, ?_⟩
  obtain ⟨h1, h2⟩ := strain2_dims dNdX dNdX.rows
  have h0 := fun r i => strain2_coef dNdX dNdX.rows r i 0 (by omega)
  have h1' := fun r i => strain2_coef dNdX dNdX.rows r i 1 (by omega)
  simp only [add_zero] at h0
  rw [DMat.mulVec, Res.require, if_pos (by rw [h2, hu, mul_comm]), h1, h2]
  simp only [List.range_succ, List.range_zero, List.nil_append, List.cons_append, List.map_cons,
    List.map_nil, sum_range_list, sum_range_mul2, h0, h1', displacementGradient, ← sum_add_distrib]
  congr 2
  · refine sum_congr rfl fun i hi => ?_
    rw [if_pos (mem_range.1 hi), if_pos (mem_range.1 hi)]; simp; ring_nf
  congr 1
  · refine sum_congr rfl fun i hi => ?_
    rw [if_pos (mem_range.1 hi), if_pos (mem_range.1 hi)]; simp; ring_nf
  congr 1
  refine sum_congr rfl fun i hi => ?_
  rw [if_pos (mem_range.1 hi), if_pos (mem_range.1 hi)]; simp; ring_nf

/-- C39: in three dimensions the strain operator gives `(ε_xx, ε_yy, ε_zz, γ_yz, γ_xz, γ_xy)` of the
interpolated displacement. -/
theorem C39_strain3 (dNdX : DMat K) (u : List K) (hd : dNdX.cols = 3) (hu : u.length = 3 * dNdX.rows) :
    ∃ B, Nabla.strain dNdX = .ok B ∧ B.mulVec u = .ok
      [displacementGradient 3 dNdX u 0 0, displacementGradient 3 dNdX u 1 1,
       displacementGradient 3 dNdX u 2 2,
       displacementGradient 3 dNdX u 1 2 + displacementGradient 3 dNdX u 2 1,
       displacementGradient 3 dNdX u 0 2 + displacementGradient 3 dNdX u 2 0,
       displacementGradient 3 dNdX u 0 1 + displacementGradient 3 dNdX u 1 0] := by
  refine ⟨_, by rw [Nabla.strain, hd]; rfl, ?_⟩
  obtain ⟨h1, h2⟩ := strain3_dims dNdX dNdX.rows
  have h0 := fun r i => strain3_coef dNdX dNdX.rows r i 0 (by omega)
  have h1' := fun r i => strain3_coef dNdX dNdX.rows r i 1 (by omega)
  have h2' := fun r i => strain3_coef dNdX dNdX.rows r i 2 (by omega)
  simp only [add_zero] at h0
  rw [DMat.mulVec, Res.require, if_pos (by rw [h2, hu, mul_comm]), h1, h2]
  simp only [List.range_succ, List.range_zero, List.nil_append, List.cons_append, List.map_cons,
    List.map_nil, sum_range_list, sum_range_mul3, h0, h1', h2', displacementGradient,
    ← sum_add_distrib]
  congr 2
  · refine sum_congr rfl fun i hi => ?_
    rw [if_pos (mem_range.1 hi), if_pos (mem_range.1 hi), if_pos (mem_range.1 hi)]; simp; ring_nf
  congr 1
  · refine sum_congr rfl fun i hi => ?_
    rw [if_pos (mem_range.1 hi), if_pos (mem_range.1 hi), if_pos (mem_range.1 hi)]; simp; ring_nf
  congr 1
  · refine sum_congr rfl fun i hi => ?_
    rw [if_pos (mem_range.1 hi), if_pos (mem_range.1 hi), if_pos (mem_range.1 hi)]; simp; ring_nf
  congr 1
  · refine sum_congr rfl fun i hi => ?_
    rw [if_pos (mem_range.1 hi), if_pos (mem_range.1 hi), if_pos (mem_range.1 hi)]; simp; ring_nf
  congr 1
  · refine sum_congr rfl fun i hi => ?_
    rw [if_pos (mem_range.1 hi), if_pos (mem_range.1 hi), if_pos (mem_range.1 hi)]; simp; ring_nf
  congr 1
  refine sum_congr rfl fun i hi => ?_
  rw [if_pos (mem_range.1 hi), if_pos (mem_range.1 hi), if_pos (mem_range.1 hi)]; simp; ring_nf

/-- C39: other dimensions are rejected. -/
theorem C39_dimension (dNdX : DMat K) (h1 : dNdX.cols ≠ 1) (h2 : dNdX.cols ≠ 2) (h3 : dNdX.cols ≠ 3) :
    Nabla.strain dNdX = .throw := by
  rw [Nabla.strain]
  split <;> first | rfl | omega

/-- C39: the gradient operator of a scalar dof gives its gradient. -/
theorem C39_gradient (dNdX : DMat K) (u : List K) (hu : u.length = dNdX.rows) :
    (Nabla.gradient dNdX).mulVec u =
      .ok ((List.range dNdX.cols).map fun b => displacementGradient 1 dNdX u 0 b) := by
  rw [DMat.mulVec, Res.require, if_pos (by exact hu.symm)]
  simp only [Nabla.gradient, DMat.transpose, sum_range_list, displacementGradient, one_mul, add_zero]
  simp only [mul_comm]

/-- Entries of the matrix of shape functions after `m` of the steps. -/
theorem nMatrix_fold (junk : Nat → Nat → K) (shape : List K) (dim c : Nat) :
    ∀ m, m ≤ shape.length → ∃ N, Res.foldlM (nMatrixStep shape dim) ⟨dim, c, junk⟩ (List.range m) = .ok N ∧
      N.rows = dim ∧ N.cols = c ∧ ∀ i < m, ∀ a < dim, ∀ b < dim,
        N.coef a (dim * i + b) = if a = b then shape.getD i 0 else 0 := by
  intro m
  induction m with
  | zero => exact fun _ => ⟨_, rfl, rfl, rfl, by omega⟩
  | succ m ih =>
    intro hm
    obtain ⟨N, h1, h2, h3, h4⟩ := ih (by omega)
    have hs : shape[m]? = some (shape.getD m 0) := by
      rw [List.getD_eq_getElem?_getD, List.getElem?_eq_getElem (by omega)]; rfl
    refine ⟨⟨N.rows, N.cols, fun a b =>
      if a < dim ∧ m * dim ≤ b ∧ b < m * dim + dim then
        (if b = m * dim + a then 1 * shape.getD m 0 else 0 * shape.getD m 0)
      else N.coef a b⟩, by
      rw [List.range_succ, Res.foldlM_append, h1, Res.bind_ok', Res.foldlM_cons, nMatrixStep, hs]
      rfl, h2, h3, ?_⟩
    intro i hi a ha b hb
    dsimp only
    by_cases him : i = m
    · subst him
      rw [mul_comm dim i, if_pos ⟨ha, by omega, by omega⟩]
      by_cases hab : a = b
      · rw [if_pos (by omega), if_pos hab, one_mul]
      · rw [if_neg (by omega), if_neg hab, zero_mul]
    · rw [if_neg, h4 i (by omega) a ha b hb]
      have : dim * i + b < m * dim := by
        have : dim * (i + 1) ≤ dim * m := Nat.mul_le_mul_left _ (by omega)
        rw [Nat.mul_succ, mul_comm dim m] at this
        omega
      omega

theorem sum_range_mul (dim m : Nat) (f : Nat → K) :
    ∑ j ∈ range (dim * m), f j = ∑ i ∈ range m, ∑ b ∈ range dim, f (dim * i + b) := by
  induction m with
  | zero => simp
  | succ m ih => rw [Nat.mul_succ, sum_range_add, ih, sum_range_succ]

/-- C39: the matrix of shape functions interpolates: `N u` has the components `Σ_i N_i u_i,a`,
whatever the memory contained before. -/
theorem C39_N (junk : Nat → Nat → K) (shape u : List K) (numNodes dim : Nat) (hs : numNodes ≤ shape.length)
    (hu : u.length = dim * numNodes) :
    ∃ N, nMatrix junk shape numNodes dim = .ok N ∧ N.mulVec u =
      .ok ((List.range dim).map fun a => ∑ i ∈ range numNodes, shape.getD i 0 * u.getD (dim * i + a) 0) := by
  obtain ⟨N, h1, h2, h3, h4⟩ := nMatrix_fold junk shape dim (dim * numNodes) numNodes hs
  refine ⟨N, h1, ?_⟩
  rw [DMat.mulVec, Res.require, if_pos (by rw [h3, hu]), h2, h3]
  congr 1
  refine List.map_congr_left fun a ha => ?_
  rw [sum_range_list, sum_range_mul]
  refine sum_congr rfl fun i hi => ?_
  rw [sum_eq_single_of_mem a (by simpa using ha)]
  · rw [h4 i (mem_range.1 hi) a (List.mem_range.1 ha) a (List.mem_range.1 ha), if_pos rfl]
  · intro b hb hne
    rw [h4 i (mem_range.1 hi) a (List.mem_range.1 ha) b (mem_range.1 hb), if_neg (Ne.symm hne), zero_mul]

end Field

/-- C39: if row `i` of `dNdX` is the gradient of shape function `i`, the displacement gradient is the
derivative of the interpolated displacement. -/
theorem C39_field (dim : Nat) (dNdX : DMat ℝ) (u : List ℝ) (N : Nat → (Fin dim → ℝ) → ℝ) (x : Fin dim → ℝ)
    (hN : ∀ i < dNdX.rows, HasFDerivAt (N i) (grad fun b => dNdX.coef i b) x) (a : Nat) :
    HasFDerivAt (fun y => ∑ i ∈ range dNdX.rows, N i y * u.getD (dim * i + a) 0)
      (grad fun b => displacementGradient dim dNdX u a b) x := by
  have h : HasFDerivAt (fun y => ∑ i ∈ range dNdX.rows, N i y * u.getD (dim * i + a) 0)
      (∑ i ∈ range dNdX.rows, (u.getD (dim * i + a) 0) • (grad fun b => dNdX.coef i b)) x := by
    refine HasFDerivAt.fun_sum fun i hi => ?_
    exact (hN i (mem_range.1 hi)).mul_const _
  refine h.congr_fderiv ?_
  ext y
  rw [grad_apply]
  simp only [_root_.sum_apply, _root_.smul_apply, smul_eq_mul, displacementGradient, sum_mul]
  rw [sum_comm]
  refine sum_congr rfl fun i _ => ?_
  rw [grad_apply, mul_sum]
  refine sum_congr rfl fun b _ => ?_
  ring

/-- C39: affine displacements `t + W x` are reproduced exactly: on an element with regular
Jacobian whose shape functions add up to a constant the displacement gradient is `W`. -/
theorem C39_patch {nv : List ℝ} {cols : Nat} {dN : List (List ℝ)} {J : Jacobian}
    (h : Jacobian.make nv cols dN = .ok J) (hs : J.rows = J.cols) (hdet : J.det ≠ 0)
    (hpu : ∀ j, ∑ i ∈ range dN.length, (dN.getD i []).getD j 0 = 0)
    (t : Nat → ℝ) (W : Nat → Nat → ℝ) (u : List ℝ)
    (hu : ∀ i < dN.length, ∀ a < J.rows, u.getD (J.rows * i + a) 0 =
      t a + ∑ c ∈ range J.rows, W a c * nv.getD (J.rows * i + c) 0) (a b : Nat) (ha : a < J.rows)
    (hb : b < J.rows) :
    displacementGradient J.rows ⟨dN.length, J.rows, J.transform dN⟩ u a b = W a b := by
  have hinv := ((Jacobian.C40_square h hs).2 hdet).1
  have hent := Jacobian.C40_entries h
  have htr : ∀ i, J.transform dN i b = ∑ j ∈ range J.rows, (dN.getD i []).getD j 0 * J.inv j b := by
    intro i
    rw [Jacobian.transform, sum_range_list, hs]
  have hdelta : ∀ c < J.rows, ∑ j ∈ range J.rows, J.jac c j * J.inv j b = if c = b then 1 else 0 := by
    intro c hc
    have := congrFun (congrFun hinv ⟨c, hc⟩) ⟨b, hb⟩
    rw [Matrix.mul_apply, Matrix.one_apply] at this
    rw [← Fin.sum_univ_eq_sum_range (fun j => J.jac c j * J.inv j b)]
    rw [show (∑ j : Fin J.rows, J.jac c j * J.inv j b) = _ from this]
    simp [Fin.ext_iff]
  calc displacementGradient J.rows ⟨dN.length, J.rows, J.transform dN⟩ u a b
      = ∑ i ∈ range dN.length, (t a + ∑ c ∈ range J.rows, W a c * nv.getD (J.rows * i + c) 0) *
          ∑ j ∈ range J.rows, (dN.getD i []).getD j 0 * J.inv j b := by
        rw [displacementGradient]
        refine sum_congr rfl fun i hi => ?_
        rw [hu i (mem_range.1 hi) a ha]
        show _ * J.transform dN i b = _
        rw [htr]
    _ = t a * ∑ j ∈ range J.rows, (∑ i ∈ range dN.length, (dN.getD i []).getD j 0) * J.inv j b +
        ∑ c ∈ range J.rows, W a c * ∑ j ∈ range J.rows, J.jac c j * J.inv j b := by
        simp only [add_mul, sum_add_distrib, ← mul_sum, hent]
        congr 1
        · congr 1
          rw [sum_comm]
          exact sum_congr rfl fun j _ => by rw [sum_mul]
        · simp only [sum_mul_sum]
          rw [sum_comm]
          refine sum_congr rfl fun c _ => ?_
          rw [sum_comm, mul_sum]
          refine sum_congr rfl fun j _ => ?_
          rw [sum_mul, mul_sum]
          exact sum_congr rfl fun i _ => by ring
    _ = ∑ c ∈ range J.rows, W a c * if c = b then 1 else 0 := by
        simp only [hpu, zero_mul, sum_const_zero, mul_zero, zero_add]
        exact sum_congr rfl fun c hc => by rw [hdelta c (mem_range.1 hc)]
    _ = W a b := by simp [hb]

/-- C39: rigid body motions give zero strain on every element with regular Jacobian. -/
theorem C39_rigid {nv : List ℝ} {cols : Nat} {dN : List (List ℝ)} {J : Jacobian}
    (h : Jacobian.make nv cols dN = .ok J) (hs : J.rows = J.cols) (hdet : J.det ≠ 0)
    (hpu : ∀ j, ∑ i ∈ range dN.length, (dN.getD i []).getD j 0 = 0)
    (t : Nat → ℝ) (W : Nat → Nat → ℝ) (hW : ∀ a b, W a b = -W b a) (u : List ℝ)
    (hl : u.length = J.rows * dN.length)
    (hu : ∀ i < dN.length, ∀ a < J.rows, u.getD (J.rows * i + a) 0 =
      t a + ∑ c ∈ range J.rows, W a c * nv.getD (J.rows * i + c) 0) :
    ∃ B e, Nabla.strain ⟨dN.length, J.rows, J.transform dN⟩ = .ok B ∧ B.mulVec u = .ok e ∧
      ∀ x ∈ e, x = 0 := by
  have hp := C39_patch h hs hdet hpu t W u hu
  have hd : ∀ a, W a a = 0 := fun a => by linarith [hW a a]
  have hsum : ∀ a b, W a b + W b a = 0 := fun a b => by linarith [hW a b]
  obtain ⟨_, _, _, _, hc⟩ := Jacobian.make_cases h
  have hr : J.rows = 1 ∨ J.rows = 2 ∨ J.rows = 3 := by omega
  rcases hr with hr | hr | hr <;> rw [hr] at hp hl ⊢
  · obtain ⟨B, h1, h2⟩ := C39_strain1 ⟨dN.length, 1, J.transform dN⟩ u rfl (by dsimp only; omega)
    refine ⟨B, _, h1, h2, ?_⟩
    simp [hp, hd]
  · obtain ⟨B, h1, h2⟩ := C39_strain2 ⟨dN.length, 2, J.transform dN⟩ u rfl (by dsimp only; omega)
    refine ⟨B, _, h1, h2, ?_⟩
    simp [hp, hd, hsum]
  · obtain ⟨B, h1, h2⟩ := C39_strain3 ⟨dN.length, 3, J.transform dN⟩ u rfl (by dsimp only; omega)
    refine ⟨B, _, h1, h2, ?_⟩
    simp [hp, hd, hsum]

/-- A triangle with a rotation meets the hypotheses of `C39_rigid`. -/
example : ∃ J, Jacobian.make [0, 0, 2, 0, 0, 3] 2 [[-1, -1], [1, 0], [0, 1]] = .ok J ∧ J.rows = J.cols ∧
    J.det ≠ 0 ∧ ∀ j, ∑ i ∈ range 3, (([[-1, -1], [1, 0], [0, 1]] : List (List ℝ)).getD i []).getD j 0 = 0 := by
  refine ⟨_, rfl, rfl, ?_, ?_⟩
  · simp [Jacobian.det2, Jacobian.calculate, List.range_succ]
  · intro j
    rcases j with _ | _ | j <;> simp [sum_range_succ]

end NuTo
