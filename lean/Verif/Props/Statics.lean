/-
C101: the displacements that `Solve` computes for a linear elastic body minimise the potential energy.
-/
import Verif.Lemmas.Statics
import Verif.Props.StiffnessTangent

namespace NuTo

open Assembly Finset Balance Solve

namespace Statics

/-! ### Specification -/

/-- A linear elastic body with constraints: valid material parameters, integration points with positive volume, all cells
given to some thread, and constraint equations that are solved for distinct dofs. -/
structure Problem (dof dim n : Nat) (E nu : ℝ) (s : DofSizes) (cells : List (Cell × FemElement ℝ))
    (threads : List (List (Cell × FemElement ℝ))) (st : NodeStore ℝ) (c : Constraints ℝ) (num : Term ℝ → Nat) : Prop where
  dim1 : 1 ≤ dim
  dim3 : dim ≤ 3
  stiff : 0 < E
  poisson : -1 < nu ∧ nu < 1 / 2
  body : ∀ x ∈ cells, Body dim n x
  positive : ∀ x ∈ cells, ∀ pts, x.1.Points pts → ∀ p ∈ pts, 0 < p.2.jacobian.det * p.1
  size : s.size dof = .ok n
  schedule : threads.flatten.Perm cells
  valid : Constraints.Valid st (c.equations dof) n num
  unit : ∀ e ∈ c.equations dof, e.dep.coef = 1
  tiny : NoTiny (c.equations dof)

/-- The strain energy: the integral of half of strain times tangent times strain. -/
noncomputable def strainEnergy (dim : Nat) (D : DMat ℝ) (cells : List (Cell × FemElement ℝ))
    (pts : Cell × FemElement ℝ → List (ℝ × IpData)) (R : Nat → ℝ) : ℝ :=
  (cells.map fun x => ((pts x).map fun p => 1 / 2 * bilinear D (strains dim (gradients x.2 p.2) (restrict dim x.2 R))
    (strains dim (gradients x.2 p.2) (restrict dim x.2 R)) * p.2.jacobian.det * p.1).sum).sum

/-- The potential energy: strain energy minus the work of the forces `F`. -/
noncomputable def potential (dim : Nat) (D : DMat ℝ) (cells : List (Cell × FemElement ℝ))
    (pts : Cell × FemElement ℝ → List (ℝ × IpData)) (F : List ℝ) (R : List ℝ) : ℝ :=
  strainEnergy dim D cells pts (fun i => R.getD i 0) - ∑ i ∈ range F.length, F.getD i 0 * R.getD i 0

/-- The vector satisfies the constraint equations with right-hand sides `rhs`. -/
def Satisfies (c : Constraints ℝ) (dof : Nat) (num : Term ℝ → Nat) (rhs : Equation ℝ → ℝ) (u : List ℝ) : Prop :=
  ∀ e ∈ c.equations dof, e.lhs num (fun i => u.getD i 0) = rhs e

/-- The linear solver finds a solution of every system that has one. -/
def Finds (lin : SpMat ℝ → List ℝ → Res (List ℝ)) : Prop :=
  ∀ A b, (∃ x, A.mulVec x = .ok b) → ∃ x, lin A b = .ok x

/-- A symmetric positive definite matrix. -/
structure Spd (A : SpMat ℝ) : Prop where
  wf : A.WF
  square : A.rows = A.cols
  symmetric : ∀ i < A.rows, ∀ j < A.rows, A.entry i j = A.entry j i
  positive : ∀ x : Nat → ℝ, (∃ i < A.rows, x i ≠ 0) → 0 < ∑ i ∈ range A.rows, ∑ j ∈ range A.rows, x i * A.entry i j * x j

/-- The linear solver solves all systems with symmetric positive definite matrices. -/
def SolvesSpd (lin : SpMat ℝ → List ℝ → Res (List ℝ)) : Prop :=
  ∀ A b, Spd A → b.length = A.rows → ∃ x, lin A b = .ok x ∧ A.mulVec x = .ok b

/-- The constraints leave no motion without strains. -/
def Held (dim dof n : Nat) (cells : List (Cell × FemElement ℝ)) (c : Constraints ℝ) (num : Term ℝ → Nat) : Prop :=
  ∀ w : List ℝ, w.length = n → Satisfies c dof num (fun _ => 0) w → Unstrained dim cells (fun i => w.getD i 0) →
    ∀ i < n, w.getD i 0 = 0

/-! ### Proofs -/

/-- the quadratic form of a matrix -/
noncomputable def form (m : SpMat ℝ) (n : Nat) (R : Nat → ℝ) : ℝ := ∑ i ∈ range n, ∑ j ∈ range n, R i * m.entry i j * R j

theorem expand (m : SpMat ℝ) (n : Nat) (hsym : ∀ i < n, ∀ j < n, m.entry i j = m.entry j i) (F u w : Nat → ℝ)
    (horth : ∑ i ∈ range n, (w i - u i) * (∑ j ∈ range n, m.entry i j * u j - F i) = 0) :
    1 / 2 * form m n w - ∑ i ∈ range n, F i * w i =
      1 / 2 * form m n u - ∑ i ∈ range n, F i * u i + 1 / 2 * form m n fun i => w i - u i := by
  have h1 : form m n w = form m n u + (form m n fun i => w i - u i) +
      2 * ∑ i ∈ range n, (w i - u i) * ∑ j ∈ range n, m.entry i j * u j := by
    have h2 : ∑ i ∈ range n, ∑ j ∈ range n, u i * m.entry i j * (w j - u j) =
        ∑ i ∈ range n, ∑ j ∈ range n, (w i - u i) * m.entry i j * u j := by
      rw [sum_comm]
      refine sum_congr rfl fun i hi => sum_congr rfl fun j hj => ?_
      rw [hsym j (mem_range.1 hj) i (mem_range.1 hi)]
      ring
    have h3 : ∑ i ∈ range n, (w i - u i) * ∑ j ∈ range n, m.entry i j * u j =
        ∑ i ∈ range n, ∑ j ∈ range n, (w i - u i) * m.entry i j * u j := by
      refine sum_congr rfl fun i _ => ?_
      rw [mul_sum]
      exact sum_congr rfl fun j _ => by ring
    rw [two_mul]
    nth_rw 1 [h3]
    rw [← h2, h3]
    simp only [form, ← sum_add_distrib]
    exact sum_congr rfl fun i _ => sum_congr rfl fun j _ => by ring
  have h4 : ∑ i ∈ range n, (w i - u i) * (∑ j ∈ range n, m.entry i j * u j) =
      ∑ i ∈ range n, F i * w i - ∑ i ∈ range n, F i * u i := by
    rw [← sub_eq_zero, ← sum_sub_distrib, ← sum_sub_distrib, ← horth]
    exact sum_congr rfl fun i _ => by ring
  rw [h1, h4]
  ring

variable {dof dim n : Nat} {E nu : ℝ} {ps : PlaneState} {s : DofSizes} {cells : List (Cell × FemElement ℝ)}
  {threads : List (List (Cell × FemElement ℝ))} {st : NodeStore ℝ} {c : Constraints ℝ} {num : Term ℝ → Nat}

/-- what the proofs use of the assembled matrix -/
theorem Problem.matrix (P : Problem dof dim n E nu s cells threads st c num) (ps : PlaneState) :
    ∃ h m, assembleMatrix s dof (stiffness dof fun _ _ => .ok (elasticTangent dim E nu ps)) threads = .ok h ∧
      h.find? (toLex (dof, dof)) = some m ∧ m.rows = n ∧ m.cols = n ∧ m.WF ∧
      DofSpMat.Consistent h [dof] (fun _ => n) (fun _ => n) (fun _ _ => m) ∧
      (∀ i < n, ∀ j < n, m.entry i j = m.entry j i) ∧ (∀ R, 0 ≤ form m n R) ∧
      (∀ R, form m n R = 0 ↔ Unstrained dim cells R) ∧
      ∀ pts : Cell × FemElement ℝ → List (ℝ × IpData), (∀ x ∈ cells, x.1.Points (pts x)) → ∀ R,
        strainEnergy dim (elasticTangent dim E nu ps) cells pts R = 1 / 2 * form m n R := by
  obtain ⟨e1, e2, e3, _⟩ := C95_elastic dim P.dim1 P.dim3 E nu ps P.stiff P.poisson.1 P.poisson.2
  obtain ⟨h, m, a1, a2, a3, a4, a5⟩ := C95_exists s dof dim n (fun _ _ => elasticTangent dim E nu ps)
    (fun e _ he => by rw [he]; exact e1) cells threads P.schedule P.size P.body
  have hw := assemble_wf P.size a1 a2
  refine ⟨h, m, a1, a2, a3, a4, hw, consistent_single a2 a3 a4 hw, ?_, ?_, ?_, ?_⟩
  · intro i hi j hj
    exact C95_symmetric a5 (fun e _ he i hi j hj => e2 i (he ▸ hi) j (he ▸ hj)) i j hi hj
  · intro R
    refine C95_nonneg a5 (fun e d v he hv => ?_) (fun x hx pts hp p hm => (P.positive x hx pts hp p hm).le) R
    by_cases hz : ∃ y ∈ v, y ≠ 0
    · exact (e3 e d v he hv hz).le
    · push Not at hz
      rw [bilinear_zero _ _ _ hz]
  · exact fun R => C95_energy_zero a5 e3 P.positive R
  · intro pts hpts R
    rw [form, a5.form pts hpts, strainEnergy, ← List.sum_map_mul_left]
    congr 1
    refine List.map_congr_left fun x _ => ?_
    rw [← List.sum_map_mul_left]
    congr 1
    exact List.map_congr_left fun p _ => by ring

theorem getD_sub (n : Nat) (w u : List ℝ) (hw : w.length = n) (hu : u.length = n) :
    ∃ v : List ℝ, v.length = n ∧ ∀ i, v.getD i 0 = w.getD i 0 - u.getD i 0 := by
  refine ⟨List.zipWith (· - ·) w u, by simp [hw, hu], fun i => ?_⟩
  by_cases hi : i < n
  · simp [List.getD_eq_getElem?_getD, hw, hu, hi]
  · simp [List.getD_eq_getElem?_getD, hw, hu, hi]

theorem satisfies_sub {rhs rhs' : Equation ℝ → ℝ} {v w u : List ℝ} (hw : Satisfies c dof num rhs w)
    (hu : Satisfies c dof num rhs' u) (hv : ∀ i, v.getD i 0 = w.getD i 0 - u.getD i 0) :
    Satisfies c dof num (fun e => rhs e - rhs' e) v := by
  intro e he
  have := Equation.lhs_sub num (fun i => w.getD i 0) (fun i => u.getD i 0) e
  rw [hw e he, hu e he] at this
  show e.lhs num (fun i => v.getD i 0) = rhs e - rhs' e
  rw [← this]
  simp only [hv]

/-- from orthogonality to the minimum -/
theorem Problem.least (P : Problem dof dim n E nu s cells threads st c num) (ps : PlaneState) {m : SpMat ℝ}
    (hsym : ∀ i < n, ∀ j < n, m.entry i j = m.entry j i) (hnn : ∀ R, 0 ≤ form m n R)
    (hzero : ∀ R, form m n R = 0 ↔ Unstrained dim cells R) (pts : Cell × FemElement ℝ → List (ℝ × IpData))
    (hen : ∀ R, strainEnergy dim (elasticTangent dim E nu ps) cells pts R = 1 / 2 * form m n R) {F u : List ℝ}
    (hF : F.length = n) (hu : u.length = n) {rhs : Equation ℝ → ℝ} (hsat : Satisfies c dof num rhs u)
    (horth : ∀ w : List ℝ, w.length = n → Satisfies c dof num (fun _ => 0) w →
      ∑ i ∈ range n, w.getD i 0 * (∑ j ∈ range n, m.entry i j * u.getD j 0 - F.getD i 0) = 0) (w : List ℝ)
    (hw : w.length = n) (hws : Satisfies c dof num rhs w) :
    potential dim (elasticTangent dim E nu ps) cells pts F u ≤ potential dim (elasticTangent dim E nu ps) cells pts F w ∧
    (potential dim (elasticTangent dim E nu ps) cells pts F w = potential dim (elasticTangent dim E nu ps) cells pts F u ↔
      Unstrained dim cells fun i => w.getD i 0 - u.getD i 0) := by
  obtain ⟨v, v1, v2⟩ := getD_sub n w u hw hu
  have h1 := horth v v1 (fun e he => (satisfies_sub hws hsat v2 e he).trans (sub_self _))
  simp only [v2] at h1
  have h2 := expand m n hsym (fun i => F.getD i 0) (fun i => u.getD i 0) (fun i => w.getD i 0) h1
  simp only [potential, hen, hF]
  rw [h2, ← hzero]
  have h3 := hnn fun i => w.getD i 0 - u.getD i 0
  constructor
  · linarith
  · constructor <;> intro h <;> linarith

/-- C101 (minimum): the stiffness matrix is assembled, and whatever `Solve` returns for it and the forces `F` satisfies the
homogeneous constraints and has the least potential energy of all vectors that do; the others with the same energy have the
same strains. -/
theorem C101_minimum (P : Problem dof dim n E nu s cells threads st c num) (ps : PlaneState)
    (pts : Cell × FemElement ℝ → List (ℝ × IpData)) (hpts : ∀ x ∈ cells, x.1.Points (pts x)) :
    ∃ h, assembleMatrix s dof (stiffness dof fun _ _ => .ok (elasticTangent dim E nu ps)) threads = .ok h ∧
      ∀ lin, LinSolver lin → ∀ (toFloat : ℝ → ℝ) (F : List ℝ), F.length = n → ∀ res,
        Solve.solve lin (c.bcs toFloat st) h [(dof, F)] [dof] = .ok res →
        ∃ u, res.find? dof = some u ∧ u.length = n ∧ Satisfies c dof num (fun _ => 0) u ∧
          ∀ w : List ℝ, w.length = n → Satisfies c dof num (fun _ => 0) w →
            potential dim (elasticTangent dim E nu ps) cells pts F u ≤
              potential dim (elasticTangent dim E nu ps) cells pts F w ∧
            (potential dim (elasticTangent dim E nu ps) cells pts F w =
              potential dim (elasticTangent dim E nu ps) cells pts F u ↔
              Unstrained dim cells fun i => w.getD i 0 - u.getD i 0) := by
  obtain ⟨h, m, a1, _, _, _, _, a6, a7, a8, a9, a10⟩ := P.matrix ps
  obtain ⟨C, c1, c2, c3, c4, _⟩ := unit_spec st c dof n num P.valid P.unit P.tiny
  refine ⟨h, a1, fun lin hlin toFloat F hF res hres => ?_⟩
  have hin : SolveInput (c.bcs toFloat st) h [(dof, F)] [dof] (fun _ => n) (fun _ _ => m) (fun _ => F) (fun _ => C) :=
    ⟨by simp, a6, fun d hd => by simp [List.mem_singleton.1 hd, OMap.find?], fun _ _ => hF,
      fun d hd => by rw [List.mem_singleton.1 hd]; exact c1, fun _ _ => c2, fun _ _ => c3⟩
  obtain ⟨u, q, h1, _, h3⟩ := C17_solve_partial hin lin hlin rfl res hres
  obtain ⟨k1, k2, k3⟩ := h1 dof (by simp)
  have hsat : Satisfies c dof num (fun _ => 0) (u dof) := (c4 _ k2).2 ⟨_, k3⟩
  refine ⟨u dof, k1, k2, hsat, fun w hw hws => P.least ps a7 a8 a9 pts (a10 pts hpts) hF k2 hsat ?_ w hw hws⟩
  intro w hw hws
  obtain ⟨z, hz⟩ := (c4 w hw).1 hws
  have := h3 (fun _ => z) (fun _ => w) (fun d hd => hz)
  simpa only [List.map_cons, List.map_nil, List.sum_cons, List.sum_nil, add_zero, blockMul] using this

theorem ofFun (n : Nat) (f : Nat → ℝ) : ∃ l : List ℝ, l.length = n ∧ ∀ i < n, l.getD i 0 = f i :=
  ⟨(List.range n).map f, by simp, fun i hi => by simp [List.getD_eq_getElem?_getD, hi]⟩

/-- The reduced system: if the constraints leave no motion without strains it has exactly one solution for every right-hand
side. -/
theorem Problem.reduced (P : Problem dof dim n E nu s cells threads st c num) (ps : PlaneState)
    (hsup : Held dim dof n cells c num) :
    ∃ h m C a A, assembleMatrix s dof (stiffness dof fun _ _ => .ok (elasticTangent dim E nu ps)) threads = .ok h ∧
      h.find? (toLex (dof, dof)) = some m ∧ m.rows = n ∧ m.cols = n ∧ m.WF ∧
      DofSpMat.Consistent h [dof] (fun _ => n) (fun _ => n) (fun _ _ => m) ∧
      c.buildUnitConstraintMatrix st dof n = .ok C ∧ C.rows = n ∧ C.WF ∧ SpMat.mul C.transpose m = .ok a ∧ SpMat.mul a C = .ok A ∧
      A.rows = C.cols ∧ A.cols = C.cols ∧ Spd A ∧
      ∀ b : List ℝ, b.length = C.cols → ∃ x, A.mulVec x = .ok b ∧ ∀ x', A.mulVec x' = .ok b → x' = x := by
  obtain ⟨h, m, a1, a2, a3, a4, a5, a6, a7, a8, a9, _⟩ := P.matrix ps
  obtain ⟨C, c1, c2, c3, c4, c5⟩ := unit_spec st c dof n num P.valid P.unit P.tiny
  obtain ⟨a, ha⟩ : ∃ a, SpMat.mul C.transpose m = .ok a := by
    unfold SpMat.mul Res.require
    exact ⟨_, if_pos (show C.rows = m.rows by rw [c2, a3])⟩
  obtain ⟨w1, w2, w3, w4, w5⟩ := SpMat.mul_eq_ok ha (SpMat.transpose_wf c3) a5
  obtain ⟨A, hA⟩ : ∃ A, SpMat.mul a C = .ok A := by
    unfold SpMat.mul Res.require
    exact ⟨_, if_pos (by rw [w3, c2, a4])⟩
  obtain ⟨x1, x2, x3, x4, x5⟩ := SpMat.mul_eq_ok hA w1 c3
  have hrows : A.rows = A.cols := by rw [x2, w2, x3]; rfl
  have hdot : ∀ x y x' : List ℝ, A.mulVec x = .ok y → x'.length = A.cols → ∃ z z' : List ℝ,
      C.mulVec x = .ok z ∧ C.mulVec x' = .ok z' ∧ z.length = n ∧ z'.length = n ∧
      ∑ i ∈ range A.cols, x'.getD i 0 * y.getD i 0 =
        ∑ i ∈ range n, ∑ j ∈ range n, z'.getD i 0 * m.entry i j * z.getD j 0 := by
    intro x y x' hy hx'
    have hxl := (SpMat.mulVec_eq_ok x1 hy).1
    obtain ⟨z, hz⟩ := SpMat.mulVec_ok C x (by rw [hxl, x3])
    obtain ⟨z', hz'⟩ := SpMat.mulVec_ok C x' (by rw [hx', x3])
    have hzl := (SpMat.mulVec_eq_ok c3 hz).2.1
    have hzl' := (SpMat.mulVec_eq_ok c3 hz').2.1
    refine ⟨z, z', hz, hz', by rw [hzl, c2], by rw [hzl', c2], ?_⟩
    obtain ⟨v, hv⟩ := SpMat.mulVec_ok m z (by rw [hzl, c2, a4])
    have h1 := w5 z y v (x5 x y z hy hz) hv
    have h2 := SpMat.transpose_dot c3 h1 hz'
    rw [← x3, c2] at h2
    rw [h2]
    refine sum_congr rfl fun i hi => ?_
    rw [(SpMat.mulVec_eq_ok a5 hv).2.2 i (by rw [a3]; exact mem_range.1 hi), mul_sum, a4]
    exact sum_congr rfl fun j _ => by ring
  have hpos : ∀ x y : List ℝ, A.mulVec x = .ok y → ∑ i ∈ range A.cols, x.getD i 0 * y.getD i 0 = 0 →
      ∀ i < A.cols, x.getD i 0 = 0 := by
    intro x y hy h0 i hi
    have hxl := (SpMat.mulVec_eq_ok x1 hy).1
    obtain ⟨z, hz⟩ := SpMat.mulVec_ok C x (by rw [hxl, x3])
    have hzl := (SpMat.mulVec_eq_ok c3 hz).2.1
    obtain ⟨v, hv⟩ := SpMat.mulVec_ok m z (by rw [hzl, c2, a4])
    have h1 := w5 z y v (x5 x y z hy hz) hv
    have h2 := SpMat.transpose_dot c3 h1 hz
    rw [← x3, h0, c2] at h2
    have h3 : form m n (fun i => z.getD i 0) = 0 := by
      refine Eq.trans ?_ h2.symm
      rw [form]
      refine sum_congr rfl fun i hi => ?_
      rw [(SpMat.mulVec_eq_ok a5 hv).2.2 i (by rw [a3]; exact mem_range.1 hi), mul_sum, a4]
      exact sum_congr rfl fun j _ => by ring
    have h4 := hsup z (by rw [hzl, c2]) ((c4 z (by rw [hzl, c2])).2 ⟨x, hz⟩) ((a9 _).1 h3)
    obtain ⟨z', hz'⟩ := SpMat.mulVec_ok C (List.replicate C.cols 0) (by simp)
    have hzz : z' = z := by
      obtain ⟨_, l1, l2⟩ := SpMat.mulVec_eq_ok c3 hz'
      refine List.ext_getElem (by rw [l1, hzl]) fun i g1 g2 => ?_
      rw [← List.getD_eq_getElem z' 0 g1, ← List.getD_eq_getElem z 0 g2, h4 i (by omega), l2 i (by omega)]
      refine sum_eq_zero fun j hj => ?_
      simp [List.getD_eq_getElem?_getD, mem_range.mp hj]
    rw [hzz] at hz'
    rw [c5 x _ z hz hz']
    simp only [List.getD_eq_getElem?_getD, List.getElem?_replicate]
    split <;> rfl
  have hspd : Spd A := by
    refine ⟨x1, hrows, fun i hi j hj => ?_, fun r hr => ?_⟩
    · rw [hrows] at hi hj
      have hunit : ∀ k < A.cols, ∃ e y : List ℝ, e.length = A.cols ∧ (∀ l < A.cols, e.getD l 0 = if l = k then 1 else 0) ∧
          A.mulVec e = .ok y ∧ ∀ l < A.cols, y.getD l 0 = A.entry l k := by
        intro k hk
        obtain ⟨e, e1, e2⟩ := ofFun A.cols fun l => if l = k then (1 : ℝ) else 0
        obtain ⟨y, hy⟩ := SpMat.mulVec_ok A e e1
        refine ⟨e, y, e1, e2, hy, fun l hl => ?_⟩
        rw [(SpMat.mulVec_eq_ok x1 hy).2.2 l (by omega), sum_eq_single k]
        · rw [e2 k hk, if_pos rfl, mul_one]
        · intro b hb hbk
          rw [e2 b (mem_range.1 hb), if_neg hbk, mul_zero]
        · intro h
          exact absurd (mem_range.2 hk) h
      obtain ⟨ei, yi, i1, i2, i3, i4⟩ := hunit i hi
      obtain ⟨ej, yj, j1, j2, j3, j4⟩ := hunit j hj
      obtain ⟨z, z', q1, q2, _, _, q3⟩ := hdot ei yi ej i3 j1
      obtain ⟨z1, z1', r1, r2, _, _, r3⟩ := hdot ej yj ei j3 i1
      obtain rfl := Res.ok.inj (q1.symm.trans r2)
      obtain rfl := Res.ok.inj (q2.symm.trans r1)
      have hsum : ∀ (e y : List ℝ) (k : Nat), k < A.cols → (∀ l < A.cols, e.getD l 0 = if l = k then 1 else 0) →
          ∑ l ∈ range A.cols, e.getD l 0 * y.getD l 0 = y.getD k 0 := by
        intro e y k hk he
        rw [sum_eq_single k]
        · rw [he k hk, if_pos rfl, one_mul]
        · intro b hb hbk
          rw [he b (mem_range.1 hb), if_neg hbk, zero_mul]
        · intro h
          exact absurd (mem_range.2 hk) h
      rw [hsum ej yi j hj j2, i4 j hj] at q3
      rw [hsum ei yj i hi i2, j4 i hi] at r3
      rw [q3, r3, sum_comm]
      refine sum_congr rfl fun k hk => sum_congr rfl fun l hl => ?_
      rw [a7 k (mem_range.1 hk) l (mem_range.1 hl)]
      ring
    · obtain ⟨x, e1, e2⟩ := ofFun A.cols r
      obtain ⟨y, hy⟩ := SpMat.mulVec_ok A x e1
      have hq : ∑ i ∈ range A.rows, ∑ j ∈ range A.rows, r i * A.entry i j * r j =
          ∑ i ∈ range A.cols, x.getD i 0 * y.getD i 0 := by
        rw [hrows]
        refine sum_congr rfl fun i hi => ?_
        have hi := mem_range.1 hi
        rw [(SpMat.mulVec_eq_ok x1 hy).2.2 i (by omega), e2 i hi, mul_sum]
        refine sum_congr rfl fun j hj => ?_
        rw [e2 j (mem_range.1 hj)]
        ring
      rw [hq]
      obtain ⟨z, z', q1, q2, _, _, q3⟩ := hdot x y x hy e1
      obtain rfl := Res.ok.inj (q1.symm.trans q2)
      have h0 : 0 ≤ ∑ i ∈ range A.cols, x.getD i 0 * y.getD i 0 := by
        rw [q3]
        exact a8 fun i => z.getD i 0
      refine lt_of_le_of_ne h0 fun h => ?_
      obtain ⟨i, hi, hne⟩ := hr
      rw [hrows] at hi
      exact hne (by rw [← e2 i hi]; exact hpos x y hy h.symm i hi)
  refine ⟨h, m, C, a, A, a1, a2, a3, a4, a5, a6, c1, c2, c3, ha, hA, by rw [x2, w2]; rfl, x3, hspd, fun b hbl => ?_⟩
  obtain ⟨x, hx⟩ := solvable A x1 hrows hpos b (by rw [hbl, x2, w2]; rfl)
  refine ⟨x, hx, fun x' hx' => ?_⟩
  obtain ⟨l1, l2, l3⟩ := SpMat.mulVec_eq_ok x1 hx
  obtain ⟨l1', l2', l3'⟩ := SpMat.mulVec_eq_ok x1 hx'
  obtain ⟨d, d1, d2⟩ := getD_sub A.cols x' x l1' l1
  obtain ⟨y, hy⟩ := SpMat.mulVec_ok A d d1
  obtain ⟨_, m2, m3⟩ := SpMat.mulVec_eq_ok x1 hy
  have h0 := hpos d y hy (by
    refine sum_eq_zero fun i hi => ?_
    have hi : i < A.rows := by rw [hrows]; exact mem_range.1 hi
    rw [m3 i hi]
    simp only [d2, mul_sub, sum_sub_distrib]
    rw [← l3 i hi, ← l3' i hi]
    ring)
  refine List.ext_getElem (by rw [l1, l1']) fun i g1 g2 => ?_
  have := h0 i (by omega)
  rw [d2, List.getD_eq_getElem x' 0 g1, List.getD_eq_getElem x 0 g2] at this
  linarith

/-- C101 (solvable): if the constraints leave no motion without strains, `Solve` returns for every linear solver that solves
symmetric positive definite systems, and all of them lead to the same displacements. -/
theorem C101_solvable (P : Problem dof dim n E nu s cells threads st c num) (ps : PlaneState)
    (hsup : Held dim dof n cells c num) :
    ∃ h, assembleMatrix s dof (stiffness dof fun _ _ => .ok (elasticTangent dim E nu ps)) threads = .ok h ∧
      ∀ (toFloat : ℝ → ℝ) (F : List ℝ), F.length = n → ∃ u : List ℝ, u.length = n ∧
        ∀ lin, SolvesSpd lin → ∃ res, Solve.solve lin (c.bcs toFloat st) h [(dof, F)] [dof] = .ok res ∧
          res.find? dof = some u := by
  obtain ⟨h, m, C, a, A, a1, a2, a3, a4, a5, a6, c1, c2, c3, ha, hA, x2, x3, hspd, huniq⟩ := P.reduced ps hsup
  refine ⟨h, a1, fun toFloat F hF => ?_⟩
  have hin : SolveInput (c.bcs toFloat st) h [(dof, F)] [dof] (fun _ => n) (fun _ _ => m) (fun _ => F) (fun _ => C) :=
    ⟨by simp, a6, fun d hd => by simp [List.mem_singleton.1 hd, OMap.find?], fun _ _ => hF,
      fun d hd => by rw [List.mem_singleton.1 hd]; exact c1, fun _ _ => c2, fun _ _ => c3⟩
  obtain ⟨cdof, C', Kf, u1, u2, _, _, _, k1, _, _, _, u3⟩ := hin.size_of_fb
  obtain rfl : C = C' := by
    have := u3.block dof (by simp) dof (by simp)
    rw [unitBlock, if_pos rfl] at this
    exact Res.ok.inj (this.symm.trans u2)
  obtain rfl : m = Kf := Res.ok.inj ((a6.block dof (by simp) dof (by simp)).symm.trans k1)
  obtain ⟨b, hb⟩ := SpMat.mulVec_ok C.transpose F (show F.length = C.rows by rw [hF, c2])
  have hbl := (SpMat.mulVec_eq_ok (SpMat.transpose_wf c3) hb).2.1
  obtain ⟨x, hx, huniq⟩ := huniq b hbl
  obtain ⟨u, hu⟩ := SpMat.mulVec_ok C x (by
    unfold SpMat.mulVec at hx
    rw [(Res.require_eq_ok hx).1, x3])
  have hul : u.length = n := by rw [(SpMat.mulVec_eq_ok c3 hu).2.1, c2]
  refine ⟨u, hul, fun lin hlin => ?_⟩
  obtain ⟨x', hx', hsol⟩ := hlin A b hspd (by rw [hbl, x2]; rfl)
  obtain rfl := huniq x' hsol
  obtain ⟨r, r1, r2, _⟩ := C02_roundtrip [(dof, u)] [(dof, F)] [dof] ([dof].flatMap fun _ => u)
    (DofVec.toEigen_eq _ (fun _ => u) [dof] (fun d hd => by simp [List.mem_singleton.1 hd, OMap.find?]))
    (fun d hd => ⟨u, F, by simp [List.mem_singleton.1 hd, OMap.find?], by simp [List.mem_singleton.1 hd, OMap.find?],
      by rw [hul, hF]⟩)
  refine ⟨r, ?_, by rw [r2 dof (by simp)]; simp [OMap.find?]⟩
  unfold solve
  rw [k1, Res.bind_ok', DofVec.toEigen_eq _ (fun _ => F) [dof] hin.rhs, Res.bind_ok', u1, Res.bind_ok', u2, Res.bind_ok', ha,
    Res.bind_ok', hA, Res.bind_ok']
  simp only [List.flatMap_cons, List.flatMap_nil, List.append_nil] at r1 ⊢
  rw [hb, Res.bind_ok', hx', Res.bind_ok', hu, Res.bind_ok']
  exact r1

/-- A load step from displacements `R0` that need not satisfy the constraints at `t0`: the displacements `R1` afterwards have
the same error in the constraints at `t1`, and the forces that remain do no work on motions that satisfy the homogeneous
constraints. -/
theorem Problem.step (P : Problem dof dim n E nu s cells threads st c num) (ps : PlaneState) :
    ∃ h m, assembleMatrix s dof (stiffness dof fun _ _ => .ok (elasticTangent dim E nu ps)) threads = .ok h ∧
      h.find? (toLex (dof, dof)) = some m ∧
      ∀ lin, LinSolver lin → ∀ (toFloat : ℝ → ℝ) (t0 t1 : ℝ),
        (∀ e ∈ c.equations dof, toFloat (e.rhs t0) = e.rhs t0 ∧ toFloat (e.rhs t1) = e.rhs t1) →
        ∀ F f R0 : List ℝ, F.length = n → f.length = n → R0.length = n →
        (∀ i < n, f.getD i 0 = ∑ j ∈ range n, m.entry i j * R0.getD j 0 - F.getD i 0) →
        ∀ rhs0, Satisfies c dof num rhs0 R0 → ∀ res,
        Solve.solveTrialState lin (c.bcs toFloat st) h [(dof, f)] t0 t1 [dof] = .ok res →
        ∃ d R1 : List ℝ, res.find? dof = some d ∧ d.length = n ∧ R1.length = n ∧
          (∀ i, R1.getD i 0 = R0.getD i 0 - d.getD i 0) ∧
          Satisfies c dof num (fun e => rhs0 e + (e.rhs t1 - e.rhs t0)) R1 ∧
          ∀ w : List ℝ, w.length = n → Satisfies c dof num (fun _ => 0) w →
            ∑ i ∈ range n, w.getD i 0 * (∑ j ∈ range n, m.entry i j * R1.getD j 0 - F.getD i 0) = 0 := by
  obtain ⟨h, m, a1, a2, _, _, _, a6, _⟩ := P.matrix ps
  obtain ⟨C, c1, c2, c3, c4, _⟩ := unit_spec st c dof n num P.valid P.unit P.tiny
  refine ⟨h, m, a1, a2, fun lin hlin toFloat t0 t1 hfl F f R0 hF hf hR0 hres0 rhs0 hsat0 res hres => ?_⟩
  have hin : SolveInput (c.bcs toFloat st) h [(dof, f)] [dof] (fun _ => n) (fun _ _ => m) (fun _ => f) (fun _ => C) :=
    ⟨by simp, a6, fun d hd => by simp [List.mem_singleton.1 hd, OMap.find?], fun _ _ => hf,
      fun d hd => by rw [List.mem_singleton.1 hd]; exact c1, fun _ _ => c2, fun _ _ => c3⟩
  have hrhs : ∀ t, (∀ e ∈ c.equations dof, toFloat (e.rhs t) = e.rhs t) → ∃ b, c.getSparseGlobalRhs toFloat st dof n t = .ok b ∧
      b.length = n ∧ Satisfies c dof num (fun e => e.rhs t) b := by
    intro t hfl
    obtain ⟨C', b, g1, g2, g3, g4, g5, g6⟩ := C09_satisfies_constraints_partial toFloat st c dof n num t P.valid P.unit P.tiny hfl
    obtain rfl : C = C' := Res.ok.inj (c1.symm.trans g1)
    refine ⟨b, g2, g5, fun e he => ?_⟩
    obtain ⟨y, z1, z2, z3⟩ := g6 (List.replicate C.cols 0) (by simp)
    have hy := (c4 y z2).2 ⟨_, z1⟩ e he
    have h2 := lhs_add num (fun i => y.getD i 0) (fun i => b.getD i 0) e
    rw [z3 e he, hy, zero_add] at h2
    exact h2.symm
  obtain ⟨b0, r1, r2, r3⟩ := hrhs t0 fun e he => (hfl e he).1
  obtain ⟨b1, r4, r5, r6⟩ := hrhs t1 fun e he => (hfl e he).2
  obtain ⟨u, q, y, h1, _, h3⟩ := C17_trialState_partial hin lin hlin t0 t1 (fun _ => b0) (fun _ => b1)
    (fun d hd => by rw [List.mem_singleton.1 hd]; exact ⟨r1, r2⟩)
    (fun d hd => by rw [List.mem_singleton.1 hd]; exact ⟨r4, r5⟩) rfl res hres
  obtain ⟨k1, k2, k3, k4⟩ := h1 dof (by simp)
  have hyl : (y dof).length = n := by rw [(SpMat.mulVec_eq_ok c3 k3).2.1, c2]
  have hysat : Satisfies c dof num (fun _ => 0) (y dof) := (c4 _ hyl).2 ⟨_, k3⟩
  obtain ⟨R1, l1, l2⟩ := getD_sub n R0 (u dof) hR0 k2
  have hsat : Satisfies c dof num (fun e => rhs0 e + (e.rhs t1 - e.rhs t0)) R1 := by
    obtain ⟨db, d1, d2⟩ := getD_sub n b1 b0 r5 r2
    obtain ⟨u', v1, v2⟩ := getD_sub n (y dof) db hyl d1
    have e1 := satisfies_sub hysat (satisfies_sub r6 r3 d2) v2
    have : u' = u dof := by
      refine List.ext_getElem (by rw [v1, k2]) fun i g1 g2 => ?_
      rw [← List.getD_eq_getElem u' 0 g1, ← List.getD_eq_getElem (u dof) 0 g2, v2, d2, k4 i (by omega)]
    rw [this] at e1
    intro e he
    refine (satisfies_sub hsat0 e1 l2 e he).trans ?_
    ring
  refine ⟨u dof, R1, k1, k2, l1, l2, hsat, fun w hw hws => ?_⟩
  obtain ⟨z, hz⟩ := (c4 w hw).1 hws
  have h4 := h3 (fun _ => z) (fun _ => w) (fun d hd => hz)
  simp only [List.map_cons, List.map_nil, List.sum_cons, List.sum_nil, add_zero, blockMul] at h4
  rw [← neg_eq_zero, ← sum_neg_distrib]
  refine Eq.trans ?_ h4
  refine sum_congr rfl fun i hi => ?_
  rw [hres0 i (mem_range.1 hi)]
  simp only [l2, mul_sub, sum_sub_distrib]
  ring

/-- C101 (load step): start at displacements `R0` that satisfy the constraints at `t0`; with the residual of `R0` under the
forces `F`, subtracting the vector that `SolveTrialState` returns leads to displacements that satisfy the constraints at
`t1` and have the least potential energy of all vectors that do. -/
theorem C101_step (P : Problem dof dim n E nu s cells threads st c num) (ps : PlaneState)
    (pts : Cell × FemElement ℝ → List (ℝ × IpData)) (hpts : ∀ x ∈ cells, x.1.Points (pts x)) :
    ∃ h m, assembleMatrix s dof (stiffness dof fun _ _ => .ok (elasticTangent dim E nu ps)) threads = .ok h ∧
      h.find? (toLex (dof, dof)) = some m ∧
      ∀ lin, LinSolver lin → ∀ (toFloat : ℝ → ℝ) (t0 t1 : ℝ),
        (∀ e ∈ c.equations dof, toFloat (e.rhs t0) = e.rhs t0 ∧ toFloat (e.rhs t1) = e.rhs t1) →
        ∀ F f R0 : List ℝ, F.length = n → f.length = n → R0.length = n →
        (∀ i < n, f.getD i 0 = ∑ j ∈ range n, m.entry i j * R0.getD j 0 - F.getD i 0) →
        Satisfies c dof num (fun e => e.rhs t0) R0 → ∀ res,
        Solve.solveTrialState lin (c.bcs toFloat st) h [(dof, f)] t0 t1 [dof] = .ok res →
        ∃ d R1 : List ℝ, res.find? dof = some d ∧ d.length = n ∧ R1.length = n ∧
          (∀ i, R1.getD i 0 = R0.getD i 0 - d.getD i 0) ∧ Satisfies c dof num (fun e => e.rhs t1) R1 ∧
          ∀ w : List ℝ, w.length = n → Satisfies c dof num (fun e => e.rhs t1) w →
            potential dim (elasticTangent dim E nu ps) cells pts F R1 ≤
              potential dim (elasticTangent dim E nu ps) cells pts F w ∧
            (potential dim (elasticTangent dim E nu ps) cells pts F w =
              potential dim (elasticTangent dim E nu ps) cells pts F R1 ↔
              Unstrained dim cells fun i => w.getD i 0 - R1.getD i 0) := by
  obtain ⟨h, m, a1, a2, a3⟩ := P.step ps
  obtain ⟨h', m', g1, g2, _, _, _, _, a7, a8, a9, a10⟩ := P.matrix ps
  obtain rfl : h = h' := Res.ok.inj (a1.symm.trans g1)
  obtain rfl : m = m' := Option.some.inj (a2.symm.trans g2)
  refine ⟨h, m, a1, a2, fun lin hlin toFloat t0 t1 hfl F f R0 hF hf hR0 hres0 hsat0 res hres => ?_⟩
  obtain ⟨d, R1, k1, k2, k3, k4, k5, k6⟩ := a3 lin hlin toFloat t0 t1 hfl F f R0 hF hf hR0 hres0 _ hsat0 res hres
  have hsat : Satisfies c dof num (fun e => e.rhs t1) R1 := fun e he => (k5 e he).trans (by ring)
  exact ⟨d, R1, k1, k2, k3, k4, hsat, fun w hw hws => P.least ps a7 a8 a9 pts (a10 pts hpts) hF k3 hsat k6 w hw hws⟩

/-- C101 (load step, solvable): if the constraints leave no motion without strains, `SolveTrialState` returns for every linear
solver that solves symmetric positive definite systems, and all of them lead to the same displacements. -/
theorem C101_step_solvable (P : Problem dof dim n E nu s cells threads st c num) (ps : PlaneState)
    (hsup : Held dim dof n cells c num) :
    ∃ h, assembleMatrix s dof (stiffness dof fun _ _ => .ok (elasticTangent dim E nu ps)) threads = .ok h ∧
      ∀ (toFloat : ℝ → ℝ) (t0 t1 : ℝ),
        (∀ e ∈ c.equations dof, toFloat (e.rhs t0) = e.rhs t0 ∧ toFloat (e.rhs t1) = e.rhs t1) →
        ∀ f : List ℝ, f.length = n → ∃ d : List ℝ, d.length = n ∧ ∀ lin, SolvesSpd lin →
          ∃ res, Solve.solveTrialState lin (c.bcs toFloat st) h [(dof, f)] t0 t1 [dof] = .ok res ∧
            res.find? dof = some d := by
  obtain ⟨h, m, C, a, A, a1, a2, a3, a4, a5, a6, c1, c2, c3, ha, hA, x2, x3, hspd, huniq⟩ := P.reduced ps hsup
  refine ⟨h, a1, fun toFloat t0 t1 hfl f hf => ?_⟩
  have hin : SolveInput (c.bcs toFloat st) h [(dof, f)] [dof] (fun _ => n) (fun _ _ => m) (fun _ => f) (fun _ => C) :=
    ⟨by simp, a6, fun d hd => by simp [List.mem_singleton.1 hd, OMap.find?], fun _ _ => hf,
      fun d hd => by rw [List.mem_singleton.1 hd]; exact c1, fun _ _ => c2, fun _ _ => c3⟩
  obtain ⟨_, b0, _, r1, _, _, r2, _⟩ := C09_satisfies_constraints_partial toFloat st c dof n num t0 P.valid P.unit P.tiny
    fun e he => (hfl e he).1
  obtain ⟨_, b1, _, r4, _, _, r5, _⟩ := C09_satisfies_constraints_partial toFloat st c dof n num t1 P.valid P.unit P.tiny
    fun e he => (hfl e he).2
  obtain ⟨cdof, C', Kf, u1, u2, _, _, _, k1, _, _, _, u3⟩ := hin.size_of_fb
  obtain rfl : C = C' := by
    have := u3.block dof (by simp) dof (by simp)
    rw [unitBlock, if_pos rfl] at this
    exact Res.ok.inj (this.symm.trans u2)
  obtain rfl : m = Kf := Res.ok.inj ((a6.block dof (by simp) dof (by simp)).symm.trans k1)
  obtain ⟨dv, dv1, dv2, _⟩ := deltaLoop (c.bcs toFloat st) [(dof, f)] (fun _ => f) (fun _ => b1) (fun _ => b0) t0 t1 [dof]
    hin.nodup hin.rhs
    (fun d hd => by rw [List.mem_singleton.1 hd, hf]; exact r4) (fun d hd => by rw [List.mem_singleton.1 hd, hf]; exact r1)
    (fun d hd => by rw [hf]; exact r5) (fun d hd => by rw [hf]; exact r2)
    (DofVec.setZero [(dof, f)]) (fun d hd => by
      unfold DofVec.setZero
      rw [OMap.find?_map [(dof, f)] (fun x : List ℝ => x.map fun _ => (0 : ℝ)) d, hin.rhs d hd]
      rfl)
  obtain ⟨db, hdb⟩ : ∃ db, db = List.zipWith (· - ·) b1 b0 := ⟨_, rfl⟩
  have hdbl : db.length = n := by rw [hdb]; simp [r2, r5]
  obtain ⟨kdb, hkdb⟩ := SpMat.mulVec_ok m db (by rw [hdbl, a4])
  have hkl : kdb.length = n := by rw [(SpMat.mulVec_eq_ok a5 hkdb).2.1, a3]
  obtain ⟨g, hg, hgl⟩ : ∃ g, vecAdd f kdb = .ok g ∧ g.length = n := by
    unfold vecAdd Res.require
    rw [if_pos (by rw [hf, hkl])]
    exact ⟨_, rfl, by simp [hf, hkl]⟩
  obtain ⟨b, hb⟩ := SpMat.mulVec_ok C.transpose g (show g.length = C.rows by rw [hgl, c2])
  have hbl := (SpMat.mulVec_eq_ok (SpMat.transpose_wf c3) hb).2.1
  obtain ⟨x, hx, huniq⟩ := huniq b hbl
  obtain ⟨y, hy⟩ := SpMat.mulVec_ok C x (by
    unfold SpMat.mulVec at hx
    rw [(Res.require_eq_ok hx).1, x3])
  have hyl : y.length = n := by rw [(SpMat.mulVec_eq_ok c3 hy).2.1, c2]
  obtain ⟨u, hu, hul⟩ : ∃ u, vecSub y db = .ok u ∧ u.length = n := by
    unfold vecSub Res.require
    rw [if_pos (by rw [hyl, hdbl])]
    exact ⟨_, rfl, by simp [hyl, hdbl]⟩
  refine ⟨u, hul, fun lin hlin => ?_⟩
  obtain ⟨x', hx', hsol⟩ := hlin A b hspd (by rw [hbl, x2]; rfl)
  obtain rfl := huniq x' hsol
  obtain ⟨r, q1, q2, _⟩ := C02_roundtrip [(dof, u)] [(dof, f)] [dof] ([dof].flatMap fun _ => u)
    (DofVec.toEigen_eq _ (fun _ => u) [dof] (fun d hd => by simp [List.mem_singleton.1 hd, OMap.find?]))
    (fun d hd => ⟨u, f, by simp [List.mem_singleton.1 hd, OMap.find?], by simp [List.mem_singleton.1 hd, OMap.find?],
      by rw [hul, hf]⟩)
  refine ⟨r, ?_, by rw [q2 dof (by simp)]; simp [OMap.find?]⟩
  unfold solveTrialState
  rw [k1, Res.bind_ok', DofVec.toEigen_eq _ (fun _ => f) [dof] hin.rhs, Res.bind_ok', u1, Res.bind_ok', u2, Res.bind_ok', dv1,
    Res.bind_ok', ha, Res.bind_ok', hA, Res.bind_ok', DofVec.toEigen_eq dv (fun _ => db) [dof] (by rw [hdb]; exact dv2),
    Res.bind_ok']
  simp only [List.flatMap_cons, List.flatMap_nil, List.append_nil] at q1 ⊢
  rw [hkdb, Res.bind_ok', hg, Res.bind_ok', hb, Res.bind_ok', hx', Res.bind_ok', hy, Res.bind_ok', hu, Res.bind_ok']
  exact q1

/-- C101: on a face-connected mesh of linear triangles or tetrahedra the constraints leave no motion without strains if they
leave no rigid motion. -/
theorem C101_held (hb : ∀ x ∈ cells, Body dim n x)
    (hw : ∀ x ∈ cells, ∀ pts, x.1.Points pts → ∀ p ∈ pts, 0 < p.2.jacobian.det * p.1)
    (hiso : ∀ x ∈ cells, x.2.interp = x.1.coordElement.interp) (hI : ∀ x ∈ cells, Simplex dim x.2.interp)
    (hne : ∀ x ∈ cells, x.1.rule ≠ []) (x₀ : Cell × FemElement ℝ) (hc : FaceConnected dim cells x₀)
    (hrigid : ∀ w : List ℝ, w.length = n → (∃ (t : Nat → ℝ) (W : Nat → Nat → ℝ), (∀ a b, W a b = -W b a) ∧
      ∀ x ∈ cells, RigidOn dim x t W fun i => w.getD i 0) → Satisfies c dof num (fun _ => 0) w → ∀ i < n, w.getD i 0 = 0) :
    Held dim dof n cells c num := by
  intro w hwl hs hu
  refine hrigid w hwl (C95_unstrained_rigid hb hiso hI hne (fun x hx pts hp p hm h0 => ?_) x₀ hc _ hu) hs
  have := hw x hx pts hp p hm
  rw [h0, zero_mul] at this
  exact lt_irrefl _ this

/-! ### Example -/

/-- the dofs are the components of one node -/
noncomputable def exStore101 : NodeStore ℝ := fun _ => ⟨[List.replicate 8 0], [0, 1, 2, 3, 4, 5, 6, 7]⟩

/-- The node at the origin of the two triangles is fixed, the node at `(2, 0)` is moved by `g` in the direction y. -/
noncomputable def exC101 (g : ℝ → ℝ) : Constraints ℝ :=
  ⟨[(0, [⟨⟨1, 0, 1⟩, [], fun _ => 0⟩, ⟨⟨1, 1, 1⟩, [], fun _ => 0⟩, ⟨⟨1, 3, 1⟩, [], g⟩])],
    [(1, 0), (1, 1), (1, 3)], []⟩

theorem exC101_eqs (g : ℝ → ℝ) : (exC101 g).equations 0 =
    [⟨⟨1, 0, 1⟩, [], fun _ => 0⟩, ⟨⟨1, 1, 1⟩, [], fun _ => 0⟩, ⟨⟨1, 3, 1⟩, [], g⟩] := by
  simp [exC101, Constraints.equations, OMap.find?]

/-- The two triangles of C95 with these constraints meet the hypotheses of C101. -/
theorem exC101_problem (g : ℝ → ℝ) : Problem 0 2 8 1 0 ⟨[(0, 8)], [(0, 0)]⟩ [exampleBody, exampleBody2]
    [[exampleBody2], [exampleBody]] exStore101 (exC101 g) (fun t => t.comp.toNat) := by
  exact {
      dim1 := by norm_num
      dim3 := by norm_num
      stiff := by norm_num
      poisson := by norm_num
      body := exampleMesh_body
      positive := exampleMesh_weights
      size := rfl
      schedule := List.Perm.swap _ _ _
      valid := by
        rw [exC101_eqs]
        refine ⟨?_, by simp, ?_⟩
        · intro e he t ht
          simp only [List.mem_cons, List.not_mem_nil, or_false] at he
          rcases he with rfl | rfl | rfl <;>
            (simp only [List.mem_cons, List.not_mem_nil, or_false] at ht; subst ht
             simp [Term.dofNumber, Node.getDofNumber, exStore101])
        · intro e _ f hf t ht
          simp only [List.mem_cons, List.not_mem_nil, or_false] at hf
          rcases hf with rfl | rfl | rfl <;> simp at ht
      unit := by
        rw [exC101_eqs]
        simp
      tiny := by
        rw [exC101_eqs]
        intro e he t ht
        simp only [List.mem_cons, List.not_mem_nil, or_false] at he
        rcases he with rfl | rfl | rfl <;> simp at ht }

/-- These constraints leave no motion without strains. -/
theorem exC101_held (g : ℝ → ℝ) : Held 2 0 8 [exampleBody, exampleBody2] (exC101 g) (fun t => t.comp.toNat) := by
  refine C101_held exampleMesh_body exampleMesh_weights ?_ ?_ ?_ exampleBody exampleMesh_connected ?_
  · intro x hx
    simp only [List.mem_cons, List.not_mem_nil, or_false] at hx
    rcases hx with rfl | rfl <;> rfl
  · intro x hx
    simp only [List.mem_cons, List.not_mem_nil, or_false] at hx
    rcases hx with rfl | rfl <;> exact triangleLinear_simplex
  · intro x hx
    simp only [List.mem_cons, List.not_mem_nil, or_false] at hx
    rcases hx with rfl | rfl <;> simp [exampleBody, exampleBody2]
  · rintro w _ ⟨t, W, hW, hR⟩ hs i hi
    have hs' : ∀ g : Nat, g = 0 ∨ g = 1 ∨ g = 3 → w.getD g 0 = 0 := by
      rintro g (rfl | rfl | rfl)
      · simpa [Equation.lhs] using hs ⟨⟨1, 0, 1⟩, [], fun _ => 0⟩ (by simp [exC101_eqs])
      · simpa [Equation.lhs] using hs ⟨⟨1, 1, 1⟩, [], fun _ => 0⟩ (by simp [exC101_eqs])
      · simpa [Equation.lhs] using hs ⟨⟨1, 3, 1⟩, [], g⟩ (by simp [exC101_eqs])
    have hz := exampleMesh_supported t W hW fun x hx i hi a ha hp => by
      rw [← hR x hx i hi a ha]
      exact hs' _ hp
    obtain ⟨x, hx, j, hj, a, ha, hg⟩ : ∃ x ∈ [exampleBody, exampleBody2], ∃ j ≤ 2, ∃ a < 2, number x.2 j a = i := by
      by_cases h6 : i < 6
      · exact ⟨exampleBody, by simp, i / 2, by omega, i % 2, by omega, by
          interval_cases i <;> simp [exampleBody, number]⟩
      · exact ⟨exampleBody2, by simp, 1, by norm_num, i - 6, by omega, by
          interval_cases i <;> simp [exampleBody2, number]⟩
    have := hR x hx j hj a ha
    rw [hz x hx j hj a ha, hg] at this
    exact this

/-- The hypotheses of C101, for a node that moves in time. -/
example : Problem 0 2 8 1 0 ⟨[(0, 8)], [(0, 0)]⟩ [exampleBody, exampleBody2] [[exampleBody2], [exampleBody]] exStore101
      (exC101 fun t => t) (fun t => t.comp.toNat) ∧
    Held 2 0 8 [exampleBody, exampleBody2] (exC101 fun t => t) (fun t => t.comp.toNat) :=
  ⟨exC101_problem _, exC101_held _⟩

/-- There is a linear solver that finds all solutions. -/
theorem ideal_solver : ∃ lin : SpMat ℝ → List ℝ → Res (List ℝ), LinSolver lin ∧ Finds lin := by
  classical
  refine ⟨fun A b => if h : ∃ x, A.mulVec x = .ok b then .ok h.choose else .throw, fun A b x h => ?_, fun A b h => ?_⟩
  · by_cases h' : ∃ x, A.mulVec x = .ok b
    · simp only [dif_pos h', Res.ok.injEq] at h
      rw [← h]
      exact h'.choose_spec
    · simp [h'] at h
  · exact ⟨h.choose, by simp only [dif_pos h]⟩

/-- A linear solver that finds all solutions solves symmetric positive definite systems. -/
theorem Finds.solvesSpd {lin : SpMat ℝ → List ℝ → Res (List ℝ)} (hl : LinSolver lin) (hf : Finds lin) : SolvesSpd lin := by
  intro A b hA hb
  have hsol := solvable A hA.wf hA.square (by
    intro x y hy h0 i hi
    by_contra hne
    have := hA.positive (fun i => x.getD i 0) ⟨i, by rw [hA.square]; exact hi, hne⟩
    refine absurd this (not_lt.2 (le_of_eq ?_))
    refine Eq.trans ?_ h0
    rw [hA.square]
    refine sum_congr rfl fun i hi => ?_
    rw [(SpMat.mulVec_eq_ok hA.wf hy).2.2 i (by rw [hA.square]; exact mem_range.1 hi), mul_sum]
    exact sum_congr rfl fun j _ => by ring) b hb
  obtain ⟨x, hx⟩ := hf A b hsol
  exact ⟨x, hx, hl A b x hx⟩

/-- There is a linear solver that solves symmetric positive definite systems. -/
example : ∃ lin : SpMat ℝ → List ℝ → Res (List ℝ), SolvesSpd lin := by
  obtain ⟨lin, h1, h2⟩ := ideal_solver
  exact ⟨lin, h2.solvesSpd h1⟩

end Statics

end NuTo
