import Verif.Lemmas.Solve
import Verif.Props.Constraints

/-! C17: the constrained linear solve. -/
set_option linter.unusedSectionVars false
namespace NuTo
open Solve
variable {K : Type _} [Field K]

/-- the contract of `EigenSparseSolve`: a returned vector solves the system (this is what `C17` quantifies over; whether a
given factorisation succeeds is not modelled) -/
def LinSolver (lin : SpMat K → List K → Res (List K)) : Prop :=
  ∀ A b x, lin A b = .ok x → A.mulVec x = .ok b

/-- the situation in which `Solve` is called: block matrix, right-hand side and constraint matrices fit together -/
structure SolveInput (bcs : Bcs K) (Kmat : DofSpMat K) (f : DofVec K) (dofs : List Nat) (size : Nat → Nat)
    (kb : Nat → Nat → SpMat K) (fb : Nat → List K) (Cd : Nat → SpMat K) : Prop where
  nodup : dofs.Nodup
  matrix : DofSpMat.Consistent Kmat dofs size size kb
  rhs : ∀ d ∈ dofs, f.find? d = some (fb d)
  rhsSize : ∀ d ∈ dofs, (fb d).length = size d
  unit : ∀ d ∈ dofs, bcs.unit d (size d) = .ok (Cd d)
  unitRows : ∀ d ∈ dofs, (Cd d).rows = size d
  unitWF : ∀ d ∈ dofs, (Cd d).WF

theorem SolveInput.size_of_fb {bcs : Bcs K} {Kmat : DofSpMat K} {f : DofVec K} {dofs : List Nat} {size : Nat → Nat}
    {kb : Nat → Nat → SpMat K} {fb : Nat → List K} {Cd : Nat → SpMat K}
    (h : SolveInput bcs Kmat f dofs size kb fb Cd) :
    ∃ cdof C Kf, unitMatrix bcs f dofs = .ok cdof ∧ cdof.toEigen dofs = .ok C ∧ C.WF ∧ C.rows = (dofs.map size).sum ∧
      C.cols = (dofs.map fun d => (Cd d).cols).sum ∧ Kmat.toEigen dofs = .ok Kf ∧ Kf.WF ∧
      Kf.rows = (dofs.map size).sum ∧ Kf.cols = (dofs.map size).sum ∧
      DofSpMat.Consistent cdof dofs size (fun d => (Cd d).cols) (unitBlock Cd) := by
  obtain ⟨cdof, c1, c2⟩ := unitMatrix_ok bcs f fb Cd dofs h.rhs
    (fun d hd => by rw [h.rhsSize d hd]; exact h.unit d hd)
    (fun d hd => by rw [h.rhsSize d hd]; exact h.unitRows d hd) h.unitWF
  have c2' : DofSpMat.Consistent cdof dofs size (fun d => (Cd d).cols) (unitBlock Cd) :=
    ⟨c2.block, fun r hr c hc => by rw [c2.rows r hr c hc, h.rhsSize r hr], c2.cols, c2.wf⟩
  obtain ⟨C, d1, d2, d3, d4, _⟩ := C04_toEigen_blocks cdof dofs _ _ _ c2'
  obtain ⟨Kf, k1, k2, k3, k4, _⟩ := C04_toEigen_blocks Kmat dofs _ _ _ h.matrix
  exact ⟨cdof, C, Kf, c1, d1, d4, d2, d3, k1, k4, k2, k3, c2'⟩

/-- C17, `Solve`.  Whenever it returns, and the dof types are passed in the order in which `f` stores them: block `d` of the
result is `C_d q_d` for some `q_d` (it satisfies the homogeneous constraints) and the residual `K u - f` is orthogonal to
every admissible variation `C z`.
Missing for the full claim: other orders of the dof types, see `C17_dof_order_counterexample`. -/
theorem C17_solve_partial {bcs : Bcs K} {Kmat : DofSpMat K} {f : DofVec K} {dofs : List Nat} {size : Nat → Nat}
    {kb : Nat → Nat → SpMat K} {fb : Nat → List K} {Cd : Nat → SpMat K}
    (hin : SolveInput bcs Kmat f dofs size kb fb Cd) (lin : SpMat K → List K → Res (List K)) (hlin : LinSolver lin)
    (horder : dofs = f.dofTypes) (res : DofVec K) (h : solve lin bcs Kmat f dofs = .ok res) :
    ∃ u q : Nat → List K, (∀ d ∈ dofs, res.find? d = some (u d) ∧ (u d).length = size d ∧
        (Cd d).mulVec (q d) = .ok (u d)) ∧
      (∀ d, d ∉ dofs → res.find? d = none) ∧
      ∀ z w : Nat → List K, (∀ d ∈ dofs, (Cd d).mulVec (z d) = .ok (w d)) →
        (dofs.map fun d => ∑ i ∈ Finset.range (size d),
          (w d).getD i 0 * (blockMul kb size dofs u d i - (fb d).getD i 0)).sum = 0 := by
  obtain ⟨cdof, C, Kf, c1, c2, c3, c4, c5, k1, k2, k3, k4, c6⟩ := hin.size_of_fb
  unfold solve at h
  rw [k1, Res.bind_ok', DofVec.toEigen_eq f fb dofs hin.rhs, Res.bind_ok', c1, Res.bind_ok', c2, Res.bind_ok'] at h
  obtain ⟨a, ha, h⟩ := Res.bind_eq_ok h
  obtain ⟨Kmod, hK, h⟩ := Res.bind_eq_ok h
  obtain ⟨fmod, hf, h⟩ := Res.bind_eq_ok h
  obtain ⟨x, hx, h⟩ := Res.bind_eq_ok h
  obtain ⟨ufl, hu, h⟩ := Res.bind_eq_ok h
  have hs := hlin _ _ _ hx
  obtain ⟨q, rfl, hq⟩ := exists_blocks (fun d => (Cd d).cols) dofs hin.nodup x
    (by rw [(SpMat.mulVec_eq_ok c3 hu).1, c5])
  have hz : ∀ d, ∃ w, d ∈ dofs → (Cd d).mulVec (q d) = .ok w := by
    intro d
    by_cases hd : d ∈ dofs
    · obtain ⟨w, hw⟩ := SpMat.mulVec_ok (Cd d) (q d) (hq d hd)
      exact ⟨w, fun _ => hw⟩
    · exact ⟨[], fun h => absurd h hd⟩
  choose u hu' using hz
  have hul : ∀ d ∈ dofs, (u d).length = size d := fun d hd => by
    rw [(SpMat.mulVec_eq_ok (hin.unitWF d hd) (hu' d hd)).2.1, hin.unitRows d hd]
  have hflat := unit_mul Cd size dofs cdof C hin.unitRows hin.unitWF hin.nodup c6 c2 q u hu'
  rw [hflat] at hu
  simp only [Res.ok.injEq] at hu
  subst hu
  rw [← horder] at h
  obtain ⟨r, r1, r2, r3⟩ := C02_roundtrip (dofs.map fun d => (d, u d)) f dofs (dofs.flatMap u)
    (DofVec.toEigen_eq _ u dofs (fun d hd => find?_mapKey dofs u d hd))
    (fun d hd => ⟨u d, fb d, find?_mapKey dofs u d hd, hin.rhs d hd, by rw [hul d hd, hin.rhsSize d hd]⟩)
  rw [r1] at h
  simp only [Res.ok.injEq] at h
  subst h
  refine ⟨u, q, fun d hd => ⟨by rw [r2 d hd, find?_mapKey dofs u d hd], hul d hd, hu' d hd⟩, ?_, ?_⟩
  · intro d hd
    rw [r3 d hd]
    rw [horder] at hd
    cases hfd : f.find? d with
    | none => rfl
    | some v => exact absurd (List.mem_map.mpr ⟨_, OMap.mem_of_find? hfd, rfl⟩) hd
  · intro z w hzw
    obtain ⟨kw, e1, e2⟩ := orth_flat c3 k2 ha hK hf hs hflat
    have e3 := e2 _ _ (unit_mul Cd size dofs cdof C hin.unitRows hin.unitWF hin.nodup c6 c2 z w hzw)
    obtain ⟨y, y1, y2, y3⟩ := flat_mul kb size dofs Kmat Kf hin.matrix k1 u hul
    rw [e1] at y1
    simp only [Res.ok.injEq] at y1
    subst y1
    rw [c4] at e3
    refine Eq.trans (Eq.symm ?_) e3
    refine (sum_flat size dofs _ (fun d i => (w d).getD i 0 * (blockMul kb size dofs u d i - (fb d).getD i 0)) ?_)
    intro p i hp hi
    have hwl : ∀ d ∈ dofs, (w d).length = size d := fun d hd => by
      rw [(SpMat.mulVec_eq_ok (hin.unitWF d hd) (hzw d hd)).2.1, hin.unitRows d hd]
    rw [y3 p i hp hi, flat_getD size dofs w hwl p i hp hi, flat_getD size dofs fb hin.rhsSize p i hp hi]

/-- C17, `SolveTrialState`.  The returned blocks are `u_d = C_d q_d - (b_d(t1) - b_d(t0))`: the *negative* increment satisfies
the incremental constraints, and `K u - f` is orthogonal to every admissible variation.
Missing for the full claim: other orders of the dof types. -/
theorem C17_trialState_partial {bcs : Bcs K} {Kmat : DofSpMat K} {f : DofVec K} {dofs : List Nat} {size : Nat → Nat}
    {kb : Nat → Nat → SpMat K} {fb : Nat → List K} {Cd : Nat → SpMat K}
    (hin : SolveInput bcs Kmat f dofs size kb fb Cd) (lin : SpMat K → List K → Res (List K)) (hlin : LinSolver lin)
    (t0 t1 : K) (b0 b1 : Nat → List K)
    (hb0 : ∀ d ∈ dofs, bcs.rhs d (size d) t0 = .ok (b0 d) ∧ (b0 d).length = size d)
    (hb1 : ∀ d ∈ dofs, bcs.rhs d (size d) t1 = .ok (b1 d) ∧ (b1 d).length = size d)
    (horder : dofs = f.dofTypes) (res : DofVec K) (h : solveTrialState lin bcs Kmat f t0 t1 dofs = .ok res) :
    ∃ u q y : Nat → List K, (∀ d ∈ dofs, res.find? d = some (u d) ∧ (u d).length = size d ∧
        (Cd d).mulVec (q d) = .ok (y d) ∧
        ∀ i, i < size d → (u d).getD i 0 = (y d).getD i 0 - ((b1 d).getD i 0 - (b0 d).getD i 0)) ∧
      (∀ d, d ∉ dofs → res.find? d = none) ∧
      ∀ z w : Nat → List K, (∀ d ∈ dofs, (Cd d).mulVec (z d) = .ok (w d)) →
        (dofs.map fun d => ∑ i ∈ Finset.range (size d),
          (w d).getD i 0 * (blockMul kb size dofs u d i - (fb d).getD i 0)).sum = 0 := by
  obtain ⟨cdof, C, Kf, c1, c2, c3, c4, c5, k1, k2, k3, k4, c6⟩ := hin.size_of_fb
  unfold solveTrialState at h
  obtain ⟨dv, dv1, dv2, _⟩ := deltaLoop bcs f fb b1 b0 t0 t1 dofs hin.nodup hin.rhs
    (fun d hd => by rw [hin.rhsSize d hd]; exact (hb1 d hd).1) (fun d hd => by rw [hin.rhsSize d hd]; exact (hb0 d hd).1)
    (fun d hd => by rw [hin.rhsSize d hd]; exact (hb1 d hd).2) (fun d hd => by rw [hin.rhsSize d hd]; exact (hb0 d hd).2)
    (DofVec.setZero f) (fun d hd => by
      unfold DofVec.setZero
      rw [OMap.find?_map f (fun x : List K => x.map fun _ => (0 : K)) d, hin.rhs d hd]
      rfl)
  rw [k1, Res.bind_ok', DofVec.toEigen_eq f fb dofs hin.rhs, Res.bind_ok', c1, Res.bind_ok', c2, Res.bind_ok', dv1,
    Res.bind_ok'] at h
  obtain ⟨a, ha, h⟩ := Res.bind_eq_ok h
  obtain ⟨Kmod, hK, h⟩ := Res.bind_eq_ok h
  set db : Nat → List K := fun d => List.zipWith (· - ·) (b1 d) (b0 d) with hdb
  have hdbl : ∀ d ∈ dofs, (db d).length = size d := fun d hd => by
    simp [hdb, (hb0 d hd).2, (hb1 d hd).2]
  have hdbi : ∀ d ∈ dofs, ∀ i, i < size d → (db d).getD i 0 = (b1 d).getD i 0 - (b0 d).getD i 0 := by
    intro d hd i hi
    have h0 : i < (b0 d).length := by rw [(hb0 d hd).2]; exact hi
    have h1 : i < (b1 d).length := by rw [(hb1 d hd).2]; exact hi
    simp [hdb, List.getD_eq_getElem?_getD, h0, h1]
  rw [DofVec.toEigen_eq dv db dofs dv2, Res.bind_ok'] at h
  obtain ⟨kdb, hkdb, h⟩ := Res.bind_eq_ok h
  obtain ⟨g, hg, h⟩ := Res.bind_eq_ok h
  obtain ⟨fmod, hf, h⟩ := Res.bind_eq_ok h
  obtain ⟨x, hx, h⟩ := Res.bind_eq_ok h
  obtain ⟨yfl, hy, h⟩ := Res.bind_eq_ok h
  obtain ⟨ufl, hu, h⟩ := Res.bind_eq_ok h
  have hs := hlin _ _ _ hx
  obtain ⟨q, rfl, hq⟩ := exists_blocks (fun d => (Cd d).cols) dofs hin.nodup x
    (by rw [(SpMat.mulVec_eq_ok c3 hy).1, c5])
  have hz : ∀ d, ∃ w, d ∈ dofs → (Cd d).mulVec (q d) = .ok w := by
    intro d
    by_cases hd : d ∈ dofs
    · obtain ⟨w, hw⟩ := SpMat.mulVec_ok (Cd d) (q d) (hq d hd)
      exact ⟨w, fun _ => hw⟩
    · exact ⟨[], fun h => absurd h hd⟩
  choose y hy' using hz
  have hyl : ∀ d ∈ dofs, (y d).length = size d := fun d hd => by
    rw [(SpMat.mulVec_eq_ok (hin.unitWF d hd) (hy' d hd)).2.1, hin.unitRows d hd]
  have hflat := unit_mul Cd size dofs cdof C hin.unitRows hin.unitWF hin.nodup c6 c2 q y hy'
  rw [hflat] at hy
  simp only [Res.ok.injEq] at hy
  subst hy
  unfold vecSub at hu
  obtain ⟨_, hu⟩ := Res.require_eq_ok hu
  simp only [Res.ok.injEq] at hu
  subst hu
  set u : Nat → List K := fun d => List.zipWith (· - ·) (y d) (db d) with hudef
  have hul : ∀ d ∈ dofs, (u d).length = size d := fun d hd => by simp [hudef, hyl d hd, hdbl d hd]
  have hui : ∀ d ∈ dofs, ∀ i, i < size d → (u d).getD i 0 = (y d).getD i 0 - (db d).getD i 0 := by
    intro d hd i hi
    have h0 : i < (y d).length := by rw [hyl d hd]; exact hi
    have h1 : i < (db d).length := by rw [hdbl d hd]; exact hi
    simp [hudef, List.getD_eq_getElem?_getD, h0, h1]
  have hsub : List.zipWith (· - ·) (dofs.flatMap y) (dofs.flatMap db) = dofs.flatMap u := by
    apply eq_flatMap size dofs hin.nodup u hul
    · rw [List.length_zipWith, flat_length size dofs y hyl, flat_length size dofs db hdbl, Nat.min_self]
    · intro p i hp hi
      have hd : dofs[p] ∈ dofs := List.getElem_mem hp
      rw [hui _ hd i hi, ← flat_getD size dofs y hyl p i hp hi, ← flat_getD size dofs db hdbl p i hp hi]
      have hlt : blockOffset size dofs p + i < (dofs.map size).sum := blockOffset_lt size dofs p i hp hi
      have h0 : blockOffset size dofs p + i < (dofs.flatMap y).length := by rw [flat_length size dofs y hyl]; exact hlt
      have h1 : blockOffset size dofs p + i < (dofs.flatMap db).length := by rw [flat_length size dofs db hdbl]; exact hlt
      simp only [List.getD_eq_getElem?_getD, List.getElem?_zipWith, List.getElem?_eq_getElem h0,
        List.getElem?_eq_getElem h1, Option.getD_some]
  rw [← horder, hsub] at h
  obtain ⟨r, r1, r2, r3⟩ := C02_roundtrip (dofs.map fun d => (d, u d)) f dofs (dofs.flatMap u)
    (DofVec.toEigen_eq _ u dofs (fun d hd => find?_mapKey dofs u d hd))
    (fun d hd => ⟨u d, fb d, find?_mapKey dofs u d hd, hin.rhs d hd, by rw [hul d hd, hin.rhsSize d hd]⟩)
  rw [r1] at h
  simp only [Res.ok.injEq] at h
  subst h
  refine ⟨u, q, y, fun d hd => ⟨by rw [r2 d hd, find?_mapKey dofs u d hd], hul d hd, hy' d hd, fun i hi => by
    rw [hui d hd i hi, hdbi d hd i hi]⟩, ?_, ?_⟩
  · intro d hd
    rw [r3 d hd]
    rw [horder] at hd
    cases hfd : f.find? d with
    | none => rfl
    | some v => exact absurd (List.mem_map.mpr ⟨_, OMap.mem_of_find? hfd, rfl⟩) hd
  · intro z w hzw
    obtain ⟨kw, e1, e2⟩ := orth_flat c3 k2 ha hK hf hs hflat
    have e3 := e2 _ _ (unit_mul Cd size dofs cdof C hin.unitRows hin.unitWF hin.nodup c6 c2 z w hzw)
    obtain ⟨ky, y1, y2, y3⟩ := flat_mul kb size dofs Kmat Kf hin.matrix k1 y hyl
    rw [e1] at y1
    simp only [Res.ok.injEq] at y1
    subst y1
    obtain ⟨kd, d1, d2, d3⟩ := flat_mul kb size dofs Kmat Kf hin.matrix k1 db hdbl
    rw [hkdb] at d1
    simp only [Res.ok.injEq] at d1
    subst d1
    unfold vecAdd at hg
    obtain ⟨hgl, hg⟩ := Res.require_eq_ok hg
    simp only [Res.ok.injEq] at hg
    subst hg
    rw [c4] at e3
    refine Eq.trans (Eq.symm ?_) e3
    refine (sum_flat size dofs _ (fun d i => (w d).getD i 0 * (blockMul kb size dofs u d i - (fb d).getD i 0)) ?_)
    intro p i hp hi
    have hwl : ∀ d ∈ dofs, (w d).length = size d := fun d hd => by
      rw [(SpMat.mulVec_eq_ok (hin.unitWF d hd) (hzw d hd)).2.1, hin.unitRows d hd]
    have hlt : blockOffset size dofs p + i < (dofs.map size).sum := blockOffset_lt size dofs p i hp hi
    have h0 : blockOffset size dofs p + i < (dofs.flatMap fb).length := by
      rw [flat_length size dofs fb hin.rhsSize]; exact hlt
    have h1 : blockOffset size dofs p + i < kdb.length := by rw [d2]; exact hlt
    have hadd : (List.zipWith (· + ·) (dofs.flatMap fb) kdb).getD (blockOffset size dofs p + i) 0 =
        (dofs.flatMap fb).getD (blockOffset size dofs p + i) 0 + kdb.getD (blockOffset size dofs p + i) 0 := by
      simp only [List.getD_eq_getElem?_getD, List.getElem?_zipWith, List.getElem?_eq_getElem h0,
        List.getElem?_eq_getElem h1, Option.getD_some]
    have hlin2 : blockMul kb size dofs u dofs[p] i = blockMul kb size dofs y dofs[p] i - blockMul kb size dofs db dofs[p] i := by
      unfold blockMul
      rw [← Fin.sum_univ_fun_getElem, ← Fin.sum_univ_fun_getElem, ← Fin.sum_univ_fun_getElem, ← Finset.sum_sub_distrib]
      apply Finset.sum_congr rfl
      intro e _
      rw [← Finset.sum_sub_distrib]
      apply Finset.sum_congr rfl
      intro j hj
      rw [hui _ (List.getElem_mem e.2) j (Finset.mem_range.mp hj)]
      ring
    rw [y3 p i hp hi, flat_getD size dofs w hwl p i hp hi, hadd, flat_getD size dofs fb hin.rhsSize p i hp hi,
      d3 p i hp hi]
    simp only [hlin2]
    ring

section
variable [LinearOrder K]

theorem Equation.lhs_sub (num : Term K → Nat) (v w : Nat → K) (e : Equation K) :
    e.lhs num (fun i => v i - w i) = e.lhs num v - e.lhs num w := by
  unfold Equation.lhs
  have : ∀ l : List (Term K), (l.map fun t => t.coef * (v (num t) - w (num t))).sum =
      (l.map fun t => t.coef * v (num t)).sum - (l.map fun t => t.coef * w (num t)).sum := by
    intro l
    induction l with
    | nil => simp
    | cons t l ih => simp only [List.map_cons, List.sum_cons, ih]; ring
  rw [this]
  ring

variable [IsStrictOrderedRing K]

/-- C17 with the real constraint object: the solution of `Solve` satisfies every homogeneous constraint equation. -/
theorem C17_solve_constraints_partial (toFloat : K → K) (st : NodeStore K) (c : Constraints K) {Kmat : DofSpMat K}
    {f : DofVec K} {dofs : List Nat} {size : Nat → Nat} {kb : Nat → Nat → SpMat K} {fb : Nat → List K}
    (num : Term K → Nat) (hn : dofs.Nodup) (hK : DofSpMat.Consistent Kmat dofs size size kb)
    (hf : ∀ d ∈ dofs, f.find? d = some (fb d) ∧ (fb d).length = size d)
    (hv : ∀ d ∈ dofs, Constraints.Valid st (c.equations d) (size d) num)
    (h1 : ∀ d ∈ dofs, ∀ e ∈ c.equations d, e.dep.coef = 1) (ht : ∀ d ∈ dofs, NoTiny (c.equations d))
    (lin : SpMat K → List K → Res (List K)) (hlin : LinSolver lin)
    (horder : dofs = f.dofTypes) (res : DofVec K) (h : solve lin (c.bcs toFloat st) Kmat f dofs = .ok res) :
    ∃ u : Nat → List K, (∀ d ∈ dofs, res.find? d = some (u d)) ∧
      ∀ d ∈ dofs, ∀ e ∈ c.equations d, e.lhs num (fun i => (u d).getD i 0) = 0 := by
  have hg : ∀ d, ∃ C : SpMat K, d ∈ dofs → c.buildUnitConstraintMatrix st d (size d) = .ok C ∧ C.rows = size d ∧ C.WF ∧
      ∀ q y, C.mulVec q = .ok y → ∀ e ∈ c.equations d, e.lhs num (fun i => y.getD i 0) = 0 := by
    intro d
    by_cases hd : d ∈ dofs
    · obtain ⟨C, b, g1, g2, g3, g4, g5, g6, g7⟩ := C09_general_partial toFloat st c d (size d) num 0 (hv d hd) (h1 d hd)
      refine ⟨C, fun _ => ⟨g1, g3, g6, ?_⟩⟩
      intro q y hq e he
      have hql := (SpMat.mulVec_eq_ok g6 hq).1
      obtain ⟨y', y1, _, y3⟩ := g7 q hql
      rw [hq] at y1
      simp only [Res.ok.injEq] at y1
      subst y1
      obtain ⟨y0, z1, _, z3⟩ := g7 (List.replicate C.cols 0) (by simp)
      have hz : ∀ i, y0.getD i 0 = 0 := by
        intro i
        obtain ⟨_, hl, hi⟩ := SpMat.mulVec_eq_ok g6 z1
        by_cases hlt : i < C.rows
        · rw [hi i hlt]
          apply Finset.sum_eq_zero
          intro j hj
          simp [List.getD_eq_getElem?_getD, Finset.mem_range.mp hj]
        · rw [List.getD_eq_getElem?_getD, List.getElem?_eq_none (by omega)]; rfl
      have tiny : ∀ v : Nat → K, ((e.ind.filter fun t => ¬ |t.coef| > 1 / 1000000000000000000).map fun t =>
          t.coef * v (num t)).sum = 0 := by
        intro v
        apply DofSpMat.list_sum_zero
        intro t htm
        have hm := List.mem_filter.mp htm
        rcases ht d hd e he t hm.1 with h0 | h0
        · rw [h0, zero_mul]
        · simp only [not_lt, decide_eq_true_eq] at hm
          exact absurd h0 (not_lt.mpr hm.2)
      have a1 := y3 e he
      have a2 := z3 e he
      rw [tiny (fun i => y.getD i 0 + b.getD i 0)] at a1
      rw [tiny (fun i => y0.getD i 0 + b.getD i 0)] at a2
      have := Equation.lhs_sub num (fun i => y.getD i 0 + b.getD i 0) (fun i => y0.getD i 0 + b.getD i 0) e
      rw [a1, a2, sub_self] at this
      refine Eq.trans ?_ this
      congr 1
      funext i
      rw [hz i]
      ring
    · exact ⟨⟨0, 0, []⟩, fun h => absurd h hd⟩
  choose Cd hCd using hg
  have hin : SolveInput (c.bcs toFloat st) Kmat f dofs size kb fb Cd :=
    ⟨hn, hK, fun d hd => (hf d hd).1, fun d hd => (hf d hd).2, fun d hd => (hCd d hd).1, fun d hd => (hCd d hd).2.1,
      fun d hd => (hCd d hd).2.2.1⟩
  obtain ⟨u, q, h1, _⟩ := C17_solve_partial hin lin hlin horder res h
  exact ⟨u, fun d hd => (h1 d hd).1, fun d hd => (hCd d hd).2.2.2 _ _ (h1 d hd).2.2⟩

end

/-- a solver for systems with identity matrix -/
def exLin (A : SpMat ℚ) (b : List ℚ) : Res (List ℚ) := if A.mulVec b = .ok b then .ok b else .throw
theorem exLin_ok : LinSolver exLin := by
  intro A b x h
  unfold exLin at h
  split at h
  · rename_i h'; simp only [Res.ok.injEq] at h; subst h; exact h'
  · simp at h

def exI1 : SpMat ℚ := ⟨1, 1, [⟨0, 0, 1⟩]⟩
def exZ1 : SpMat ℚ := ⟨1, 1, []⟩
/-- no constraints -/
def exBcs : Bcs ℚ := ⟨fun _ _ => .ok exI1, fun _ _ t => .ok [t]⟩
/-- identity for two dof types with one dof each -/
def exK17 : DofSpMat ℚ := [(toLex (0, 0), exI1), (toLex (0, 1), exZ1), (toLex (1, 0), exZ1), (toLex (1, 1), exI1)]
def exF17 : DofVec ℚ := [(0, [1]), (1, [2])]
def exFb17 : Nat → List ℚ := fun d => if d = 0 then [1] else [2]
def exKb17 : Nat → Nat → SpMat ℚ := fun r c => if r = c then exI1 else exZ1

theorem exIn17 (dofs : List Nat) (h : dofs = [0, 1] ∨ dofs = [1, 0]) :
    SolveInput exBcs exK17 exF17 dofs (fun _ => 1) exKb17 exFb17 (fun _ => exI1) := by
  have hm : ∀ d ∈ dofs, d = 0 ∨ d = 1 := by rcases h with rfl | rfl <;> simp
  have hI : exI1.WF := by intro t ht; simp only [exI1, List.mem_singleton] at ht; subst ht; simp [exI1]
  have hZ : exZ1.WF := by intro t ht; cases ht
  refine ⟨by rcases h with rfl | rfl <;> decide, ⟨?_, ?_, ?_, ?_⟩, ?_, ?_, ?_, ?_, ?_⟩
  · intro r hr c hc
    rcases hm r hr with rfl | rfl <;> rcases hm c hc with rfl | rfl <;> decide +kernel
  · intro r hr c hc; unfold exKb17; split <;> rfl
  · intro r hr c hc; unfold exKb17; split <;> rfl
  · intro r hr c hc; unfold exKb17; split <;> assumption
  · intro d hd; rcases hm d hd with rfl | rfl <;> decide +kernel
  · intro d hd; rcases hm d hd with rfl | rfl <;> rfl
  · intro d hd; rfl
  · intro d hd; rfl
  · intro d hd; exact hI

/-- C17 counterexample: with the dof types given as `[1, 0]` the solution blocks are stored under the wrong dof type (the
list `f.DofTypes()` instead of `dofs` is used when reading back): `K = 1`, `f = (1, 2)`, but the result is `(2, 1)` and the
residual is not orthogonal to the admissible variation `(1, 0)`. -/
theorem C17_dof_order_counterexample :
    solve exLin exBcs exK17 exF17 [1, 0] = .ok [(0, [2]), (1, [1])] ∧
    ¬ ∀ z w : Nat → List ℚ, (∀ d ∈ [1, 0], exI1.mulVec (z d) = .ok (w d)) →
        ([1, 0].map fun d => ∑ i ∈ Finset.range 1, (w d).getD i 0 *
          (blockMul exKb17 (fun _ => 1) [1, 0] (fun d => if d = 0 then [2] else [1]) d i - (exFb17 d).getD i 0)).sum = 0 := by
  refine ⟨by decide +kernel, ?_⟩
  intro h
  have h0 := h (fun d => if d = 0 then [1] else [0]) (fun d => if d = 0 then [1] else [0]) (by
    intro d hd
    have : d = 1 ∨ d = 0 := by simpa using hd
    rcases this with rfl | rfl <;> decide +kernel)
  revert h0
  decide +kernel

/-- the hypotheses of the C17 theorems are met by this system, and the call returns -/
example : SolveInput exBcs exK17 exF17 [0, 1] (fun _ => 1) exKb17 exFb17 (fun _ => exI1) ∧ LinSolver exLin ∧
    [0, 1] = exF17.dofTypes ∧ solve exLin exBcs exK17 exF17 [0, 1] = .ok [(0, [1]), (1, [2])] ∧
    solveTrialState exLin exBcs exK17 exF17 0 1 [0, 1] = .ok [(0, [1]), (1, [2])] :=
  ⟨exIn17 _ (.inl rfl), exLin_ok, rfl, by decide +kernel, by decide +kernel⟩

/-- the hypotheses of `C17_solve_constraints_partial` are met by three dofs with `u0 + 2 u2 = 0`, `K = 1`, `f = (0, 3, 5)`:
the solution is `(-2, 3, 1)` -/
example : ∃ (lin : SpMat ℚ → List ℚ → Res (List ℚ)) (I3 : SpMat ℚ), LinSolver lin ∧
    DofSpMat.Consistent [(toLex (0, 0), I3)] [0] (fun _ => 3) (fun _ => 3) (fun _ _ => I3) ∧
    (∀ d ∈ [0], Constraints.Valid exStore9 ((exC9 2 5).equations d) 3 (fun t => t.comp.toNat)) ∧
    (∀ d ∈ [0], NoTiny ((exC9 2 5).equations d)) ∧
    solve lin ((exC9 2 5).bcs id exStore9) [(toLex (0, 0), I3)] [(0, [0, 3, 5])] [0] = .ok [(0, [-2, 3, 1])] := by
  refine ⟨fun A b => if A.mulVec [3, 1] = .ok b then .ok [3, 1] else .throw,
    ⟨3, 3, [⟨0, 0, 1⟩, ⟨1, 1, 1⟩, ⟨2, 2, 1⟩]⟩, ?_, ?_, ?_, ?_, by decide +kernel⟩
  · intro A b x h
    simp only at h
    split at h
    · rename_i h'; simp only [Res.ok.injEq] at h; subst h; exact h'
    · simp at h
  · refine ⟨?_, ?_, ?_, ?_⟩
    · intro r hr c hc
      simp only [List.mem_singleton] at hr hc; subst hr; subst hc; decide +kernel
    · intros; rfl
    · intros; rfl
    · intro r _ c _ t ht
      simp only [List.mem_cons, List.not_mem_nil, or_false] at ht
      rcases ht with rfl | rfl | rfl <;> simp
  · intro d hd
    simp only [List.mem_singleton] at hd; subst hd; exact exC9_valid 2 5
  · intro d hd e he t ht
    simp only [List.mem_singleton] at hd; subst hd
    simp [exC9, Constraints.equations, OMap.find?] at he; subst he
    simp at ht; subst ht
    right; norm_num [abs_of_pos]

end NuTo
