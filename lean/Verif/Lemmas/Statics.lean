/-
Lemmas for C101: the block that the assembler delivers is well-formed, and the unit constraint matrix spans exactly the
vectors that satisfy the homogeneous constraints.
-/
import Verif.Props.Stiffness
import Verif.Props.Solve
import Mathlib.LinearAlgebra.FiniteDimensional.Basic
import Mathlib.LinearAlgebra.Pi

namespace NuTo

open Assembly Finset

namespace Statics

theorem assemble_wf {s : DofSizes} {dof n : Nat} {f : FemElement ℝ → IpData → Res (DofDMat ℝ)}
    {threads : List (List (Cell × FemElement ℝ))} {h : DofSpMat ℝ} (hs : s.size dof = .ok n)
    (ha : Balance.assembleMatrix s dof f threads = .ok h) {m : SpMat ℝ} (hm : h.find? (toLex (dof, dof)) = some m) :
    m.WF := by
  unfold Balance.assembleMatrix at ha
  obtain ⟨ts, _, ha⟩ := Res.bind_eq_ok ha
  unfold buildMatrix throwOnZero at ha
  split at ha
  · obtain ⟨t, _, ha⟩ := Res.bind_eq_ok ha
    simp only [pairs, List.flatMap_cons, List.flatMap_nil, List.map_cons, List.map_nil, List.append_nil, Res.foldlM_cons,
      hessianStep, hs, Res.bind_ok'] at ha
    obtain ⟨h', ha, hb⟩ := Res.bind_eq_ok ha
    obtain ⟨m', hm', ha⟩ := Res.bind_eq_ok ha
    obtain rfl := Res.ok.inj ha
    have hb : h = OMap.set [] (toLex (dof, dof)) m' := (Res.ok.inj hb).symm
    subst hb
    obtain rfl : m' = m := by simpa [OMap.set, OMap.find?] using hm
    unfold SpMat.setFromTriplets at hm'
    obtain ⟨hw, hm'⟩ := Res.require_eq_ok hm'
    obtain rfl := Res.ok.inj hm'
    exact hw
  · cases ha

theorem consistent_single {h : DofSpMat ℝ} {dof n : Nat} {m : SpMat ℝ} (hm : h.find? (toLex (dof, dof)) = some m)
    (hr : m.rows = n) (hc : m.cols = n) (hw : m.WF) :
    DofSpMat.Consistent h [dof] (fun _ => n) (fun _ => n) (fun _ _ => m) := by
  refine ⟨?_, fun _ _ _ _ => hr, fun _ _ _ _ => hc, fun _ _ _ _ => hw⟩
  intro r hr c hc
  obtain rfl := List.mem_singleton.1 hr
  obtain rfl := List.mem_singleton.1 hc
  simp [DofSpMat.at2, OMap.at', hm]

theorem lhs_add (num : Term ℝ → Nat) (v w : Nat → ℝ) (e : Equation ℝ) :
    e.lhs num (fun i => v i + w i) = e.lhs num v + e.lhs num w := by
  have := Equation.lhs_sub num (fun i => v i + w i) w e
  simp only [add_sub_cancel_right] at this
  linarith

/-- The unit constraint matrix: its image are the vectors that satisfy the homogeneous constraints, and it is injective. -/
theorem unit_spec (st : NodeStore ℝ) (c : Constraints ℝ) (dof n : Nat) (num : Term ℝ → Nat)
    (hv : Constraints.Valid st (c.equations dof) n num) (h1 : ∀ e ∈ c.equations dof, e.dep.coef = 1)
    (ht : NoTiny (c.equations dof)) :
    ∃ C : SpMat ℝ, c.buildUnitConstraintMatrix st dof n = .ok C ∧ C.rows = n ∧ C.WF ∧
      (∀ w : List ℝ, w.length = n →
        ((∀ e ∈ c.equations dof, e.lhs num (fun i => w.getD i 0) = 0) ↔ ∃ q, C.mulVec q = .ok w)) ∧
      ∀ q q' y : List ℝ, C.mulVec q = .ok y → C.mulVec q' = .ok y → q = q' := by
  obtain ⟨C, b, g1, g2, g3, g4, g5, g6⟩ := C09_satisfies_constraints_partial id st c dof n num 0 hv h1 ht (fun _ _ => rfl)
  obtain ⟨C', b', g1', _, _, _, _, hw, _⟩ := C09_general_partial id st c dof n num 0 hv h1
  obtain rfl : C = C' := Res.ok.inj (g1.symm.trans g1')
  -- the right-hand side alone satisfies the constraints
  have hb : ∀ e ∈ c.equations dof, e.lhs num (fun i => b.getD i 0) = e.rhs 0 := by
    intro e he
    obtain ⟨y0, z1, _, z3⟩ := g6 (List.replicate C.cols 0) (by simp)
    have hz : ∀ i, y0.getD i 0 = 0 := by
      intro i
      obtain ⟨_, hl, hi⟩ := SpMat.mulVec_eq_ok hw z1
      by_cases hlt : i < C.rows
      · rw [hi i hlt]
        refine sum_eq_zero fun j hj => ?_
        simp [List.getD_eq_getElem?_getD, mem_range.mp hj]
      · rw [List.getD_eq_getElem?_getD, List.getElem?_eq_none (by omega)]; rfl
    have := z3 e he
    simpa only [hz, zero_add] using this
  have key : ∀ w : List ℝ, w.length = n → (∀ e ∈ c.equations dof, e.lhs num (fun i => w.getD i 0) = 0) →
      ∃ q₀ : List ℝ, q₀.length = C.cols ∧ ∀ q : List ℝ, q.length = C.cols → (C.mulVec q = .ok w ↔ q = q₀) := by
    intro w hwl h0
    obtain ⟨u, hu⟩ : ∃ u : List ℝ, u = (List.range n).map fun i => w.getD i 0 + b.getD i 0 := ⟨_, rfl⟩
    have hui : ∀ i < n, u.getD i 0 = w.getD i 0 + b.getD i 0 := by
      intro i hi
      rw [hu, List.getD_eq_getElem _ _ (by simpa using hi)]
      simp
    have hsat : ∀ e ∈ c.equations dof, e.lhs num (fun i => u.getD i 0) = e.rhs 0 := by
      intro e he
      have h2 := lhs_add num (fun i => w.getD i 0) (fun i => b.getD i 0) e
      rw [h0 e he, hb e he, zero_add] at h2
      rw [← h2]
      simp only [Equation.lhs]
      rw [hui _ (hv.numbered e he e.dep (by simp)).2]
      congr 2
      refine List.map_congr_left fun t ht => ?_
      rw [hui _ (hv.numbered e he t (by simp [ht])).2]
    obtain ⟨C₁, b₁, k1, k2, free, k3, k4, k5⟩ := C10_complete_partial id st c dof n num 0 hv h1 ht (fun _ _ => rfl) u hsat
    obtain rfl : C = C₁ := Res.ok.inj (g1.symm.trans k1)
    obtain rfl : b = b₁ := Res.ok.inj (g2.symm.trans k2)
    have hperm : free.Perm (Constraints.indeps num (c.equations dof) n) := by
      refine (List.perm_ext_iff_of_nodup (k4.imp fun h => h.ne) ?_).2 fun g => ?_
      · unfold Constraints.indeps
        exact List.nodup_range.filter _
      · rw [k3, Constraints.mem_indeps]
    refine ⟨free.map fun g => u.getD g 0, by rw [List.length_map, hperm.length_eq, hv.length_indeps, g4], fun q hq => ?_⟩
    rw [← k5 q hq]
    obtain ⟨y, y1, y2, _⟩ := g6 q hq
    constructor
    · intro h
      exact ⟨w, h, fun i hi => (hui i hi).symm⟩
    · rintro ⟨y', y1', y2'⟩
      rw [y1]
      obtain rfl : y = y' := Res.ok.inj (y1.symm.trans y1')
      congr 1
      refine List.ext_getElem (by rw [y2, hwl]) fun i h1 h2 => ?_
      have := y2' i (by omega)
      rw [hui i (by omega), List.getD_eq_getElem y _ h1, List.getD_eq_getElem w _ h2] at this
      linarith
  have img : ∀ q y : List ℝ, C.mulVec q = .ok y → y.length = n ∧
      ∀ e ∈ c.equations dof, e.lhs num (fun i => y.getD i 0) = 0 := by
    intro q y hq
    obtain ⟨y', y1, y2, y3⟩ := g6 q (SpMat.mulVec_eq_ok hw hq).1
    obtain rfl : y = y' := Res.ok.inj (hq.symm.trans y1)
    refine ⟨y2, fun e he => ?_⟩
    have h2 := lhs_add num (fun i => y.getD i 0) (fun i => b.getD i 0) e
    rw [y3 e he, hb e he] at h2
    linarith
  refine ⟨C, g1, g3, hw, fun w hwl => ⟨fun h0 => ?_, ?_⟩, fun q q' y hq hq' => ?_⟩
  · obtain ⟨q, h2, h3⟩ := key w hwl h0
    exact ⟨q, (h3 q h2).2 rfl⟩
  · rintro ⟨q, hq⟩
    exact (img q w hq).2
  · obtain ⟨hl, h0⟩ := img q y hq
    obtain ⟨q₀, _, h3⟩ := key y hl h0
    rw [(h3 q (SpMat.mulVec_eq_ok hw hq).1).1 hq, (h3 q' (SpMat.mulVec_eq_ok hw hq').1).1 hq']

/-- A square matrix whose quadratic form is definite has a solution for every right-hand side. -/
theorem solvable (A : SpMat ℝ) (hw : A.WF) (hsq : A.rows = A.cols)
    (hpos : ∀ x y : List ℝ, A.mulVec x = .ok y → ∑ i ∈ range A.cols, x.getD i 0 * y.getD i 0 = 0 → ∀ i < A.cols, x.getD i 0 = 0)
    (b : List ℝ) (hb : b.length = A.rows) : ∃ x, A.mulVec x = .ok b := by
  let L : (Fin A.cols → ℝ) →ₗ[ℝ] (Fin A.cols → ℝ) :=
    { toFun := fun x i => ∑ j : Fin A.cols, A.entry i j * x j
      map_add' := fun x y => by
        funext i
        simp [mul_add, Finset.sum_add_distrib]
      map_smul' := fun r x => by
        funext i
        simp only [Pi.smul_apply, smul_eq_mul, RingHom.id_apply, Finset.mul_sum]
        exact Finset.sum_congr rfl fun j _ => by ring }
  have hL : ∀ (x : List ℝ) (y : List ℝ), A.mulVec x = .ok y → ∀ i : Fin A.cols, L (fun j => x.getD j 0) i = y.getD i 0 := by
    intro x y h i
    obtain ⟨_, _, h3⟩ := SpMat.mulVec_eq_ok hw h
    rw [h3 i (by rw [hsq]; exact i.2)]
    exact Fin.sum_univ_eq_sum_range (fun j => A.entry i j * x.getD j 0) A.cols
  have hof : ∀ x : Fin A.cols → ℝ, ∀ i : Fin A.cols, (List.ofFn x).getD i 0 = x i := by
    intro x i
    rw [List.getD_eq_getElem _ _ (by simp)]
    simp
  have hinj : Function.Injective L := by
    rw [injective_iff_map_eq_zero]
    intro x hx
    obtain ⟨y, hy⟩ := SpMat.mulVec_ok A (List.ofFn x) (by simp)
    have h1 := hL _ _ hy
    simp only [hof] at h1
    have h2 : ∀ i < A.cols, y.getD i 0 = 0 := by
      intro i hi
      rw [← h1 ⟨i, hi⟩]
      exact congrFun hx _
    have h3 := hpos _ _ hy (sum_eq_zero fun i hi => by rw [h2 i (mem_range.1 hi), mul_zero])
    funext i
    rw [← hof x i]
    exact h3 i i.2
  obtain ⟨x, hx⟩ := LinearMap.surjective_of_injective hinj fun i => b.getD i 0
  obtain ⟨y, hy⟩ := SpMat.mulVec_ok A (List.ofFn x) (by simp)
  refine ⟨List.ofFn x, ?_⟩
  rw [hy]
  congr 1
  have hyl := (SpMat.mulVec_eq_ok hw hy).2.1
  refine List.ext_getElem (by rw [hyl, hb]) fun i h1 h2 => ?_
  have h3 := hL _ _ hy ⟨i, by rw [← hsq, ← hb]; exact h2⟩
  simp only [hof] at h3
  have h4 := congrFun hx ⟨i, by rw [← hsq, ← hb]; exact h2⟩
  rw [← List.getD_eq_getElem y 0 h1, ← List.getD_eq_getElem b 0 h2, ← h3]
  exact h4

end Statics

end NuTo
