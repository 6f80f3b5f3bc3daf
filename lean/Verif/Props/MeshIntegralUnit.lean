/-
C116: integrating a function of the position over the cells of a mesh gives the integral over the meshed domain: the structured meshes of the
unit line, square and cube.
-/
import Verif.Props.MeshIntegralShapes
import Verif.Props.UnitMesh
import Verif.Props.UnitMeshBricks

namespace NuTo

open Finset MeasureTheory RuleFactory SimplexRule

namespace MeshIntegral

/-- one cell per element, all with the same rule -/
noncomputable def meshCells (m : UnitMesh ℝ) (I : Interpolation ℝ) (rule : List (ℝ × List ℝ)) : List Cell :=
  (List.range m.elements.length).map fun e : Nat => ⟨(e : Int), ⟨nodesAt (m.elemCoords e), I⟩, rule⟩

theorem meshCells_length (m : UnitMesh ℝ) (I : Interpolation ℝ) (rule : List (ℝ × List ℝ)) : (meshCells m I rule).length = m.elements.length := by
  simp [meshCells]

theorem meshCells_get (m : UnitMesh ℝ) (I : Interpolation ℝ) (rule : List (ℝ × List ℝ)) (e : Nat) (h : e < (meshCells m I rule).length) :
    (meshCells m I rule)[e] = ⟨e, ⟨nodesAt (m.elemCoords e), I⟩, rule⟩ := by
  simp [meshCells]

theorem zipWith_sum {α : Type} (f : α → List ℝ → ℝ) (l : List α) (cs : List (List ℝ)) (z : α) (n : Nat) (h1 : l.length = n) (h2 : cs.length = n) :
    (List.zipWith f l cs).sum = ∑ i ∈ range n, f (l.getD i z) (cs.getD i []) := by
  induction l generalizing cs n with
  | nil =>
    subst h1
    simp
  | cons a t ih =>
    cases cs with
    | nil => simp only [List.length_nil, List.length_cons] at h1 h2; omega
    | cons c cs =>
      subst h1
      rw [List.zipWith_cons_cons, List.sum_cons, List.length_cons, sum_range_succ', ih cs t.length rfl (by simpa using h2)]
      simp [add_comm]

theorem point_position {d : Nat} (I : Interpolation ℝ) (pts : List (List ℝ)) (hF : Full I pts) (ξ : Fin d → ℝ) (a : Fin d) :
    point I pts ξ a = I.position pts (ext ξ) a := by
  rw [Interpolation.position, zipWith_sum _ _ _ 0 I.numNodes (hF.unity.shapeLen _) hF.count]
  rfl

theorem jac_jacobian {d : Nat} (I : Interpolation ℝ) (pts : List (List ℝ)) (hF : Full I pts) (ξ : Fin d → ℝ) (a j : Fin d) :
    jac I pts ξ a j = I.jacobian pts (ext ξ) a j := by
  rw [Interpolation.jacobian, zipWith_sum _ _ _ [] I.numNodes (hF.unity.derivLen _) hF.count, jac, Matrix.of_apply]
  exact sum_congr rfl fun i _ => mul_comm _ _

theorem image_volume {d : Nat} (I : Interpolation ℝ) (hI : I ∈ polynomialTypes) (pts : List (List ℝ)) (hd : I.dim = d)
    (A : Matrix (Fin d) (Fin d) ℝ) (hjac : ∀ ξ : Fin d → ℝ, jac I pts ξ = A) (hA : 0 < A.det) (S : Set (Fin d → ℝ)) (hS : MeasurableSet S)
    (hinj : Set.InjOn (point I pts) S) :
    MeasurableSet (point I pts '' S) ∧ volume (point I pts '' S) = ENNReal.ofReal A.det * volume S := by
  subst hd
  have hder : ∀ ξ ∈ S, HasFDerivWithinAt (point I pts) (Matrix.toLin' (jac I pts ξ)).toContinuousLinearMap S ξ :=
    fun ξ _ => (hasFDerivAt_point I hI pts ξ).hasFDerivWithinAt
  refine ⟨measurable_image_of_fderivWithin hS hder hinj, ?_⟩
  rw [← lintegral_abs_det_fderiv_eq_addHaar_image volume hS hder hinj]
  simp only [det_point]
  simp only [hjac, abs_of_pos hA, lintegral_const, Measure.restrict_apply MeasurableSet.univ, Set.univ_inter]

/-- A structured mesh of affine elements that fill the unit cube -/
theorem unit_mesh {d : Nat} (junk : Nat → Nat → ℝ) (I : Interpolation ℝ) (hI : I ∈ polynomialTypes) (hd : I.dim = d) (m : UnitMesh ℝ)
    (rule : List (ℝ × List ℝ)) (hl : ∀ q ∈ rule, q.2.length = d) (hF : ∀ e < m.elements.length, Full I (m.elemCoords e))
    (b : Nat → Fin d → ℝ) (A : Nat → Matrix (Fin d) (Fin d) ℝ)
    (hpt : ∀ e < m.elements.length, ∀ ξ : Fin d → ℝ, point I (m.elemCoords e) ξ = aff (b e) (A e) ξ)
    (hjac : ∀ e < m.elements.length, ∀ ξ : Fin d → ℝ, jac I (m.elemCoords e) ξ = A e)
    (hA : ∀ e < m.elements.length, 0 < (A e).det) (S : Set (Fin d → ℝ)) (hS : MeasurableSet S) (vol : ℝ) (hvol : volume S = ENNReal.ofReal vol)
    (hvol0 : 0 ≤ vol) (hin : ∀ e < m.elements.length, ∀ ξ ∈ S, ∀ a, 0 ≤ aff (b e) (A e) ξ a ∧ aff (b e) (A e) ξ a ≤ 1)
    (hdis : ∀ e < m.elements.length, ∀ e' < m.elements.length, ∀ ξ ∈ S, ∀ η ∈ S, aff (b e) (A e) ξ = aff (b e') (A e') η → e = e')
    (harea : ∑ e ∈ range m.elements.length, (A e).det * vol = 1) (p : MvPolynomial (Fin d) ℝ) (err : Nat → ℝ)
    (hrule : ∀ e < m.elements.length, |value d rule (fun ξ => MvPolynomial.eval (aff (b e) (A e) ξ) p * (A e).det) -
      ∫ ξ in S, MvPolynomial.eval (aff (b e) (A e) ξ) p * (A e).det| ≤ err e) :
    ∃ V, integrateCells junk (meshCells m I rule) (fun x => MvPolynomial.eval (fun a : Fin d => x.getD a 0) p) = .ok V ∧
      |V - ∫ x in Set.Icc (fun _ => (0 : ℝ)) (fun _ => 1), MvPolynomial.eval x p| ≤ ∑ e ∈ range m.elements.length, err e := by
  have hlen := meshCells_length m I rule
  have hinj : ∀ e < m.elements.length, Set.InjOn (point (d := d) I (m.elemCoords e)) S := by
    intro e he ξ _ η _ h
    rw [hpt e he, hpt e he] at h
    exact aff_injective _ _ (hA e he).ne' h
  have hmeas := fun e he => image_volume I hI (m.elemCoords e) hd (A e) (hjac e he) (hA e he) S hS (hinj e he)
  have := C116_domain junk (meshCells m I rule) (fun e => point (d := d) I (m.elemCoords e) '' S) err (fun x => MvPolynomial.eval x p)
    (Set.Icc (fun _ => (0 : ℝ)) (fun _ => 1)) ?_ ?_ ?_ ?_ ?_ ?_ ?_
  · rwa [hlen] at this
  · intro e he
    have he' : e < m.elements.length := by rwa [hlen] at he
    rw [meshCells_get]
    refine C116_cell junk _ I hI (m.elemCoords e) (hF e he') hd rfl hl _ S hS (hinj e he') ?_ _ ?_
    · intro ξ _
      rw [hjac e he']
      exact (hA e he').le
    · simp only [hpt e he', hjac e he']
      exact hrule e he'
  · intro e he
    rw [hlen] at he
    exact (hmeas e he).1
  · intro e he e' he' hne
    rw [hlen] at he he'
    rw [Set.disjoint_left]
    rintro x ⟨ξ, hξ, rfl⟩ ⟨η, hη, h⟩
    rw [hpt e he, hpt e' he'] at h
    exact hne (hdis e he e' he' ξ hξ η hη h.symm)
  · rintro e he x ⟨ξ, hξ, rfl⟩
    rw [hlen] at he
    rw [hpt e he]
    exact ⟨fun a => (hin e he ξ hξ a).1, fun a => (hin e he ξ hξ a).2⟩
  · rw [Real.volume_Icc_pi]
    simp
  · rw [Real.volume_Icc_pi, hlen]
    have : ∑ e ∈ range m.elements.length, volume (point (d := d) I (m.elemCoords e) '' S) =
        ∑ e ∈ range m.elements.length, ENNReal.ofReal ((A e).det * vol) := by
      refine sum_congr rfl fun e he => ?_
      rw [(hmeas e (mem_range.1 he)).2, hvol, ENNReal.ofReal_mul (hA e (mem_range.1 he)).le]
    rw [this, ← ENNReal.ofReal_sum_of_nonneg fun e he => mul_nonneg (hA e (mem_range.1 he)).le hvol0, harea]
    simp
  · exact (MvPolynomial.continuous_eval p).integrableOn_Icc

/-! ### Lines, quadrilaterals and bricks -/

/-- A grid of `n a` cells in direction `a` -/
theorem grid {d : Nat} (junk : Nat → Nat → ℝ) (I : Interpolation ℝ) (hI : I ∈ polynomialTypes) (hd : I.dim = d) (m : UnitMesh ℝ)
    (rule : List (ℝ × List ℝ)) (hl : ∀ q ∈ rule, q.2.length = d) (hF : ∀ e < m.elements.length, Full I (m.elemCoords e))
    (n : Fin d → Nat) (hn : ∀ a, 0 < n a) (hnum : m.elements.length = ∏ a, n a) (c : Nat → Fin d → Nat)
    (hc : ∀ e < m.elements.length, ∀ a, c e a < n a)
    (hcinj : ∀ e < m.elements.length, ∀ e' < m.elements.length, c e = c e' → e = e')
    (hpt : ∀ e < m.elements.length, ∀ (ξ : Fin d → ℝ) (a : Fin d), I.position (m.elemCoords e) (ext ξ) a = ((c e a : ℝ) + (1 + ξ a) / 2) / n a)
    (hjac : ∀ e < m.elements.length, ∀ (ξ : Fin d → ℝ) (a j : Fin d),
      I.jacobian (m.elemCoords e) (ext ξ) a j = if a = j then 1 / (2 * (n a : ℝ)) else 0)
    (k : Nat) (hex : ∀ p : MvPolynomial (Fin d) ℝ, (∀ i, p.degreeOf i < k) →
      value d rule (fun x => MvPolynomial.eval x p) = cubeIntegral d fun x => MvPolynomial.eval x p)
    (p : MvPolynomial (Fin d) ℝ) (hp : ∀ i, p.degreeOf i < k) :
    integrateCells junk (meshCells m I rule) (fun x => MvPolynomial.eval (fun a : Fin d => x.getD a 0) p) =
      .ok (∫ x in Set.Icc (fun _ => (0 : ℝ)) (fun _ => 1), MvPolynomial.eval x p) := by
  have hn' : ∀ a, (0 : ℝ) < n a := fun a => by exact_mod_cast hn a
  have hpt' : ∀ e ξ a, aff (fun a => ((c e a : ℝ) + 1 / 2) / n a) (Matrix.diagonal fun a => 1 / (2 * (n a : ℝ))) ξ a =
      ((c e a : ℝ) + (1 + ξ a) / 2) / n a := by
    intro e ξ a
    rw [aff, sum_eq_single a]
    · rw [Matrix.diagonal_apply_eq]
      have := (hn' a).ne'
      field_simp
      ring
    · intro j _ hj
      rw [Matrix.diagonal_apply_ne _ (Ne.symm hj), zero_mul]
    · intro h
      exact absurd (mem_univ a) h
  have hdet : (Matrix.diagonal fun a : Fin d => 1 / (2 * (n a : ℝ))).det = ∏ a, (1 / (2 * (n a : ℝ))) := Matrix.det_diagonal
  have hdet0 : 0 < (Matrix.diagonal fun a : Fin d => 1 / (2 * (n a : ℝ))).det := by
    rw [hdet]
    exact prod_pos fun a _ => by
      have := hn' a
      positivity
  have key := unit_mesh junk I hI hd m rule hl hF (fun e a => ((c e a : ℝ) + 1 / 2) / n a)
    (fun _ => Matrix.diagonal fun a => 1 / (2 * (n a : ℝ))) ?_ ?_ (fun _ _ => hdet0) (cube d) measurableSet_cube (2 ^ d) ?_ (by positivity) ?_ ?_ ?_ p
    (fun _ => 0) ?_
  · obtain ⟨V, h1, h2⟩ := key
    rw [sum_const_zero] at h2
    rw [h1, ← sub_eq_zero.1 (abs_eq_zero.1 (le_antisymm h2 (abs_nonneg _)))]
  · intro e he ξ
    funext a
    rw [point_position I _ (hF e he), hpt e he, hpt']
  · intro e he ξ
    ext a j
    rw [jac_jacobian I _ (hF e he), hjac e he, Matrix.diagonal_apply]
  · rw [cube, Real.volume_pi_Ioo]
    simp only [prod_const, card_univ, Fintype.card_fin]
    rw [← ENNReal.ofReal_pow (by norm_num)]
    norm_num
  · intro e he ξ hξ a
    have h0 := hξ a (Set.mem_univ _)
    simp only [Set.mem_Ioo] at h0
    have h1 : (c e a : ℝ) + 1 ≤ n a := by exact_mod_cast hc e he a
    have h2 : (0 : ℝ) ≤ c e a := Nat.cast_nonneg _
    rw [hpt' e ξ a]
    constructor
    · refine div_nonneg ?_ (hn' a).le
      linarith
    · rw [div_le_one (hn' a)]
      linarith
  · intro e he e' he' ξ hξ η hη h
    refine hcinj e he e' he' ?_
    funext a
    have h0 := hξ a (Set.mem_univ _)
    have h1 := hη a (Set.mem_univ _)
    simp only [Set.mem_Ioo] at h0 h1
    have h2 := congrFun h a
    simp only [hpt'] at h2
    exact (cell_unique (hn a) (by linarith) (by linarith) (by linarith) (by linarith) h2).1
  · rw [sum_const, card_range, hnum, hdet, nsmul_eq_mul, Nat.cast_prod, ← Fin.prod_const d (2 : ℝ), ← prod_mul_distrib, ← prod_mul_distrib]
    refine prod_eq_one fun a _ => ?_
    have := (hn' a).ne'
    field_simp
  · intro e he
    have := pull_value rule (fun a => ((c e a : ℝ) + 1 / 2) / n a) (Matrix.diagonal fun a => 1 / (2 * (n a : ℝ))) p (cube d) 0 hdet0 ?_
    · simpa using this
    · rw [hex _ fun i => lt_of_le_of_lt (degreeOf_sub_diag _ p i fun a => degreeOf_affPoly _ _ ?_ a i) (hp i), cube_integral, sub_self, abs_zero]
      intro a j haj
      exact Matrix.diagonal_apply_ne _ haj

/-- C116: the mesh `UnitMeshFem::CreateLines(nx)` and `n` Gauss points: polynomials up to the degree `2 n - 1` are integrated exactly over the
unit interval. -/
theorem C116_unit_lines (junk : Nat → Nat → ℝ) (roots : Int → List ℝ) (hroots : GaussRoots roots) (n : Nat) (hn : 0 < n) (nx : Nat) (hx : 0 < nx) :
    ∃ m rule, UnitMesh.lines nx = .ok m ∧ gauss roots .line n = .ok rule ∧ ∀ p : MvPolynomial (Fin 1) ℝ, (∀ i, p.degreeOf i < 2 * n) →
      integrateCells junk (meshCells m .trussLinear rule) (fun x => MvPolynomial.eval (fun a : Fin 1 => x.getD a 0) p) =
        .ok (∫ x in Set.Icc (fun _ => (0 : ℝ)) (fun _ => 1), MvPolynomial.eval x p) := by
  obtain ⟨rule, e, -, hex⟩ := C98_gauss_cube roots hroots 1 n hn
  have hI : (Interpolation.trussLinear : Interpolation ℝ) ∈ polynomialTypes := by simp [polynomialTypes]
  refine ⟨_, rule, lines_ok nx, e, fun p hp => ?_⟩
  have hlen : (lineMesh (K := ℝ) nx).elements.length = nx := by simp [lineMesh]
  have hnx : (nx : ℝ) ≠ 0 := by exact_mod_cast hx.ne'
  refine grid (d := 1) junk .trussLinear hI rfl _ rule (cube_rule_length e) ?_ (fun _ => nx) (fun _ => hx) (by simp [hlen]) (fun e _ => e) ?_ ?_ ?_ ?_
    (2 * n) hex p hp
  · intro i hi
    rw [hlen] at hi
    rw [line_coords hi]
    exact full _ hI (by simp [Interpolation.trussLinear]) (by simp [Interpolation.trussLinear]) (by simp [Interpolation.trussLinear]) _
      (by simp [Interpolation.trussLinear]) (by simp [Interpolation.trussLinear])
  · intro i hi _
    rwa [hlen] at hi
  · intro i _ j _ h
    exact congrFun h 0
  · intro i hi ξ a
    rw [hlen] at hi
    rw [line_coords hi]
    fin_cases a
    simp [Interpolation.position, Interpolation.trussLinear, Interpolation.trussLinearShape, ext]
    field_simp
    ring
  · intro i hi ξ a j
    rw [hlen] at hi
    rw [line_coords hi]
    fin_cases a
    fin_cases j
    simp [Interpolation.jacobian, Interpolation.trussLinear, Interpolation.trussLinearDeriv]
    field_simp
    ring

/-- C116: the mesh `UnitMeshFem::CreateQuads(nx, ny)` and `n` Gauss points in each direction: polynomials of degree `2 n - 1` in each variable
are integrated exactly over the unit square. -/
theorem C116_unit_quads (junk : Nat → Nat → ℝ) (roots : Int → List ℝ) (hroots : GaussRoots roots) (n : Nat) (hn : 0 < n) (nx ny : Nat)
    (hx : 0 < nx) (hy : 0 < ny) :
    ∃ m rule, UnitMesh.quads nx ny = .ok m ∧ gauss roots .quadrilateral n = .ok rule ∧
      ∀ p : MvPolynomial (Fin 2) ℝ, (∀ i, p.degreeOf i < 2 * n) →
        integrateCells junk (meshCells m .quadLinear rule) (fun x => MvPolynomial.eval (fun a : Fin 2 => x.getD a 0) p) =
          .ok (∫ x in Set.Icc (fun _ => (0 : ℝ)) (fun _ => 1), MvPolynomial.eval x p) := by
  obtain ⟨rule, e, -, hex⟩ := C98_gauss_cube roots hroots 2 n hn
  have hI : (Interpolation.quadLinear : Interpolation ℝ) ∈ polynomialTypes := by simp [polynomialTypes]
  refine ⟨_, rule, quads_ok nx ny, e, fun p hp => ?_⟩
  have hlen : (UnitMesh.mk (K := ℝ) (UnitMesh.nodes2D nx ny) ((UnitMesh.cells2D nx ny).map (quadNodes nx))).elements.length =
      nx * ny := by
    simp [cells2D_length]
  refine grid (d := 2) junk .quadLinear hI rfl _ rule (cube_rule_length e) ?_ ![nx, ny] ?_ (by rw [hlen]; simp)
    (fun e => ![e % nx, e / nx]) ?_ ?_ ?_ ?_ (2 * n) hex p hp
  · intro i hi
    rw [hlen] at hi
    rw [quad_elemCoords hi]
    exact full _ hI (by simp [Interpolation.quadLinear]) (by simp [Interpolation.quadLinear]) (by simp [Interpolation.quadLinear]) _
      (by simp [Interpolation.quadLinear]) (by simp [Interpolation.quadLinear])
  · intro a
    fin_cases a <;> assumption
  · intro i hi a
    rw [hlen] at hi
    obtain ⟨h1, h2⟩ := div_mod_lt hi
    fin_cases a <;> assumption
  · intro i _ j _ h
    have h0 : i % nx = j % nx := congrFun h 0
    have h1 : i / nx = j / nx := congrFun h 1
    rw [← Nat.mod_add_div i nx, ← Nat.mod_add_div j nx, h0, h1]
  · intro i hi ξ a
    rw [hlen] at hi
    obtain ⟨h1, h2⟩ := quad_position (K := ℝ) hx hy hi (ext ξ)
    fin_cases a
    · exact h1.trans (by simp [ext])
    · exact h2.trans (by simp [ext])
  · intro i hi ξ a j
    rw [hlen] at hi
    obtain ⟨h1, h2, h3, h4⟩ := quad_jacobian (K := ℝ) hx hy hi (ext ξ)
    fin_cases a <;> fin_cases j
    · exact h1.trans (by simp)
    · exact h2.trans (by simp)
    · exact h3.trans (by simp)
    · exact h4.trans (by simp)

/-- C116: the mesh `UnitMeshFem::CreateBricks(nx, ny, nz)` and `n` Gauss points in each direction. -/
theorem C116_unit_bricks (junk : Nat → Nat → ℝ) (roots : Int → List ℝ) (hroots : GaussRoots roots) (n : Nat) (hn : 0 < n) (nx ny nz : Nat)
    (hx : 0 < nx) (hy : 0 < ny) (hz : 0 < nz) :
    ∃ m rule, UnitMesh.bricks nx ny nz = .ok m ∧ gauss roots .hexahedron n = .ok rule ∧
      ∀ p : MvPolynomial (Fin 3) ℝ, (∀ i, p.degreeOf i < 2 * n) →
        integrateCells junk (meshCells m .brickLinear rule) (fun x => MvPolynomial.eval (fun a : Fin 3 => x.getD a 0) p) =
          .ok (∫ x in Set.Icc (fun _ => (0 : ℝ)) (fun _ => 1), MvPolynomial.eval x p) := by
  obtain ⟨rule, e, -, hex⟩ := C98_gauss_cube roots hroots 3 n hn
  have hI : (Interpolation.brickLinear : Interpolation ℝ) ∈ polynomialTypes := by simp [polynomialTypes]
  refine ⟨_, rule, bricks_ok nx ny nz, e, fun p hp => ?_⟩
  have hlen : (brickMesh (K := ℝ) nx ny nz).elements.length = nz * (nx * ny) := by
    rw [brickMesh, List.length_map, cells3D_length]
  refine grid (d := 3) junk .brickLinear hI rfl _ rule (cube_rule_length e) ?_ ![nx, ny, nz] ?_ ?_
    (fun e => ![(cellIdx nx ny e).1, (cellIdx nx ny e).2.1, (cellIdx nx ny e).2.2]) ?_ ?_ ?_ ?_ (2 * n) hex p hp
  · intro i hi
    rw [hlen] at hi
    rw [brick_coords hi]
    exact full _ hI (by simp [Interpolation.brickLinear]) (by simp [Interpolation.brickLinear]) (by simp [Interpolation.brickLinear]) _
      (by simp [Interpolation.brickLinear]) (by simp [Interpolation.brickLinear])
  · intro a
    fin_cases a <;> assumption
  · rw [hlen, Fin.prod_univ_three]
    simp
    ring
  · intro i hi a
    rw [hlen] at hi
    obtain ⟨h1, h2, h3⟩ := cellIdx_lt hi
    fin_cases a <;> assumption
  · intro i _ j _ h
    have h0 : (cellIdx nx ny i).1 = (cellIdx nx ny j).1 := congrFun h 0
    have h1 : (cellIdx nx ny i).2.1 = (cellIdx nx ny j).2.1 := congrFun h 1
    have h2 : (cellIdx nx ny i).2.2 = (cellIdx nx ny j).2.2 := congrFun h 2
    simp only [cellIdx] at h0 h1 h2
    rw [← Nat.mod_add_div i (nx * ny), ← Nat.mod_add_div j (nx * ny), h2, ← Nat.mod_add_div (i % (nx * ny)) nx,
      ← Nat.mod_add_div (j % (nx * ny)) nx, h0, h1]
  · intro i hi ξ a
    rw [hlen] at hi
    obtain ⟨h1, h2, h3⟩ := brick_position (K := ℝ) hx hy hz hi (ext ξ)
    fin_cases a
    · exact h1.trans (by simp [ext])
    · exact h2.trans (by simp [ext])
    · exact h3.trans (by simp [ext])
  · intro i hi ξ a j
    rw [hlen] at hi
    obtain ⟨j1, j2, j3, j4, j5, j6, j7, j8, j9⟩ := brick_jacobian (K := ℝ) hx hy hz hi (ext ξ)
    fin_cases a <;> fin_cases j
    · exact j1.trans (by simp)
    · exact j4.trans (by simp)
    · exact j5.trans (by simp)
    · exact j6.trans (by simp)
    · exact j2.trans (by simp)
    · exact j7.trans (by simp)
    · exact j8.trans (by simp)
    · exact j9.trans (by simp)
    · exact j3.trans (by simp)

/-! ### Triangles -/

theorem volume_triangle : volume (triangle 1) = ENNReal.ofReal (1 / 2) := by
  have h := triangle_integral 1 zero_le_one (fun _ => 1) continuous_const
  have hfin : volume (triangle 1) ≠ ⊤ := by
    refine (lt_of_le_of_lt (measure_mono (triangle_subset 1)) ?_).ne
    rw [Real.volume_Icc_pi]
    simp
  rw [setIntegral_const, smul_eq_mul, mul_one] at h
  rw [← ENNReal.ofReal_toReal hfin]
  congr 1
  refine h.trans ?_
  simp only [intervalIntegral.integral_const, smul_eq_mul, mul_one, sub_zero]
  rw [intervalIntegral.integral_sub (by simp) (by simp)]
  simp
  norm_num

/-- the corner of a triangle of the mesh -/
noncomputable def triB (nx ny e : Nat) : Fin 2 → ℝ := ![((e / 2 % nx : Nat) : ℝ) / nx, ((e / 2 / nx : Nat) : ℝ) / ny]

/-- the edges of a triangle of the mesh -/
noncomputable def triA (nx ny e : Nat) : Matrix (Fin 2) (Fin 2) ℝ :=
  if e % 2 = 0 then !![1 / (nx : ℝ), 1 / nx; 0, 1 / ny] else !![1 / (nx : ℝ), 0; 1 / ny, 1 / ny]

theorem tri_coords (nx ny e : Nat) (he : e < 2 * (nx * ny)) :
    (triangleMesh (K := ℝ) nx ny).elemCoords e = if e % 2 = 0 then
      [[((e / 2 % nx : Nat) : ℝ) / nx, ((e / 2 / nx : Nat) : ℝ) / ny],
       [((e / 2 % nx : Nat) + 1 : ℝ) / nx, ((e / 2 / nx : Nat) : ℝ) / ny],
       [((e / 2 % nx : Nat) + 1 : ℝ) / nx, ((e / 2 / nx : Nat) + 1 : ℝ) / ny]] else
      [[((e / 2 % nx : Nat) : ℝ) / nx, ((e / 2 / nx : Nat) : ℝ) / ny],
       [((e / 2 % nx : Nat) + 1 : ℝ) / nx, ((e / 2 / nx : Nat) + 1 : ℝ) / ny],
       [((e / 2 % nx : Nat) : ℝ) / nx, ((e / 2 / nx : Nat) + 1 : ℝ) / ny]] := by
  have h2 : e / 2 < nx * ny := by omega
  split_ifs with h
  · have := triangle_coords0 (K := ℝ) h2
    rwa [show 2 * (e / 2) + 0 = e by omega] at this
  · have := triangle_coords1 (K := ℝ) h2
    rwa [show 2 * (e / 2) + 1 = e by omega] at this

theorem tri_point (nx ny e : Nat) (he : e < 2 * (nx * ny)) (ξ : Fin 2 → ℝ) :
    point Interpolation.triangleLinear ((triangleMesh (K := ℝ) nx ny).elemCoords e) ξ = aff (triB nx ny e) (triA nx ny e) ξ := by
  rw [tri_coords nx ny e he]
  funext a
  by_cases h : e % 2 = 0
  · simp only [h, if_true, triA]
    fin_cases a <;>
    simp [point, aff, triB, Interpolation.triangleLinear, Interpolation.triangleLinearShape, sum_range_succ, ext, Fin.sum_univ_two] <;> ring
  · simp only [h, if_false, triA]
    fin_cases a <;>
    simp [point, aff, triB, Interpolation.triangleLinear, Interpolation.triangleLinearShape, sum_range_succ, ext, Fin.sum_univ_two] <;> ring

theorem tri_jac (nx ny e : Nat) (he : e < 2 * (nx * ny)) (ξ : Fin 2 → ℝ) :
    jac Interpolation.triangleLinear ((triangleMesh (K := ℝ) nx ny).elemCoords e) ξ = triA nx ny e := by
  rw [tri_coords nx ny e he]
  ext a j
  by_cases h : e % 2 = 0
  · simp only [h, if_true, triA]
    fin_cases a <;> fin_cases j <;>
    simp [jac, Interpolation.triangleLinear, Interpolation.triangleLinearDeriv, sum_range_succ] <;> ring
  · simp only [h, if_false, triA]
    fin_cases a <;> fin_cases j <;>
    simp [jac, Interpolation.triangleLinear, Interpolation.triangleLinearDeriv, sum_range_succ] <;> ring

theorem tri_det (nx ny e : Nat) : (triA nx ny e).det = 1 / ((nx : ℝ) * ny) := by
  rw [triA]
  split_ifs
  · rw [Matrix.det_fin_two_of]; simp; ring
  · rw [Matrix.det_fin_two_of]; simp; ring

theorem tri_bound (nx ny e : Nat) (hx : 0 < nx) (hy : 0 < ny) (he : e < 2 * (nx * ny)) (a : Fin 2) :
    |triB nx ny e a| + ∑ j, |triA nx ny e a j| ≤ 2 := by
  have hx' : (1 : ℝ) ≤ nx := by exact_mod_cast hx
  have hy' : (1 : ℝ) ≤ ny := by exact_mod_cast hy
  have h2 : e / 2 < nx * ny := by omega
  obtain ⟨h3, h4⟩ := div_mod_lt h2
  have h3' : ((e / 2 % nx : Nat) : ℝ) + 1 ≤ nx := by exact_mod_cast h3
  have h4' : ((e / 2 / nx : Nat) : ℝ) + 1 ≤ ny := by exact_mod_cast h4
  have n3 : (0 : ℝ) ≤ ((e / 2 % nx : Nat) : ℝ) := Nat.cast_nonneg _
  have n4 : (0 : ℝ) ≤ ((e / 2 / nx : Nat) : ℝ) := Nat.cast_nonneg _
  have hb0 : ((e / 2 % nx : Nat) : ℝ) / nx + 1 / nx ≤ 1 := by
    rw [← add_div, div_le_one (by linarith)]
    exact h3'
  have hb1 : ((e / 2 / nx : Nat) : ℝ) / ny + 1 / ny ≤ 1 := by
    rw [← add_div, div_le_one (by linarith)]
    exact h4'
  have i0 : 1 / (nx : ℝ) ≤ 1 := by rw [div_le_one (by linarith)]; exact hx'
  have i1 : 1 / (ny : ℝ) ≤ 1 := by rw [div_le_one (by linarith)]; exact hy'
  have p0 : 0 ≤ 1 / (nx : ℝ) := by positivity
  have p1 : 0 ≤ 1 / (ny : ℝ) := by positivity
  have q0 : 0 ≤ ((e / 2 % nx : Nat) : ℝ) / nx := by positivity
  have q1 : 0 ≤ ((e / 2 / nx : Nat) : ℝ) / ny := by positivity
  rw [Fin.sum_univ_two, triA, triB]
  generalize ((e / 2 % nx : Nat) : ℝ) / nx = u at *
  generalize ((e / 2 / nx : Nat) : ℝ) / ny = v at *
  generalize 1 / (nx : ℝ) = s at *
  generalize 1 / (ny : ℝ) = t at *
  split_ifs <;> fin_cases a <;> simp [abs_of_nonneg, p0, p1, q0, q1] <;> linarith

/-- C116: the mesh `UnitMeshFem::CreateTriangles(nx, ny)` and the rule of any order: polynomials up to the order are integrated over the unit
square, up to the rounding of the table. -/
theorem C116_unit_triangles (junk : Nat → Nat → ℝ) (roots : Int → List ℝ) (hroots : GaussRoots roots) (order : Int) (h1 : 1 ≤ order)
    (h20 : order ≤ 20) (nx ny : Nat) (hx : 0 < nx) (hy : 0 < ny) :
    ∃ m rule, UnitMesh.triangles nx ny = .ok m ∧ gauss roots .triangle order = .ok rule ∧
      ∀ p : MvPolynomial (Fin 2) ℝ, p.totalDegree ≤ order.toNat →
        ∃ V, integrateCells junk (meshCells m .triangleLinear rule) (fun x => MvPolynomial.eval (fun a : Fin 2 => x.getD a 0) p) = .ok V ∧
          |V - ∫ x in Set.Icc (fun _ => (0 : ℝ)) (fun _ => 1), MvPolynomial.eval x p| ≤
            2 * tableError .triangle order * (2 ^ order.toNat * norm1 p) := by
  obtain ⟨rule, e, hE, hl⟩ := simplex_rule roots hroots .triangle (Or.inl rfl) order h1 h20
  have hI : (Interpolation.triangleLinear : Interpolation ℝ) ∈ polynomialTypes := by simp [polynomialTypes]
  obtain ⟨m, hm, -, -, hlen, -, -, -, hin, hdis, -⟩ := C24_triangles (K := ℝ) nx ny hx hy
  have hmm : m = triangleMesh nx ny := by
    rw [triangles_ok] at hm
    exact (Res.ok.inj hm).symm
  subst hmm
  refine ⟨_, rule, hm, e, fun p hp => ?_⟩
  have hx' : (0 : ℝ) < nx := by exact_mod_cast hx
  have hy' : (0 : ℝ) < ny := by exact_mod_cast hy
  have hF : ∀ e < (triangleMesh (K := ℝ) nx ny).elements.length, Full .triangleLinear ((triangleMesh (K := ℝ) nx ny).elemCoords e) := by
    intro e he
    rw [hlen] at he
    rw [tri_coords nx ny e he]
    split_ifs
    · exact full _ hI (by simp [Interpolation.triangleLinear]) (by simp [Interpolation.triangleLinear]) (by simp [Interpolation.triangleLinear]) _
        (by simp [Interpolation.triangleLinear]) (by simp [Interpolation.triangleLinear])
    · exact full _ hI (by simp [Interpolation.triangleLinear]) (by simp [Interpolation.triangleLinear]) (by simp [Interpolation.triangleLinear]) _
        (by simp [Interpolation.triangleLinear]) (by simp [Interpolation.triangleLinear])
  have hpos : ∀ e < (triangleMesh (K := ℝ) nx ny).elements.length, ∀ (ξ : Fin 2 → ℝ) (a : Fin 2), aff (triB nx ny e) (triA nx ny e) ξ a =
      Interpolation.triangleLinear.position ((triangleMesh (K := ℝ) nx ny).elemCoords e) (ext ξ) a := by
    intro e he ξ a
    rw [← point_position _ _ (hF e he), tri_point nx ny e (by rwa [hlen] at he)]
  have key := unit_mesh (d := 2) junk .triangleLinear hI rfl (triangleMesh nx ny) rule hl hF (triB nx ny) (triA nx ny)
    (fun e he ξ => tri_point nx ny e (by rwa [hlen] at he) ξ) (fun e he ξ => tri_jac nx ny e (by rwa [hlen] at he) ξ)
    (fun e _ => by rw [tri_det]; positivity) (triangle 1) (measurableSet_triangle 1) (1 / 2) volume_triangle (by norm_num) ?_ ?_ ?_ p
    (fun _ => tableError .triangle order * (2 ^ order.toNat * norm1 p) * (1 / ((nx : ℝ) * ny))) ?_
  · obtain ⟨V, hV, hb⟩ := key
    refine ⟨V, hV, hb.trans (le_of_eq ?_)⟩
    rw [sum_const, card_range, hlen, nsmul_eq_mul]
    push_cast
    field_simp
  · intro e he ξ hξ a
    rw [hpos e he]
    refine hin e he (ext ξ) ?_ a a.isLt
    obtain ⟨g1, g2, g3⟩ := hξ
    refine ⟨?_, ?_, ?_⟩ <;> simp only [ext, Nat.lt_add_one, dif_pos, Nat.zero_lt_succ, Nat.one_lt_two]
    · exact g1.le
    · exact g2.le
    · exact g3.le
  · intro e he e' he' ξ hξ η hη h
    obtain ⟨g1, g2, g3⟩ := hξ
    obtain ⟨k1, k2, k3⟩ := hη
    refine (hdis e e' he he' (ext ξ) (ext η) ⟨g1, g2, g3⟩ ⟨k1.le, k2.le, k3.le⟩ ?_ ?_).1
    · have := congrFun h 0
      rwa [hpos e he, hpos e' he'] at this
    · have := congrFun h 1
      rwa [hpos e he, hpos e' he'] at this
  · simp only [tri_det]
    rw [sum_const, card_range, hlen, nsmul_eq_mul]
    push_cast
    field_simp
  · intro e he
    have hε : 0 ≤ tableError .triangle order := by
      rw [tableError]
      split_ifs <;> norm_num
    have := pull_integrates hε (integrates_triangle hE) (triB nx ny e) (triA nx ny e) p (by rw [tri_det]; positivity) hp 2 (by norm_num)
      (tri_bound nx ny e hx hy (by rwa [hlen] at he))
    simpa only [tri_det] using this

/-! ### The hypotheses can be met -/

/-- the exact area of the unit square comes from every mesh of quadrilaterals, whatever the rule -/
example (junk : Nat → Nat → ℝ) (roots : Int → List ℝ) (hroots : GaussRoots roots) (n : Nat) (hn : 0 < n) :
    ∃ m rule, UnitMesh.quads 3 2 = .ok m ∧ gauss roots .quadrilateral n = .ok rule ∧
      integrateCells junk (meshCells m .quadLinear rule) (fun _ => 1) = .ok 1 := by
  obtain ⟨m, rule, h1, h2, h3⟩ := C116_unit_quads junk roots hroots n hn 3 2 (by norm_num) (by norm_num)
  refine ⟨m, rule, h1, h2, ?_⟩
  have := h3 1 (fun i => by
    rw [show (1 : MvPolynomial (Fin 2) ℝ) = MvPolynomial.C 1 by simp, MvPolynomial.degreeOf_C]
    omega)
  simp only [map_one, setIntegral_const, smul_eq_mul, mul_one] at this
  rw [this, Measure.real, Real.volume_Icc_pi]
  simp

/-- two points in each direction are enough for `x ^ 3 y ^ 2` on the bricks -/
example : ∀ i, (MvPolynomial.X 0 ^ 3 * MvPolynomial.X 1 ^ 2 : MvPolynomial (Fin 3) ℝ).degreeOf i < 2 * 2 := by
  intro i
  refine lt_of_le_of_lt (MvPolynomial.degreeOf_mul_le _ _ _) ?_
  have h1 := MvPolynomial.degreeOf_pow_le i (MvPolynomial.X 0 : MvPolynomial (Fin 3) ℝ) 3
  have h2 := MvPolynomial.degreeOf_pow_le i (MvPolynomial.X 1 : MvPolynomial (Fin 3) ℝ) 2
  rw [MvPolynomial.degreeOf_X] at h1 h2
  fin_cases i <;> simp at h1 h2 ⊢ <;> omega

end MeshIntegral
end NuTo
