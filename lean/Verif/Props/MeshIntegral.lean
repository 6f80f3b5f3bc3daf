/-
C116: integrating a function of the position over the cells of a mesh gives the integral over the meshed domain.
-/
import Verif.Model.MeshIntegral
import Verif.Props.CellIntegration
import Verif.Props.Balance
import Verif.Props.InterpolationDeriv
import Verif.Props.RuleFactory
import Mathlib.MeasureTheory.Function.Jacobian
import Mathlib.Analysis.Calculus.FDeriv.Pi
import Mathlib.Analysis.Calculus.FDeriv.Mul
import Mathlib.Analysis.Calculus.FDeriv.Pow
import Mathlib.Analysis.Calculus.Deriv.Pi
import Mathlib.Topology.Algebra.Module.FiniteDimension

namespace NuTo

open Finset Jacobian

namespace MeshIntegral

/-- natural coordinates as the shape functions read them -/
def ext {d : Nat} (ξ : Fin d → ℝ) (k : Nat) : ℝ := if h : k < d then ξ ⟨k, h⟩ else 0

/-- the point of the element with the given natural coordinates -/
noncomputable def point {d : Nat} (I : Interpolation ℝ) (pts : List (List ℝ)) (ξ : Fin d → ℝ) (a : Fin d) : ℝ :=
  ∑ i ∈ range I.numNodes, (I.shape (ext ξ)).getD i 0 * (pts.getD i []).getD a 0

/-- the derivatives of `point` according to the derivative tables -/
noncomputable def jac {d : Nat} (I : Interpolation ℝ) (pts : List (List ℝ)) (ξ : Fin d → ℝ) : Matrix (Fin d) (Fin d) ℝ :=
  Matrix.of fun a j => ∑ i ∈ range I.numNodes, (pts.getD i []).getD a 0 * ((I.deriv (ext ξ)).getD i []).getD j 0

/-- the points of an element of full dimension -/
structure Full (I : Interpolation ℝ) (pts : List (List ℝ)) : Prop where
  unity : Balance.Unity I
  dim1 : 1 ≤ I.dim
  dim3 : I.dim ≤ 3
  count : pts.length = I.numNodes
  comps : ∀ p ∈ pts, p.length = I.dim
  ne : 0 < I.numNodes

theorem flatten_getD {d : Nat} (pts : List (List ℝ)) (h : ∀ p ∈ pts, p.length = d) (i a : Nat) (ha : a < d) :
    pts.flatten.getD (d * i + a) 0 = (pts.getD i []).getD a 0 := by
  induction pts generalizing i with
  | nil => simp
  | cons p t ih =>
    have hp : p.length = d := h p List.mem_cons_self
    cases i with
    | zero =>
      simp only [List.flatten_cons, Nat.mul_zero, Nat.zero_add, List.getD_cons_zero]
      rw [List.getD_append _ _ _ _ (by omega)]
    | succ i =>
      rw [List.flatten_cons, List.getD_append_right _ _ _ _ (by rw [hp, Nat.mul_succ]; omega), List.getD_cons_succ,
        ← ih (fun q hq => h q (List.mem_cons_of_mem _ hq)) i]
      congr 1
      rw [hp, Nat.mul_succ]
      omega

theorem ext_list {d : Nat} (l : List ℝ) (h : l.length = d) : (ext fun i : Fin d => l.getD i 0) = fun k => l.getD k 0 := by
  funext k
  rw [ext]
  split_ifs with hk
  · rfl
  · rw [List.getD_eq_default]
    omega

theorem flatten_length {d : Nat} (pts : List (List ℝ)) (h : ∀ p ∈ pts, p.length = d) : pts.flatten.length = pts.length * d := by
  induction pts with
  | nil => simp
  | cons p t ih =>
    rw [List.flatten_cons, List.length_append, h p List.mem_cons_self, ih fun q hq => h q (List.mem_cons_of_mem _ hq),
      List.length_cons, Nat.succ_mul, Nat.add_comm]

/-- What the integrand gets at an integration point: the Jacobian determinant and the position. -/
theorem at_point (junk : Nat → Nat → ℝ) (c : Cell) (I : Interpolation ℝ) (pts : List (List ℝ)) (hF : Full I pts)
    (hc : c.coordElement = ⟨nodesAt pts, I⟩) (coords : List ℝ) (hl : coords.length = I.dim) (i : Nat) :
    ∃ d, c.ipData i coords = .ok d ∧ d.jacobian.det = (jac I pts fun k : Fin I.dim => coords.getD k 0).det ∧
      ∃ x, c.globalCoordinates junk d = .ok x ∧ (fun a : Fin I.dim => x.getD a 0) = point I pts fun k => coords.getD k 0 := by
  have hpne : pts ≠ [] := by
    intro h
    have := hF.count
    rw [h] at this
    have := hF.ne
    simp at *
    omega
  have hv : c.coordElement.extractNodeValues 0 = .ok pts.flatten := by
    rw [hc]
    exact extract_nodesAt I.dim pts hpne hF.comps I
  have hdl := hF.unity.derivLen fun k => coords.getD k 0
  have hflat := flatten_length pts hF.comps
  obtain ⟨J, hJ⟩ := (C40_outcomes pts.flatten I.dim I.dim (I.deriv fun k => coords.getD k 0) (by rw [hdl]; exact hF.ne)
    (by rw [hdl, hflat, hF.count])).1.2 (Or.inl ⟨rfl, hF.dim1, hF.dim3⟩)
  obtain ⟨m1, m2, m3, _⟩ := make_cases hJ
  have hrows : J.rows = I.dim := by
    rw [m3, hdl, hflat, hF.count, Nat.mul_div_cancel_left _ hF.ne]
  refine ⟨⟨c.id, i, coords, J⟩, ?_, ?_, ?_⟩
  · rw [Cell.ipData, hv, Res.bind_ok', hc]
    show (Jacobian.make _ _ _).bind _ = _
    rw [hJ, Res.bind_ok']
  · show J.det = _
    rw [(C40_square hJ (by rw [hrows, m2])).1]
    have key : ∀ r : Nat, r = I.dim → J.rows = r → (toMat r r J.jac).det = (jac I pts fun k : Fin I.dim => coords.getD k 0).det := by
      rintro r rfl hr
      congr 1
      ext a j
      rw [toMat, jac, Matrix.of_apply, C40_entries hJ, hdl, ext_list _ hl]
      refine sum_congr rfl fun n _ => ?_
      rw [hrows, flatten_getD pts hF.comps n a a.isLt]
    exact key J.rows hrows rfl
  · obtain ⟨N, h1, h2⟩ := C39_N junk (I.shape fun k => coords.getD k 0) pts.flatten I.numNodes I.dim
      (hF.unity.shapeLen _).ge (by rw [hflat, hF.count, Nat.mul_comm])
    refine ⟨(List.range I.dim).map fun a => ∑ i ∈ range I.numNodes, (I.shape fun k => coords.getD k 0).getD i 0 *
        pts.flatten.getD (I.dim * i + a) 0, ?_, ?_⟩
    · rw [Cell.globalCoordinates, FemElement.interpolate, FemElement.nMatrix, hv]
      have hd : c.coordElement.dofDimension = .ok I.dim := by
        obtain ⟨p, t, rfl⟩ := List.exists_cons_of_ne_nil hpne
        simp [hc, FemElement.dofDimension, nodesAt, Node.ofVector, Res.require, Node.numValues, hF.comps p List.mem_cons_self]
      rw [hd, Res.bind_ok', hc]
      show (NuTo.nMatrix junk _ I.numNodes I.dim).bind _ = _
      rw [h1, Res.bind_ok', Res.bind_ok', h2]
    · funext a
      rw [List.getD_eq_getElem _ _ (by simp), List.getElem_map, List.getElem_range, point, ext_list _ hl]
      refine sum_congr rfl fun n _ => ?_
      rw [flatten_getD pts hF.comps n a a.isLt]

/-- The integration over a cell is the rule applied to the integrand times the Jacobian determinant. -/
theorem integrate_eq (junk : Nat → Nat → ℝ) (c : Cell) (I : Interpolation ℝ) (pts : List (List ℝ)) (hF : Full I pts)
    (hc : c.coordElement = ⟨nodesAt pts, I⟩) (hl : ∀ q ∈ c.rule, q.2.length = I.dim) (f : (Fin I.dim → ℝ) → ℝ) :
    c.integratePosition junk (fun x => f fun a => x.getD a 0) =
      .ok (RuleFactory.value I.dim c.rule fun ξ => f (point I pts ξ) * (jac I pts ξ).det) := by
  rw [Cell.integratePosition, Cell.integrateScalar, Cell.integrateGeneric, RuleFactory.value]
  have key : ∀ (l : List (ℝ × List ℝ)) (k : Nat) (r : ℝ), (∀ ip ∈ l, ip ∈ c.rule) →
      Res.foldlM (Cell.integrateStep (fun r x s t => Res.ok (r + x * s * t)) c fun d =>
        (c.globalCoordinates junk d).bind fun x => .ok (f fun a => x.getD a 0)) r (l.zipIdx k) =
        .ok (r + (l.map fun q => q.1 * (f (point I pts fun i => q.2.getD i 0) * (jac I pts fun i : Fin I.dim => q.2.getD i 0).det)).sum) := by
    intro l
    induction l with
    | nil => intro k r _; simp
    | cons ip t ih =>
      intro k r hm
      obtain ⟨d, h1, h2, x, h3, h4⟩ := at_point junk c I pts hF hc ip.2 (hl ip (hm ip List.mem_cons_self)) k
      rw [List.zipIdx_cons, Res.foldlM_cons, Cell.integrateStep]
      simp only [h1, Res.bind_ok', h2, h3, h4]
      rw [ih (k + 1) _ fun ip h => hm ip (List.mem_cons_of_mem _ h), List.map_cons, List.sum_cons]
      congr 1
      ring
  rw [key c.rule 0 0 fun _ h => h, zero_add]

/-! ### Change of variables -/

@[fun_prop] theorem differentiable_ext {d : Nat} (k : Nat) : Differentiable ℝ fun ξ : Fin d → ℝ => ext ξ k := by
  unfold ext
  split_ifs with h
  · exact differentiable_apply _
  · exact differentiable_const _

theorem ext_update {d : Nat} (ξ : Fin d → ℝ) (j : Fin d) (t : ℝ) : ext (Function.update ξ j t) = Function.update (ext ξ) j t := by
  funext k
  by_cases hk : k = j
  · subst hk
    simp [ext]
  · rw [Function.update_of_ne hk, ext, ext]
    split_ifs with h
    · rw [Function.update_of_ne]
      intro hj
      exact hk (by rw [← hj])
    · rfl

set_option linter.unusedSimpArgs false in
theorem shape_differentiable (I : Interpolation ℝ) (hI : I ∈ polynomialTypes) (i : Nat) (hi : i < I.numNodes) :
    Differentiable ℝ fun ξ : Fin I.dim → ℝ => (I.shape (ext ξ)).getD i 0 := by
  simp only [polynomialTypes, List.mem_cons, List.not_mem_nil, or_false] at hI
  rcases hI with rfl | rfl | rfl | rfl | rfl | rfl | rfl | rfl | rfl | rfl | rfl | rfl | rfl | rfl
  all_goals
    simp only [Interpolation.trussLinear, Interpolation.trussQuadratic, Interpolation.truss3rdOrder, Interpolation.triangleLinear,
      Interpolation.triangleQuadratic, Interpolation.triangle3rdOrder, Interpolation.quadLinear, Interpolation.quadSerendipity,
      Interpolation.tetrahedronLinear, Interpolation.tetrahedronQuadratic, Interpolation.brickLinear, Interpolation.brickQuadratic,
      Interpolation.prismLinear, Interpolation.prismQuadratic] at hi ⊢
    interval_cases i <;>
    simp only [Interpolation.trussLinearShape, Interpolation.trussQuadraticShape, Interpolation.truss3rdOrderShape,
      Interpolation.triangleLinearShape, Interpolation.triangleQuadraticShape, Interpolation.triangle3rdOrderShape,
      Interpolation.quadLinearShape, Interpolation.quadSerendipityShape, Interpolation.tetrahedronLinearShape,
      Interpolation.tetrahedronQuadraticShape, Interpolation.brickLinearShape, Interpolation.brickQuadraticShape,
      Interpolation.prismLinearShape, Interpolation.prismQuadraticShape, List.getD_cons_succ, List.getD_cons_zero] <;>
    fun_prop

theorem hasFDerivAt_point (I : Interpolation ℝ) (hI : I ∈ polynomialTypes) (pts : List (List ℝ)) (ξ : Fin I.dim → ℝ) :
    HasFDerivAt (point I pts) (Matrix.toLin' (jac I pts ξ)).toContinuousLinearMap ξ := by
  have hd : Differentiable ℝ (point (d := I.dim) I pts) := by
    rw [differentiable_pi]
    intro a
    unfold point
    refine Differentiable.fun_sum fun i hi => ?_
    exact (shape_differentiable I hI i (mem_range.1 hi)).mul_const _
  have h := (hd ξ).hasFDerivAt
  convert h using 1
  refine ContinuousLinearMap.coe_injective ?_
  refine LinearMap.pi_ext' fun j => ?_
  refine LinearMap.ext_ring ?_
  have h1 : HasDerivAt (fun t => point I pts (Function.update ξ j t)) (fderiv ℝ (point I pts) ξ (Pi.single j 1)) (ξ j) := by
    have h0 := hasDerivAt_update ξ j (ξ j)
    refine HasFDerivAt.comp_hasDerivAt (f := Function.update ξ j) (l := point I pts) (ξ j) ?_ h0
    rwa [Function.update_eq_self]
  funext a
  have h2 := (hasDerivAt_pi.1 h1) a
  have h3 : HasDerivAt (fun t => point I pts (Function.update ξ j t) a) (jac I pts ξ a j) (ξ j) := by
    unfold point jac
    rw [Matrix.of_apply]
    simp only [mul_comm ((pts.getD _ []).getD _ 0)]
    refine HasDerivAt.fun_sum fun i hi => ?_
    refine HasDerivAt.mul_const ?_ _
    have h4 := C29_polynomial_partial I hI (ext ξ) i j (mem_range.1 hi) j.isLt
    unfold Interpolation.DerivAt at h4
    simp only [ext_update]
    simpa [ext] using h4
  have h5 := h3.unique h2
  simpa using h5

/-- C116: the integration over a cell gives the integral over the element, for every function of the position, every element type with
polynomial shape functions and every rule that integrates the pulled back function exactly over the reference domain `S`.  The element must
not be folded: its points are those of exactly one pair of natural coordinates and the Jacobian determinant is not negative. -/
theorem C116_element {d : Nat} (junk : Nat → Nat → ℝ) (c : Cell) (I : Interpolation ℝ) (hI : I ∈ polynomialTypes) (pts : List (List ℝ))
    (hF : Full I pts) (hd : I.dim = d) (hc : c.coordElement = ⟨nodesAt pts, I⟩) (hl : ∀ q ∈ c.rule, q.2.length = d) (f : (Fin d → ℝ) → ℝ)
    (S : Set (Fin d → ℝ)) (hS : MeasurableSet S) (hinj : Set.InjOn (point I pts) S) (hdet : ∀ ξ ∈ S, 0 ≤ (jac I pts ξ).det)
    (hrule : RuleFactory.value d c.rule (fun ξ => f (point I pts ξ) * (jac I pts ξ).det) =
      ∫ ξ in S, f (point I pts ξ) * (jac I pts ξ).det) :
    c.integratePosition junk (fun x => f fun a => x.getD a 0) = .ok (∫ x in point I pts '' S, f x) := by
  subst hd
  rw [integrate_eq junk c I pts hF hc hl f, hrule, MeasureTheory.integral_image_eq_integral_abs_det_fderiv_smul MeasureTheory.volume hS
    (fun ξ _ => (hasFDerivAt_point I hI pts ξ).hasFDerivWithinAt) hinj]
  congr 1
  refine MeasureTheory.setIntegral_congr_fun hS fun ξ hξ => ?_
  have : (Matrix.toLin' (jac I pts ξ)).toContinuousLinearMap.det = (jac I pts ξ).det := by
    rw [ContinuousLinearMap.det, LinearMap.coe_toContinuousLinearMap, LinearMap.det_toLin']
  simp only [this, abs_of_nonneg (hdet ξ hξ), smul_eq_mul]
  ring

end MeshIntegral
end NuTo
