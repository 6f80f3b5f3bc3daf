/-
C116: integrating a function of the position over the cells of a mesh gives the integral over the meshed domain.
-/
import Verif.Props.MeshIntegral
import Verif.Lemmas.ReferenceIntegral
import Mathlib.Topology.Algebra.MvPolynomial

namespace NuTo

open Finset MeasureTheory RuleFactory SimplexRule

namespace MeshIntegral

theorem det_point (I : Interpolation ℝ) (pts : List (List ℝ)) (ξ : Fin I.dim → ℝ) :
    (Matrix.toLin' (jac I pts ξ)).toContinuousLinearMap.det = (jac I pts ξ).det := by
  rw [ContinuousLinearMap.det, LinearMap.coe_toContinuousLinearMap, LinearMap.det_toLin']

theorem change (I : Interpolation ℝ) (hI : I ∈ polynomialTypes) (pts : List (List ℝ)) (f : (Fin I.dim → ℝ) → ℝ)
    (S : Set (Fin I.dim → ℝ)) (hS : MeasurableSet S) (hinj : Set.InjOn (point I pts) S) (hdet : ∀ ξ ∈ S, 0 ≤ (jac I pts ξ).det) :
    ∫ x in point I pts '' S, f x = ∫ ξ in S, f (point I pts ξ) * (jac I pts ξ).det := by
  rw [integral_image_eq_integral_abs_det_fderiv_smul volume hS
    (fun ξ _ => (hasFDerivAt_point I hI pts ξ).hasFDerivWithinAt) hinj]
  refine setIntegral_congr_fun hS fun ξ hξ => ?_
  simp only [det_point, abs_of_nonneg (hdet ξ hξ), smul_eq_mul]
  ring

/-- the result of a cell is the integral of `f` over the set `T`, up to `e` -/
def Approx {d : Nat} (junk : Nat → Nat → ℝ) (c : Cell) (T : Set (Fin d → ℝ)) (f : (Fin d → ℝ) → ℝ) (e : ℝ) : Prop :=
  ∃ V, c.integratePosition junk (fun x => f fun a => x.getD a 0) = .ok V ∧ |V - ∫ x in T, f x| ≤ e

/-- C116: the error of the integral over a cell is the error of the rule on the reference domain `S`. -/
theorem C116_cell {d : Nat} (junk : Nat → Nat → ℝ) (c : Cell) (I : Interpolation ℝ) (hI : I ∈ polynomialTypes) (pts : List (List ℝ))
    (hF : Full I pts) (hd : I.dim = d) (hc : c.coordElement = ⟨nodesAt pts, I⟩) (hl : ∀ q ∈ c.rule, q.2.length = d) (f : (Fin d → ℝ) → ℝ)
    (S : Set (Fin d → ℝ)) (hS : MeasurableSet S) (hinj : Set.InjOn (point I pts) S) (hdet : ∀ ξ ∈ S, 0 ≤ (jac I pts ξ).det) (e : ℝ)
    (hrule : |value d c.rule (fun ξ => f (point I pts ξ) * (jac I pts ξ).det) -
      ∫ ξ in S, f (point I pts ξ) * (jac I pts ξ).det| ≤ e) :
    Approx junk c (point I pts '' S) f e := by
  subst hd
  refine ⟨_, integrate_eq junk c I pts hF hc hl f, ?_⟩
  rw [change I hI pts f S hS hinj hdet]
  exact hrule

theorem integrateCells_ok {d : Nat} (junk : Nat → Nat → ℝ) (f : List ℝ → ℝ) (cells : List Cell) (v : Nat → ℝ)
    (h : ∀ i (hi : i < cells.length), cells[i].integratePosition junk f = .ok (v i)) :
    integrateCells junk cells f = .ok (∑ i ∈ range cells.length, v i) := by
  have key : ∀ (l : List Cell) (v : Nat → ℝ) (r : ℝ), (∀ i (hi : i < l.length), l[i].integratePosition junk f = .ok (v i)) →
      Res.foldlM (fun (r : ℝ) (c : Cell) => (c.integratePosition junk f).bind fun x => .ok (r + x)) r l =
        .ok (r + ∑ i ∈ range l.length, v i) := by
    intro l
    induction l with
    | nil => intro v r _; simp
    | cons c t ih =>
      intro v r hv
      have h0 : c.integratePosition junk f = .ok (v 0) := hv 0 (by simp)
      rw [Res.foldlM_cons]
      simp only [h0, Res.bind_ok']
      rw [ih (fun i => v (i + 1)) _ fun i hi => hv (i + 1) (by simpa using hi), List.length_cons, sum_range_succ']
      congr 1
      ring
  rw [integrateCells, key cells v 0 h, zero_add]

/-- C116: the sum over all cells is the integral over the domain, if the elements do not overlap and fill the domain. -/
theorem C116_domain {d : Nat} (junk : Nat → Nat → ℝ) (cells : List Cell) (T : Nat → Set (Fin d → ℝ)) (err : Nat → ℝ)
    (f : (Fin d → ℝ) → ℝ) (Ω : Set (Fin d → ℝ)) (hcell : ∀ i (h : i < cells.length), Approx junk cells[i] (T i) f (err i))
    (hT : ∀ i < cells.length, MeasurableSet (T i)) (hdis : ∀ i < cells.length, ∀ j < cells.length, i ≠ j → Disjoint (T i) (T j))
    (hsub : ∀ i < cells.length, T i ⊆ Ω) (hfin : volume Ω ≠ ⊤) (hvol : volume Ω ≤ ∑ i ∈ range cells.length, volume (T i))
    (hf : IntegrableOn f Ω) :
    ∃ V, integrateCells junk cells (fun x => f fun a => x.getD a 0) = .ok V ∧
      |V - ∫ x in Ω, f x| ≤ ∑ i ∈ range cells.length, err i := by
  have hex : ∀ i, ∃ V, ∀ h : i < cells.length, cells[i].integratePosition junk (fun x => f fun a => x.getD a 0) = .ok V ∧
      |V - ∫ x in T i, f x| ≤ err i := by
    intro i
    by_cases h : i < cells.length
    · obtain ⟨V, hV⟩ := hcell i h
      exact ⟨V, fun _ => hV⟩
    · exact ⟨0, fun h' => absurd h' h⟩
  choose v hv using hex
  refine ⟨_, integrateCells_ok (d := d) junk _ cells v fun i hi => (hv i hi).1, ?_⟩
  have hpair : Set.Pairwise (↑(range cells.length)) (Function.onFun Disjoint T) := by
    intro i hi j hj hij
    exact hdis i (mem_range.1 (mem_coe.1 hi)) j (mem_range.1 (mem_coe.1 hj)) hij
  have hU : (⋃ i ∈ range cells.length, T i) ⊆ Ω := by
    refine Set.iUnion₂_subset fun i hi => hsub i (mem_range.1 hi)
  have hm : MeasurableSet (⋃ i ∈ range cells.length, T i) := Finset.measurableSet_biUnion _ fun i hi => hT i (mem_range.1 hi)
  have hae : (⋃ i ∈ range cells.length, T i) =ᵐ[volume] Ω := by
    refine ae_eq_of_subset_of_measure_ge hU ?_ hm.nullMeasurableSet hfin
    rw [measure_biUnion_finset (fun i hi j hj hij => hpair hi hj hij) fun i hi => hT i (mem_range.1 hi)]
    exact hvol
  rw [← setIntegral_congr_set hae, integral_biUnion_finset _ (fun i hi => hT i (mem_range.1 hi)) hpair
    fun i hi => hf.mono_set (hsub i (mem_range.1 hi)), ← sum_sub_distrib]
  refine (abs_sum_le_sum_abs _ _).trans (sum_le_sum fun i hi => (hv i (mem_range.1 hi)).2)

/-! ### Affine elements -/

/-- an affine map -/
def aff {d : Nat} (b : Fin d → ℝ) (A : Matrix (Fin d) (Fin d) ℝ) (ξ : Fin d → ℝ) : Fin d → ℝ := fun a => b a + ∑ j, A a j * ξ j

open MvPolynomial in
/-- the components of an affine map as polynomials -/
noncomputable def affPoly {d : Nat} (b : Fin d → ℝ) (A : Matrix (Fin d) (Fin d) ℝ) (a : Fin d) : MvPolynomial (Fin d) ℝ :=
  C (b a) + ∑ j, C (A a j) * X j

open MvPolynomial in
theorem eval_affPoly {d : Nat} (b : Fin d → ℝ) (A : Matrix (Fin d) (Fin d) ℝ) (a : Fin d) (ξ : Fin d → ℝ) :
    eval ξ (affPoly b A a) = aff b A ξ a := by
  simp [affPoly, aff]

open MvPolynomial in
theorem totalDegree_affPoly {d : Nat} (b : Fin d → ℝ) (A : Matrix (Fin d) (Fin d) ℝ) (a : Fin d) : (affPoly b A a).totalDegree ≤ 1 := by
  refine (totalDegree_add _ _).trans (max_le (by simp) ?_)
  refine (totalDegree_finsetSum _ _).trans (Finset.sup_le fun j _ => ?_)
  refine (totalDegree_mul _ _).trans ?_
  simp

open MvPolynomial in
theorem norm1_affPoly {d : Nat} (b : Fin d → ℝ) (A : Matrix (Fin d) (Fin d) ℝ) (a : Fin d) :
    norm1 (affPoly b A a) ≤ |b a| + ∑ j, |A a j| := by
  refine (norm1_add _ _).trans ?_
  rw [norm1_C]
  refine add_le_add le_rfl ((norm1_sum _ _).trans (sum_le_sum fun j _ => ?_))
  refine (norm1_mul _ _).trans ?_
  rw [norm1_C, X, norm1_monomial, abs_one, mul_one]

open MvPolynomial in
theorem degreeOf_affPoly {d : Nat} (b : Fin d → ℝ) (A : Matrix (Fin d) (Fin d) ℝ) (hA : ∀ a j, a ≠ j → A a j = 0) (a i : Fin d) :
    (affPoly b A a).degreeOf i ≤ if a = i then 1 else 0 := by
  refine (degreeOf_add_le _ _ _).trans (max_le (by simp) ?_)
  have : ∑ j, C (A a j) * X j = (C (A a a) * X a : MvPolynomial (Fin d) ℝ) := by
    refine Finset.sum_eq_single a (fun j _ hj => ?_) (by simp)
    rw [hA a j (Ne.symm hj), C_0, zero_mul]
  rw [this]
  refine (degreeOf_C_mul_le _ _ _).trans ?_
  rw [degreeOf_X]
  split_ifs with h1 h2 h2
  · exact le_rfl
  · exact absurd h1.symm h2
  · exact absurd h2.symm h1
  · exact le_rfl

theorem aff_injective {d : Nat} (b : Fin d → ℝ) (A : Matrix (Fin d) (Fin d) ℝ) (hA : A.det ≠ 0) : Function.Injective (aff b A) := by
  intro ξ η h
  have : A.mulVec (ξ - η) = 0 := by
    funext a
    have := congrFun h a
    simp only [aff] at this
    rw [Matrix.mulVec, dotProduct]
    simp only [Pi.sub_apply, mul_sub, sum_sub_distrib, Pi.zero_apply]
    linarith
  exact sub_eq_zero.1 (Matrix.eq_zero_of_mulVec_eq_zero hA this)

theorem value_mul {d : Nat} (rule : List (ℝ × List ℝ)) (f : (Fin d → ℝ) → ℝ) (c : ℝ) : value d rule (fun x => f x * c) = value d rule f * c := by
  rw [value, value, ← List.sum_map_mul_right]
  simp only [mul_assoc]

/-- the polynomial in natural coordinates -/
theorem pull_value {d : Nat} (rule : List (ℝ × List ℝ)) (b : Fin d → ℝ) (A : Matrix (Fin d) (Fin d) ℝ) (p : MvPolynomial (Fin d) ℝ)
    (S : Set (Fin d → ℝ)) (e : ℝ) (hA : 0 < A.det)
    (h : |value d rule (fun x => MvPolynomial.eval x (sub (affPoly b A) p)) - ∫ x in S, MvPolynomial.eval x (sub (affPoly b A) p)| ≤ e) :
    |value d rule (fun ξ => MvPolynomial.eval (aff b A ξ) p * A.det) - ∫ ξ in S, MvPolynomial.eval (aff b A ξ) p * A.det| ≤ e * A.det := by
  have hev : ∀ ξ, MvPolynomial.eval ξ (sub (affPoly b A) p) = MvPolynomial.eval (aff b A ξ) p := by
    intro ξ
    rw [eval_sub]
    congr 2
    funext a
    exact eval_affPoly b A a ξ
  simp only [hev] at h
  rw [value_mul, integral_mul_const, ← sub_mul, abs_mul, abs_of_pos hA]
  exact mul_le_mul_of_nonneg_right h hA.le

/-- a rule integrates all polynomials of a degree over the set `S` up to `ε` times the sum of the absolute values of the coefficients -/
def Integrates {d : Nat} (S : Set (Fin d → ℝ)) (rule : List (ℝ × List ℝ)) (degree : Nat) (ε : ℝ) : Prop :=
  ∀ p : MvPolynomial (Fin d) ℝ, p.totalDegree ≤ degree →
    |value d rule (fun x => MvPolynomial.eval x p) - ∫ x in S, MvPolynomial.eval x p| ≤ ε * norm1 p

theorem integrates_triangle {rule : List (ℝ × List ℝ)} {k : Nat} {ε : ℝ} (h : Exact .triangle rule k ε) :
    Integrates (d := 2) (triangle 1) rule k ε := by
  intro p hp
  rw [triangle_integral 1 zero_le_one _ (MvPolynomial.continuous_eval p)]
  exact h p hp

theorem integrates_tetrahedron {rule : List (ℝ × List ℝ)} {k : Nat} {ε : ℝ} (h : Exact .tetrahedron rule k ε) :
    Integrates (d := 3) tetrahedron rule k ε := by
  intro p hp
  rw [tetrahedron_integral _ (MvPolynomial.continuous_eval p)]
  exact h p hp

theorem pull_integrates {d : Nat} {rule : List (ℝ × List ℝ)} {S : Set (Fin d → ℝ)} {k : Nat} {ε : ℝ} (hε : 0 ≤ ε) (h : Integrates S rule k ε)
    (b : Fin d → ℝ) (A : Matrix (Fin d) (Fin d) ℝ) (p : MvPolynomial (Fin d) ℝ) (hA : 0 < A.det) (hp : p.totalDegree ≤ k) (R : ℝ)
    (hR : 1 ≤ R) (hb : ∀ a, |b a| + ∑ j, |A a j| ≤ R) :
    |value d rule (fun ξ => MvPolynomial.eval (aff b A ξ) p * A.det) - ∫ ξ in S, MvPolynomial.eval (aff b A ξ) p * A.det| ≤
      ε * (R ^ k * norm1 p) * A.det := by
  refine pull_value rule b A p S _ hA ((h _ ((totalDegree_sub _ p fun a => totalDegree_affPoly b A a).trans hp)).trans ?_)
  exact mul_le_mul_of_nonneg_left (norm1_sub _ p R hR (fun a => (norm1_affPoly b A a).trans (hb a)) k hp) hε

/-- C116: elements whose map is affine, polynomials up to the degree of the rule: the error of the tables is multiplied by the volume and a
power of the size of the coordinates. -/
theorem C116_affine {d : Nat} (junk : Nat → Nat → ℝ) (c : Cell) (I : Interpolation ℝ) (hI : I ∈ polynomialTypes) (pts : List (List ℝ))
    (hF : Full I pts) (hd : I.dim = d) (hc : c.coordElement = ⟨nodesAt pts, I⟩) (hl : ∀ q ∈ c.rule, q.2.length = d) (b : Fin d → ℝ)
    (A : Matrix (Fin d) (Fin d) ℝ) (hpt : ∀ ξ, point I pts ξ = aff b A ξ) (hjac : ∀ ξ, jac I pts ξ = A) (hA : 0 < A.det)
    (S : Set (Fin d → ℝ)) (hS : MeasurableSet S) (k : Nat) (ε : ℝ) (hε : 0 ≤ ε) (hrule : Integrates S c.rule k ε)
    (p : MvPolynomial (Fin d) ℝ) (hp : p.totalDegree ≤ k) (R : ℝ) (hR : 1 ≤ R) (hb : ∀ a, |b a| + ∑ j, |A a j| ≤ R) :
    Approx junk c (point I pts '' S) (fun x => MvPolynomial.eval x p) (ε * (R ^ k * norm1 p) * A.det) := by
  refine C116_cell junk c I hI pts hF hd hc hl _ S hS ?_ ?_ _ ?_
  · intro ξ _ η _ h
    rw [hpt, hpt] at h
    exact aff_injective b A hA.ne' h
  · intro ξ _
    rw [hjac]
    exact hA.le
  · simp only [hpt, hjac]
    exact pull_integrates hε hrule b A p hA hp R hR hb

/-- C116: an element that is numbered in the wrong direction is accepted and counts negative. -/
theorem C116_clockwise {d : Nat} (junk : Nat → Nat → ℝ) (c : Cell) (I : Interpolation ℝ) (hI : I ∈ polynomialTypes) (pts : List (List ℝ))
    (hF : Full I pts) (hd : I.dim = d) (hc : c.coordElement = ⟨nodesAt pts, I⟩) (hl : ∀ q ∈ c.rule, q.2.length = d) (f : (Fin d → ℝ) → ℝ)
    (S : Set (Fin d → ℝ)) (hS : MeasurableSet S) (hinj : Set.InjOn (point I pts) S) (hdet : ∀ ξ ∈ S, (jac I pts ξ).det ≤ 0)
    (hrule : value d c.rule (fun ξ => f (point I pts ξ) * (jac I pts ξ).det) = ∫ ξ in S, f (point I pts ξ) * (jac I pts ξ).det) :
    c.integratePosition junk (fun x => f fun a => x.getD a 0) = .ok (-∫ x in point I pts '' S, f x) := by
  subst hd
  rw [integrate_eq junk c I pts hF hc hl f, hrule, integral_image_eq_integral_abs_det_fderiv_smul volume hS
    (fun ξ _ => (hasFDerivAt_point I hI pts ξ).hasFDerivWithinAt) hinj, ← integral_neg]
  congr 1
  refine setIntegral_congr_fun hS fun ξ hξ => ?_
  simp only [det_point, abs_of_nonpos (hdet ξ hξ), smul_eq_mul]
  ring

end MeshIntegral
end NuTo
