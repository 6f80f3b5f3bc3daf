/-
Polynomials after a substitution, and the integrals over reference elements as integrals over open sets.
-/
import Verif.Props.RuleFactory
import Mathlib.MeasureTheory.Integral.Prod
import Mathlib.MeasureTheory.Measure.Lebesgue.Basic

namespace NuTo
namespace MeshIntegral

open MvPolynomial SimplexRule MeasureTheory

variable {d : Nat}

/-! ### Substitution -/

/-- `p` with the polynomial `f i` in the place of the variable `i` -/
noncomputable def sub (f : Fin d → MvPolynomial (Fin d) ℝ) (p : MvPolynomial (Fin d) ℝ) : MvPolynomial (Fin d) ℝ :=
  ∑ m ∈ p.support, C (p.coeff m) * ∏ i, f i ^ m i

theorem eval_sub (f : Fin d → MvPolynomial (Fin d) ℝ) (p : MvPolynomial (Fin d) ℝ) (x : Fin d → ℝ) :
    eval x (sub f p) = eval (fun i => eval x (f i)) p := by
  rw [sub, map_sum, eval_eq' (fun i => eval x (f i)) p]
  refine Finset.sum_congr rfl fun m _ => ?_
  rw [map_mul, eval_C, map_prod]
  simp

theorem totalDegree_sub (f : Fin d → MvPolynomial (Fin d) ℝ) (p : MvPolynomial (Fin d) ℝ) (hf : ∀ i, (f i).totalDegree ≤ 1) :
    (sub f p).totalDegree ≤ p.totalDegree := by
  refine (totalDegree_finsetSum _ _).trans (Finset.sup_le fun m hm => ?_)
  refine (totalDegree_mul _ _).trans ?_
  rw [totalDegree_C, zero_add]
  refine (totalDegree_finsetProd _ _).trans ?_
  have h1 : ∑ i, (f i ^ m i).totalDegree ≤ ∑ i, m i := Finset.sum_le_sum fun i _ =>
    (totalDegree_pow _ _).trans (by nlinarith [hf i, Nat.zero_le (m i)])
  refine h1.trans ?_
  have := le_totalDegree hm
  rwa [Finsupp.sum_fintype _ _ fun _ => rfl] at this

theorem degreeOf_sub_diag (f : Fin d → MvPolynomial (Fin d) ℝ) (p : MvPolynomial (Fin d) ℝ) (i : Fin d)
    (hf : ∀ a, (f a).degreeOf i ≤ if a = i then 1 else 0) : (sub f p).degreeOf i ≤ p.degreeOf i := by
  refine (degreeOf_sum_le _ _ _).trans (Finset.sup_le fun m hm => ?_)
  refine (degreeOf_C_mul_le _ _ _).trans ?_
  refine (degreeOf_prod_le _ _ _).trans ?_
  have h1 : ∑ a, (f a ^ m a).degreeOf i ≤ ∑ a, m a * (if a = i then 1 else 0) := Finset.sum_le_sum fun a _ =>
    (degreeOf_pow_le _ _ _).trans (Nat.mul_le_mul_left _ (hf a))
  refine h1.trans ?_
  simp only [mul_ite, mul_one, mul_zero, Finset.sum_ite_eq', Finset.mem_univ, if_true]
  exact monomial_le_degreeOf i hm

theorem degreeOf_sub_total (f : Fin d → MvPolynomial (Fin d) ℝ) (p : MvPolynomial (Fin d) ℝ) (i : Fin d)
    (hf : ∀ a, (f a).degreeOf i ≤ 1) : (sub f p).degreeOf i ≤ p.totalDegree := by
  refine (degreeOf_sum_le _ _ _).trans (Finset.sup_le fun m hm => ?_)
  refine (degreeOf_C_mul_le _ _ _).trans ?_
  refine (degreeOf_prod_le _ _ _).trans ?_
  have h1 : ∑ a, (f a ^ m a).degreeOf i ≤ ∑ a, m a := Finset.sum_le_sum fun a _ =>
    (degreeOf_pow_le _ _ _).trans (by nlinarith [hf a, Nat.zero_le (m a)])
  refine h1.trans ?_
  have := le_totalDegree hm
  rwa [Finsupp.sum_fintype _ _ fun _ => rfl] at this

/-! ### The sum of the absolute values of the coefficients -/

theorem norm1_nonneg (p : MvPolynomial (Fin d) ℝ) : 0 ≤ norm1 p := Finset.sum_nonneg fun _ _ => abs_nonneg _

theorem norm1_eq (p : MvPolynomial (Fin d) ℝ) (s : Finset (Fin d →₀ ℕ)) (hs : p.support ⊆ s) : norm1 p = ∑ m ∈ s, |p.coeff m| := by
  rw [norm1]
  refine Finset.sum_subset hs fun m _ hm => ?_
  rw [notMem_support_iff.1 hm, abs_zero]

theorem norm1_add (p q : MvPolynomial (Fin d) ℝ) : norm1 (p + q) ≤ norm1 p + norm1 q := by
  classical
  rw [norm1_eq (p + q) (p.support ∪ q.support) support_add, norm1_eq p _ Finset.subset_union_left,
    norm1_eq q _ Finset.subset_union_right, ← Finset.sum_add_distrib]
  refine Finset.sum_le_sum fun m _ => ?_
  rw [coeff_add]
  exact abs_add_le _ _

theorem norm1_zero : norm1 (0 : MvPolynomial (Fin d) ℝ) = 0 := by simp [norm1]

theorem norm1_sum {ι : Type} (s : Finset ι) (f : ι → MvPolynomial (Fin d) ℝ) : norm1 (∑ i ∈ s, f i) ≤ ∑ i ∈ s, norm1 (f i) := by
  classical
  induction s using Finset.induction_on with
  | empty => simp [norm1_zero]
  | insert a s ha ih =>
    rw [Finset.sum_insert ha, Finset.sum_insert ha]
    exact (norm1_add _ _).trans (by linarith)

theorem norm1_monomial (m : Fin d →₀ ℕ) (c : ℝ) : norm1 (monomial m c) = |c| := by
  classical
  rw [norm1_eq _ {m} support_monomial_subset, Finset.sum_singleton, coeff_monomial, if_pos rfl]

theorem norm1_mul (p q : MvPolynomial (Fin d) ℝ) : norm1 (p * q) ≤ norm1 p * norm1 q := by
  have hp := p.as_sum
  have hq := q.as_sum
  have : p * q = ∑ m ∈ p.support, ∑ n ∈ q.support, monomial (m + n) (p.coeff m * q.coeff n) := by
    conv_lhs => rw [hp, hq, Finset.sum_mul_sum]
    simp only [monomial_mul]
  rw [this]
  refine (norm1_sum _ _).trans ?_
  rw [norm1, norm1, Finset.sum_mul_sum]
  refine Finset.sum_le_sum fun m _ => (norm1_sum _ _).trans (Finset.sum_le_sum fun n _ => ?_)
  rw [norm1_monomial, abs_mul]

theorem norm1_C (c : ℝ) : norm1 (C c : MvPolynomial (Fin d) ℝ) = |c| := norm1_monomial 0 c

theorem norm1_one : norm1 (1 : MvPolynomial (Fin d) ℝ) = 1 := by
  rw [show (1 : MvPolynomial (Fin d) ℝ) = C 1 by simp, norm1_C, abs_one]

theorem norm1_pow (p : MvPolynomial (Fin d) ℝ) (k : ℕ) : norm1 (p ^ k) ≤ norm1 p ^ k := by
  induction k with
  | zero => simp [norm1_one]
  | succ k ih =>
    rw [pow_succ, pow_succ]
    exact (norm1_mul _ _).trans (mul_le_mul_of_nonneg_right ih (norm1_nonneg _))

theorem norm1_prod {ι : Type} (s : Finset ι) (f : ι → MvPolynomial (Fin d) ℝ) : norm1 (∏ i ∈ s, f i) ≤ ∏ i ∈ s, norm1 (f i) := by
  classical
  induction s using Finset.induction_on with
  | empty => simp [norm1_one]
  | insert a s ha ih =>
    rw [Finset.prod_insert ha, Finset.prod_insert ha]
    exact (norm1_mul _ _).trans (mul_le_mul_of_nonneg_left ih (norm1_nonneg _))

theorem norm1_sub (f : Fin d → MvPolynomial (Fin d) ℝ) (p : MvPolynomial (Fin d) ℝ) (R : ℝ) (hR : 1 ≤ R) (hf : ∀ i, norm1 (f i) ≤ R) (k : ℕ)
    (hk : p.totalDegree ≤ k) : norm1 (sub f p) ≤ R ^ k * norm1 p := by
  refine (norm1_sum _ _).trans ?_
  rw [norm1, Finset.mul_sum]
  refine Finset.sum_le_sum fun m hm => ?_
  refine (norm1_mul _ _).trans ?_
  rw [norm1_C, mul_comm]
  refine mul_le_mul_of_nonneg_right ?_ (abs_nonneg _)
  refine (norm1_prod _ _).trans ?_
  have h1 : ∏ i, norm1 (f i ^ m i) ≤ ∏ i, R ^ m i := Finset.prod_le_prod (fun i _ => norm1_nonneg _) fun i _ =>
    (norm1_pow _ _).trans (pow_le_pow_left₀ (norm1_nonneg _) (hf i) _)
  refine h1.trans ?_
  rw [Finset.prod_pow_eq_pow_sum]
  refine pow_le_pow_right₀ hR ?_
  have := le_totalDegree hm
  rw [Finsupp.sum_fintype _ _ fun _ => rfl] at this
  exact this.trans hk

/-! ### Reference elements -/

/-- the open cube `(-1, 1) ^ d` -/
def cube (d : Nat) : Set (Fin d → ℝ) := Set.univ.pi fun _ => Set.Ioo (-1) 1

/-- the open triangle `0 < x, 0 < y, x + y < a` -/
def triangle (a : ℝ) : Set (Fin 2 → ℝ) := {x | 0 < x 0 ∧ 0 < x 1 ∧ x 0 + x 1 < a}

/-- the open tetrahedron -/
def tetrahedron : Set (Fin 3 → ℝ) := {x | 0 < x 0 ∧ 0 < x 1 ∧ 0 < x 2 ∧ x 0 + x 1 + x 2 < 1}

theorem measurableSet_cube : MeasurableSet (cube d) := MeasurableSet.univ_pi fun _ => measurableSet_Ioo

theorem measurableSet_triangle (a : ℝ) : MeasurableSet (triangle a) := by
  unfold triangle
  simp only [Set.setOf_and]
  refine ((measurableSet_lt measurable_const (measurable_pi_apply 0)).inter
    ((measurableSet_lt measurable_const (measurable_pi_apply 1)).inter (measurableSet_lt ?_ measurable_const)))
  exact (measurable_pi_apply 0).add (measurable_pi_apply 1)

theorem measurableSet_tetrahedron : MeasurableSet tetrahedron := by
  unfold tetrahedron
  simp only [Set.setOf_and]
  refine ((measurableSet_lt measurable_const (measurable_pi_apply 0)).inter
    ((measurableSet_lt measurable_const (measurable_pi_apply 1)).inter ((measurableSet_lt measurable_const (measurable_pi_apply 2)).inter
      (measurableSet_lt ?_ measurable_const))))
  exact ((measurable_pi_apply 0).add (measurable_pi_apply 1)).add (measurable_pi_apply 2)

theorem cube_integral (f : (Fin d → ℝ) → ℝ) : RuleFactory.cubeIntegral d f = ∫ x in cube d, f x := by
  rw [RuleFactory.cubeIntegral, cube]
  exact setIntegral_congr_set Measure.univ_pi_Ioo_ae_eq_Icc.symm

theorem triangle_subset (a : ℝ) : triangle a ⊆ Set.Icc (fun _ => 0) (fun _ => a) := by
  rintro x ⟨h1, h2, h3⟩
  constructor <;> intro i <;> fin_cases i <;> simp <;> linarith

theorem tetrahedron_subset : tetrahedron ⊆ Set.Icc (fun _ => 0) (fun _ => 1) := by
  rintro x ⟨h1, h2, h3, h4⟩
  constructor <;> intro i <;> fin_cases i <;> simp <;> linarith

theorem triangle_integral (a : ℝ) (ha : 0 ≤ a) (f : (Fin 2 → ℝ) → ℝ) (hf : Continuous f) :
    ∫ x in triangle a, f x = ∫ x in (0 : ℝ)..a, ∫ y in (0 : ℝ)..(a - x), f ![x, y] := by
  have hint : IntegrableOn f (triangle a) := (hf.integrableOn_Icc).mono_set (triangle_subset a)
  rw [← integral_indicator (measurableSet_triangle a)]
  have e := (volume_preserving_finTwoArrow ℝ).symm
  rw [← e.integral_comp (MeasurableEquiv.finTwoArrow.symm.measurableEmbedding)]
  have hi : Integrable (fun z : ℝ × ℝ => (triangle a).indicator f (MeasurableEquiv.finTwoArrow.symm z)) :=
    (e.integrable_comp_emb MeasurableEquiv.finTwoArrow.symm.measurableEmbedding).2 (hint.integrable_indicator (measurableSet_triangle a))
  rw [Measure.volume_eq_prod, integral_prod _ hi, intervalIntegral.integral_of_le ha, integral_Ioc_eq_integral_Ioo,
    ← integral_indicator measurableSet_Ioo]
  congr 1
  funext x
  by_cases hx : x ∈ Set.Ioo (0 : ℝ) a
  · rw [Set.indicator_of_mem hx, intervalIntegral.integral_of_le (by linarith [hx.2]), integral_Ioc_eq_integral_Ioo,
      ← integral_indicator measurableSet_Ioo]
    congr 1
    funext y
    have : MeasurableEquiv.finTwoArrow.symm (x, y) = ![x, y] := by
      ext i
      fin_cases i <;> rfl
    rw [this]
    by_cases hy : y ∈ Set.Ioo (0 : ℝ) (a - x)
    · rw [Set.indicator_of_mem hy, Set.indicator_of_mem]
      exact ⟨hx.1, hy.1, by simpa using (by linarith [hy.2] : x + y < a)⟩
    · rw [Set.indicator_of_notMem hy, Set.indicator_of_notMem]
      rintro ⟨h1, h2, h3⟩
      simp only [Matrix.cons_val_zero, Matrix.cons_val_one] at h1 h2 h3
      exact hy ⟨h2, by linarith⟩
  · rw [Set.indicator_of_notMem hx]
    have : ∀ y, (triangle a).indicator f (MeasurableEquiv.finTwoArrow.symm (x, y)) = 0 := by
      intro y
      rw [Set.indicator_of_notMem]
      rintro ⟨h1, h2, h3⟩
      exact hx ⟨h1, by
        have h1 : (0 : ℝ) < x := h1
        have h2 : (0 : ℝ) < y := h2
        have h3 : x + y < a := h3
        linarith⟩
    simp only [this, integral_zero]

theorem tetrahedron_integral (f : (Fin 3 → ℝ) → ℝ) (hf : Continuous f) :
    ∫ x in tetrahedron, f x = tetrahedronIntegral fun x y z => f ![x, y, z] := by
  have hint : IntegrableOn f tetrahedron := (hf.integrableOn_Icc).mono_set tetrahedron_subset
  rw [← integral_indicator measurableSet_tetrahedron]
  have e := (volume_preserving_piFinSuccAbove (fun _ : Fin 3 => ℝ) 0).symm
  have hemb := (MeasurableEquiv.piFinSuccAbove (fun _ : Fin 3 => ℝ) 0).symm.measurableEmbedding
  rw [← e.integral_comp hemb]
  have hi : Integrable (fun z : ℝ × (Fin 2 → ℝ) => tetrahedron.indicator f ((MeasurableEquiv.piFinSuccAbove (fun _ : Fin 3 => ℝ) 0).symm z)) :=
    (e.integrable_comp_emb hemb).2 (hint.integrable_indicator measurableSet_tetrahedron)
  have hcons : ∀ (x : ℝ) (v : Fin 2 → ℝ), (MeasurableEquiv.piFinSuccAbove (fun _ : Fin 3 => ℝ) 0).symm (x, v) = ![x, v 0, v 1] := by
    intro x v
    ext i
    fin_cases i <;> rfl
  rw [Measure.volume_eq_prod, integral_prod _ hi, tetrahedronIntegral, intervalIntegral.integral_of_le zero_le_one,
    integral_Ioc_eq_integral_Ioo, ← integral_indicator measurableSet_Ioo]
  congr 1
  funext x
  simp only [hcons]
  by_cases hx : x ∈ Set.Ioo (0 : ℝ) 1
  · rw [Set.indicator_of_mem hx]
    have := triangle_integral (1 - x) (by linarith [hx.2]) (fun v => f ![x, v 0, v 1]) (by fun_prop)
    simp only [Matrix.cons_val_zero, Matrix.cons_val_one] at this
    rw [← this, ← integral_indicator (measurableSet_triangle _)]
    congr 1
    funext v
    by_cases hv : v ∈ triangle (1 - x)
    · rw [Set.indicator_of_mem hv, Set.indicator_of_mem]
      obtain ⟨h1, h2, h3⟩ := hv
      exact ⟨hx.1, h1, h2, by simpa using (by linarith : x + v 0 + v 1 < 1)⟩
    · rw [Set.indicator_of_notMem hv, Set.indicator_of_notMem]
      rintro ⟨h1, h2, h3, h4⟩
      have h4 : x + v 0 + v 1 < 1 := h4
      exact hv ⟨h2, h3, by linarith⟩
  · rw [Set.indicator_of_notMem hx]
    have : ∀ v : Fin 2 → ℝ, tetrahedron.indicator f ![x, v 0, v 1] = 0 := by
      intro v
      rw [Set.indicator_of_notMem]
      rintro ⟨h1, h2, h3, h4⟩
      have h1 : (0 : ℝ) < x := h1
      have h2 : (0 : ℝ) < v 0 := h2
      have h3 : (0 : ℝ) < v 1 := h3
      have h4 : x + v 0 + v 1 < 1 := h4
      exact hx ⟨h1, by linarith⟩
    simp only [this, integral_zero]

end MeshIntegral
end NuTo
