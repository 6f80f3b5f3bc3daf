/-
C98: a rule made for a shape and an order integrates polynomials of that order over the shape.
-/
import Verif.Model.RuleFactory
import Verif.Props.SimplexRule
import Verif.Props.QuadraturePoints
import Mathlib.MeasureTheory.Integral.Pi
import Mathlib.MeasureTheory.Constructions.Pi

namespace NuTo
namespace RuleFactory

open SimplexRule LegendrePoly

/-- the dimension of a shape -/
def dim : Visualize.Shape → Nat
  | .line => 1
  | .triangle | .quadrilateral => 2
  | .tetrahedron | .hexahedron | .prism | .pyramid => 3

/-- the integral over the cube `[-1, 1] ^ d` -/
noncomputable def cubeIntegral (d : Nat) (f : (Fin d → ℝ) → ℝ) : ℝ := ∫ x in Set.Icc (fun _ => (-1 : ℝ)) (fun _ => 1), f x

/-- the integral over the reference element (the pyramid has the square `[-1, 1] ^ 2` as base and the top `(0, 0, 1)`) -/
noncomputable def integral : (shape : Visualize.Shape) → ((Fin (dim shape) → ℝ) → ℝ) → ℝ
  | .line, f => cubeIntegral 1 f
  | .quadrilateral, f => cubeIntegral 2 f
  | .hexahedron, f => cubeIntegral 3 f
  | .triangle, f => triangleIntegral fun x y => f ![x, y]
  | .tetrahedron, f => tetrahedronIntegral fun x y z => f ![x, y, z]
  | .prism, f => prismIntegral fun x y z => f ![x, y, z]
  | .pyramid, f => ∫ z in (0 : ℝ)..1, ∫ y in -(1 - z)..(1 - z), ∫ x in -(1 - z)..(1 - z), f ![x, y, z]

/-- the value of a rule -/
noncomputable def value (d : Nat) (rule : List (ℝ × List ℝ)) (f : (Fin d → ℝ) → ℝ) : ℝ :=
  (rule.map fun q => q.1 * f fun i => q.2.getD i 0).sum

/-- a rule integrates all polynomials of a degree over a shape, up to an error relative to the sum of the coefficients -/
def Exact (shape : Visualize.Shape) (rule : List (ℝ × List ℝ)) (degree : Nat) (ε : ℝ) : Prop :=
  ∀ p : MvPolynomial (Fin (dim shape)) ℝ, p.totalDegree ≤ degree →
    |value (dim shape) rule (fun x => MvPolynomial.eval x p) - integral shape fun x => MvPolynomial.eval x p| ≤ ε * norm1 p

/-- the list of roots the Legendre iteration looks for -/
def GaussRoots (roots : Int → List ℝ) : Prop :=
  ∀ n : Nat, 0 < n → (roots n).length = n ∧ (roots n).Nodup ∧ ∀ x ∈ roots n, (P ℝ n).eval x = 0

@[inherit_doc GaussRoots] def LobattoRoots (roots : Int → List ℝ) : Prop :=
  ∀ n : Nat, 0 < n → (roots n).length = n - 1 ∧ (roots n).Nodup ∧ ∀ x ∈ roots n, (Polynomial.derivative (P ℝ n)).eval x = 0

theorem cubeIntegral_prod (d : Nat) (f : Fin d → ℝ → ℝ) : cubeIntegral d (fun x => ∏ i, f i (x i)) = ∏ i, ∫ x in (-1 : ℝ)..1, f i x := by
  rw [cubeIntegral, ← Set.pi_univ_Icc]
  rw [MeasureTheory.volume_pi, MeasureTheory.Measure.restrict_pi_pi, MeasureTheory.integral_fintype_prod_eq_prod]
  refine Finset.prod_congr rfl fun i _ => ?_
  rw [intervalIntegral.integral_of_le (by norm_num), MeasureTheory.integral_Icc_eq_integral_Ioc]

theorem cubeIntegral_sum {ι : Type} (d : Nat) (s : Finset ι) (c : ι → ℝ) (m : ι → Fin d → ℕ) :
    cubeIntegral d (fun x => ∑ t ∈ s, c t * ∏ i, x i ^ m t i) = ∑ t ∈ s, c t * ∏ i, ∫ x in (-1 : ℝ)..1, x ^ m t i := by
  rw [cubeIntegral, MeasureTheory.integral_finset_sum]
  · refine Finset.sum_congr rfl fun t _ => ?_
    rw [MeasureTheory.integral_const_mul]
    congr 1
    exact cubeIntegral_prod d fun i x => x ^ m t i
  · intro t _
    apply Continuous.integrableOn_Icc
    fun_prop

/-- C98, cubes: the tensor product of a one-dimensional rule that is exact up to degree `m - 1` integrates every polynomial whose degree in each
single variable is less than `m` over the cube. -/
theorem C98_cube (d n m : Nat) (w pts : List ℝ) (hw : w.length = n) (hp : pts.length = n)
    (hex : ∀ f : Polynomial ℝ, f.natDegree < m → Quadrature.apply (w, pts) f = ∫ x in (-1 : ℝ)..1, f.eval x)
    (p : MvPolynomial (Fin d) ℝ) (hm : ∀ i, p.degreeOf i < m) :
    value d (Quadrature.tensor d n w pts) (fun x => MvPolynomial.eval x p) = cubeIntegral d fun x => MvPolynomial.eval x p := by
  have hI : cubeIntegral d (fun x => MvPolynomial.eval x p) = ∑ t ∈ p.support, p.coeff t * ∏ i, ∫ x in (-1 : ℝ)..1, x ^ t i := by
    rw [← cubeIntegral_sum]
    simp only [MvPolynomial.eval_eq']
  rw [hI, value]
  simp only [MvPolynomial.eval_eq', Finset.mul_sum]
  have hswap : ∀ (s : Finset (Fin d →₀ ℕ)) (l : List (ℝ × List ℝ)) (F : ℝ × List ℝ → (Fin d →₀ ℕ) → ℝ),
      (l.map fun q => ∑ t ∈ s, F q t).sum = ∑ t ∈ s, (l.map fun q => F q t).sum := by
    intro s l F
    induction l with
    | nil => simp
    | cons a l ih => simp [ih, Finset.sum_add_distrib]
  rw [hswap]
  refine Finset.sum_congr rfl fun t ht => ?_
  have hdeg : ∀ i, t i < m := fun i => lt_of_le_of_lt (MvPolynomial.monomial_le_degreeOf i ht) (hm i)
  have hm0 : d = 0 ∨ 0 < m := by
    rcases Nat.eq_zero_or_pos d with h | h
    · exact .inl h
    · exact .inr (lt_of_le_of_lt (Nat.zero_le _) (hdeg ⟨0, h⟩))
  have h1 := C60_tensor d n m w pts hw hp hex (fun e => if h : e < d then Polynomial.X ^ t ⟨e, h⟩ else 0)
  have h2 : ∀ g : Nat → ℝ, ((List.range d).map g).prod = ∏ i : Fin d, g i := by
    intro g
    rw [← List.prod_ofFn, List.ofFn_eq_map, ← List.map_coe_finRange_eq_range, List.map_map]
    rfl
  simp only [h2] at h1
  rcases hm0 with rfl | hm0
  · simp only [Finset.univ_eq_empty, Finset.prod_empty, mul_one]
    have := C31_product 0 n w pts fun _ _ => 1
    simp only [List.range_zero, List.map_nil, List.prod_nil, mul_one] at this
    have h3 : ∀ l : List (ℝ × List ℝ), (l.map fun q => q.1 * p.coeff t).sum = (l.map fun q => q.1).sum * p.coeff t := by
      intro l; induction l with
      | nil => simp
      | cons a l ih => simp [ih, add_mul]
    rw [h3, this, one_mul]
  · have h1 := h1 (by
      intro e
      split_ifs with h
      · rw [Polynomial.natDegree_X_pow]; exact hdeg _
      · simpa using hm0)
    simp only [Fin.is_lt, dite_true, Fin.eta, Polynomial.eval_pow, Polynomial.eval_X] at h1
    rw [← h1, ← List.sum_map_mul_left]
    congr 1
    refine List.map_congr_left fun q _ => ?_
    ring

theorem degreeOf_le {d : Nat} (p : MvPolynomial (Fin d) ℝ) (i : Fin d) : p.degreeOf i ≤ p.totalDegree := MvPolynomial.degreeOf_le_totalDegree p i

/-- C98: line, quadrilateral and hexahedron with Gauss points: `order` points in each direction, exact for all polynomials of degree
`2 order - 1` in each variable, for every positive order. -/
theorem C98_gauss_cube (roots : Int → List ℝ) (hroots : GaussRoots roots) (d : Nat) (n : Nat) (hn : 0 < n) :
    ∃ rule, contents roots roots (.tensorGauss d n) = .ok rule ∧ rule.length = n ^ d ∧
      ∀ p : MvPolynomial (Fin d) ℝ, (∀ i, p.degreeOf i < 2 * n) →
        value d rule (fun x => MvPolynomial.eval x p) = cubeIntegral d fun x => MvPolynomial.eval x p := by
  obtain ⟨h1, h2, h3⟩ := hroots n hn
  obtain ⟨w, e, hw, hex⟩ := C60_gauss n (roots n) hn h1 h2 h3
  refine ⟨Quadrature.tensor d n w (roots n), ?_, by simp [Quadrature.tensor], fun p hp => C98_cube d n (2 * n) w _ hw h1 hex p hp⟩
  rw [contents, e]
  rfl

/-- C98: the same with Lobatto points, for `order` at least 2: exact up to degree `2 order - 3` in each variable. -/
theorem C98_lobatto_cube (roots : Int → List ℝ) (hroots : LobattoRoots roots) (d : Nat) (n : Nat) (hn : 2 ≤ n) :
    ∃ rule, contents roots roots (.tensorLobatto d n) = .ok rule ∧ rule.length = n ^ d ∧
      ∀ p : MvPolynomial (Fin d) ℝ, (∀ i, p.degreeOf i < 2 * (n - 1)) →
        value d rule (fun x => MvPolynomial.eval x p) = cubeIntegral d fun x => MvPolynomial.eval x p := by
  obtain ⟨k, rfl⟩ : ∃ k, n = k + 1 := ⟨n - 1, by omega⟩
  obtain ⟨h1, h2, h3⟩ := hroots k (by omega)
  obtain ⟨w, e, hw, hex⟩ := C60_lobatto k (roots k) (by omega) h1 h2 h3
  refine ⟨Quadrature.tensor d (k + 1) w (-1 :: (roots k ++ [1])), ?_, by simp [Quadrature.tensor], fun p hp => C98_cube d (k + 1) (2 * k) w _ hw
    (by simp [h1]; omega) hex p hp⟩
  rw [contents]
  push_cast
  rw [add_sub_cancel_right, e]
  rfl

theorem collect_ok {α : Type} (num : Res Nat) (weight : Int → Res ℚ) (coords : Int → Res α) (toList : α → List ℝ) (n : Nat) (pt : Nat → α)
    (w : Nat → ℚ) (hn : num = .ok n) (h : ∀ i < n, coords i = .ok (pt i) ∧ weight i = .ok (w i)) :
    collect num weight coords toList = .ok ((List.range n).map fun i => ((w i : ℝ), toList (pt i))) := by
  rw [collect, hn, Res.bind_ok']
  exact Res.mapM_ok _ _ _ fun i hi => by
    obtain ⟨h1, h2⟩ := h i (List.mem_range.mp hi)
    rw [h1, h2]; rfl

theorem range_sum (n : Nat) (f : Nat → ℝ) : ((List.range n).map f).sum = ∑ i ∈ Finset.range n, f i := by
  induction n with
  | zero => simp
  | succ n ih => rw [List.range_succ, Finset.sum_range_succ, ← ih]; simp

theorem triangle_ok (order : Int) (o : Nat) (ε : ℝ)
    (h : TriangleExact (triangleNum order) (triangleCoords order) (triangleWeight order) o ε) (r s : Int → List ℝ) :
    ∃ rule, contents r s (.triangle order) = .ok rule ∧ Exact .triangle rule o ε := by
  obtain ⟨n, pt, w, h1, h2, h3⟩ := h
  refine ⟨_, collect_ok _ _ _ _ n pt w h1 h2, ?_⟩
  intro p hp
  refine le_trans (le_of_eq ?_) (h3 p hp)
  congr 2
  rw [value, List.map_map, range_sum]
  refine Finset.sum_congr rfl fun i _ => ?_
  change (w i : ℝ) * MvPolynomial.eval _ p = _
  congr 3
  funext j
  fin_cases j <;> rfl

theorem solid_sum (n : Nat) (pt : Nat → ℚ × ℚ × ℚ) (w : Nat → ℚ) (p : MvPolynomial (Fin 3) ℝ) :
    value 3 ((List.range n).map fun i => ((w i : ℝ), [((pt i).1 : ℝ), ((pt i).2.1 : ℝ), ((pt i).2.2 : ℝ)])) (fun x => MvPolynomial.eval x p) =
    ∑ i ∈ Finset.range n, (w i : ℝ) * MvPolynomial.eval ![((pt i).1 : ℝ), ((pt i).2.1 : ℝ), ((pt i).2.2 : ℝ)] p := by
  rw [value, List.map_map, range_sum]
  refine Finset.sum_congr rfl fun i _ => ?_
  change (w i : ℝ) * MvPolynomial.eval _ p = _
  congr 3
  funext j
  fin_cases j <;> rfl

theorem tetrahedron_ok (order : Int) (o : Nat) (ε : ℝ)
    (h : SolidExact tetrahedronIntegral (tetrahedronNum order) (tetrahedronCoords order) (tetrahedronWeight order) o ε) (r s : Int → List ℝ) :
    ∃ rule, contents r s (.tetrahedron order) = .ok rule ∧ Exact .tetrahedron rule o ε := by
  obtain ⟨n, pt, w, h1, h2, h3⟩ := h
  refine ⟨_, collect_ok _ _ _ _ n pt w h1 h2, ?_⟩
  intro p hp
  exact le_trans (le_of_eq (congrArg abs (congrArg₂ HSub.hSub (solid_sum n pt w p) rfl))) (h3 p hp)

theorem prism_ok (num : Res Nat) (coords : Int → Res (ℚ × ℚ × ℚ)) (weight : Int → Res ℚ) (o : Nat) (ε : ℝ)
    (h : SolidExact prismIntegral num coords weight o ε) :
    ∃ rule, collect num weight coords (fun c => [(c.1 : ℝ), (c.2.1 : ℝ), (c.2.2 : ℝ)]) = .ok rule ∧ Exact .prism rule o ε := by
  obtain ⟨n, pt, w, h1, h2, h3⟩ := h
  refine ⟨_, collect_ok _ _ _ _ n pt w h1 h2, ?_⟩
  intro p hp
  exact le_trans (le_of_eq (congrArg abs (congrArg₂ HSub.hSub (solid_sum n pt w p) rfl))) (h3 p hp)

theorem Exact.mono {shape : Visualize.Shape} {rule : List (ℝ × List ℝ)} {degree : Nat} {ε δ : ℝ} (h : Exact shape rule degree ε) (hε : ε ≤ δ) :
    Exact shape rule degree δ := fun p hp => (h p hp).trans
  (mul_le_mul_of_nonneg_right hε (Finset.sum_nonneg fun _ _ => abs_nonneg _))

theorem exact_of_cube {shape : Visualize.Shape} (hs : shape = .line ∨ shape = .quadrilateral ∨ shape = .hexahedron) (rule : List (ℝ × List ℝ))
    (o m : Nat) (ho : o < m) (h : ∀ p : MvPolynomial (Fin (dim shape)) ℝ, (∀ i, p.degreeOf i < m) →
      value (dim shape) rule (fun x => MvPolynomial.eval x p) = cubeIntegral (dim shape) fun x => MvPolynomial.eval x p) :
    Exact shape rule o 0 := by
  intro p hp
  have := h p fun i => lt_of_le_of_lt ((degreeOf_le p i).trans hp) ho
  rw [this]
  have h0 : cubeIntegral (dim shape) (fun x => MvPolynomial.eval x p) = integral shape fun x => MvPolynomial.eval x p := by
    rcases hs with rfl | rfl | rfl <;> rfl
  rw [h0, sub_self, abs_zero, zero_mul]

/-- the orders the Gauss factory accepts -/
def gaussOrder : Visualize.Shape → Int → Prop
  | .line, o | .quadrilateral, o | .hexahedron, o => 1 ≤ o
  | .triangle, o | .tetrahedron, o => 1 ≤ o ∧ o ≤ 20
  | .prism, o => 1 ≤ o ∧ o ≤ 2
  | .pyramid, _ => False

/-- the rounding error of the tables, relative to the sum of the absolute values of the coefficients of the polynomial -/
noncomputable def tableError : Visualize.Shape → Int → ℝ
  | .triangle, o => if o = 20 then 12 / 10 ^ 11 else 5 / 10 ^ 15
  | .tetrahedron, _ => 2 / 10 ^ 14
  | .prism, _ => 1 / 10 ^ 15
  | _, _ => 0

/-- C98, Gauss: for every shape and order the factory throws, or all points of the rule can be read and the rule integrates every polynomial
whose total degree is at most the order, up to the rounding of the tabulated numbers. -/
theorem C98_gauss (roots : Int → List ℝ) (hroots : GaussRoots roots) (shape : Visualize.Shape) (order : Int) :
    (gaussOrder shape order → ∃ rule, gauss roots shape order = .ok rule ∧ Exact shape rule order.toNat (tableError shape order)) ∧
    (¬ gaussOrder shape order → gauss roots shape order = .throw) := by
  have hcube : ∀ d : Nat, 1 ≤ order → ∃ rule, contents roots roots (.tensorGauss d order) = .ok rule ∧
      ∀ p : MvPolynomial (Fin d) ℝ, (∀ i, p.degreeOf i < 2 * order.toNat) →
        value d rule (fun x => MvPolynomial.eval x p) = cubeIntegral d fun x => MvPolynomial.eval x p := by
    intro d h
    obtain ⟨o, rfl⟩ := Int.eq_ofNat_of_zero_le (show 0 ≤ order by omega)
    obtain ⟨rule, h1, -, h3⟩ := C98_gauss_cube roots hroots d o (by omega)
    exact ⟨rule, h1, h3⟩
  have hthrow : ∀ d : Nat, ¬ 1 ≤ order → contents roots roots (.tensorGauss d order) = .throw := by
    intro d h
    rw [contents, Quadrature.gauss, if_pos (by omega)]; rfl
  have hs : ∀ s : Visualize.Shape, s = .line ∨ s = .quadrilateral ∨ s = .hexahedron → tableError s order = 0 := by
    rintro s (rfl | rfl | rfl) <;> rfl
  cases shape with
  | line =>
    refine ⟨fun h => ?_, fun h => hthrow 1 h⟩
    obtain ⟨rule, h1, h3⟩ := hcube 1 h
    exact ⟨rule, h1, by rw [hs _ (by simp)]; exact exact_of_cube (by simp) rule _ _ (by simp only [gaussOrder] at h; omega) h3⟩
  | quadrilateral =>
    refine ⟨fun h => ?_, fun h => hthrow 2 h⟩
    obtain ⟨rule, h1, h3⟩ := hcube 2 h
    exact ⟨rule, h1, by rw [hs _ (by simp)]; exact exact_of_cube (by simp) rule _ _ (by simp only [gaussOrder] at h; omega) h3⟩
  | hexahedron =>
    refine ⟨fun h => ?_, fun h => hthrow 3 h⟩
    obtain ⟨rule, h1, h3⟩ := hcube 3 h
    exact ⟨rule, h1, by rw [hs _ (by simp)]; exact exact_of_cube (by simp) rule _ _ (by simp only [gaussOrder] at h; omega) h3⟩
  | triangle =>
    constructor
    · rintro ⟨h1, h2⟩
      obtain ⟨o, rfl⟩ := Int.eq_ofNat_of_zero_le (show 0 ≤ order by omega)
      rw [gauss, createGauss, if_pos (by omega), Res.bind_ok', tableError]
      split_ifs with h20
      · have : o = 20 := by exact_mod_cast h20
        subst this
        exact triangle_ok _ 20 _ C65_triangle20_partial _ _
      · exact triangle_ok _ o _ (C65_triangle o (by omega) (by omega)) _ _
    · intro h
      rw [gauss, createGauss, if_neg (by simp only [gaussOrder] at h; omega)]; rfl
  | tetrahedron =>
    constructor
    · rintro ⟨h1, h2⟩
      obtain ⟨o, rfl⟩ := Int.eq_ofNat_of_zero_le (show 0 ≤ order by omega)
      rw [gauss, createGauss, if_pos (by omega), Res.bind_ok', tableError]
      exact tetrahedron_ok _ o _ (C65_tetrahedron o (by omega)) _ _
    · intro h
      rw [gauss, createGauss, if_neg (by simp only [gaussOrder] at h; omega)]; rfl
  | prism =>
    constructor
    · rintro ⟨h1, h2⟩
      rcases (by omega : order = 1 ∨ order = 2) with rfl | rfl
      · obtain ⟨rule, a, b⟩ := prism_ok _ _ _ _ _ C65_prism1
        exact ⟨rule, a, b.mono (by norm_num [tableError])⟩
      · exact prism_ok _ _ _ _ _ C65_prism2
    · intro h
      rw [gauss, createGauss, if_neg (by simp only [gaussOrder] at h; omega), if_neg (by simp only [gaussOrder] at h; omega)]; rfl
  | pyramid => exact ⟨fun h => h.elim, fun _ => rfl⟩

/-- C98, Lobatto: the same for every order but 2.  Part of the property: for order 2 see `C98_lobatto_counterexample`. -/
theorem C98_lobatto_partial (roots : Int → List ℝ) (hroots : LobattoRoots roots) (shape : Visualize.Shape) (order : Int) (h2 : order ≠ 2) :
    (shape = .line ∨ shape = .quadrilateral ∨ shape = .hexahedron → 3 ≤ order →
      ∃ rule, lobatto roots shape order = .ok rule ∧ Exact shape rule order.toNat 0) ∧
    ((¬ (shape = .line ∨ shape = .quadrilateral ∨ shape = .hexahedron) ∨ order < 3) → lobatto roots shape order = .throw) := by
  have hcube : ∀ d : Nat, 3 ≤ order → ∃ rule, contents roots roots (.tensorLobatto d order) = .ok rule ∧
      ∀ p : MvPolynomial (Fin d) ℝ, (∀ i, p.degreeOf i < 2 * (order.toNat - 1)) →
        value d rule (fun x => MvPolynomial.eval x p) = cubeIntegral d fun x => MvPolynomial.eval x p := by
    intro d h
    obtain ⟨o, rfl⟩ := Int.eq_ofNat_of_zero_le (show 0 ≤ order by omega)
    obtain ⟨rule, h1, -, h3⟩ := C98_lobatto_cube roots hroots d o (by omega)
    exact ⟨rule, h1, h3⟩
  have hthrow : ∀ d : Nat, order < 3 → contents roots roots (.tensorLobatto d order) = .throw := by
    intro d h
    rw [contents, Quadrature.lobatto, if_pos (by omega)]; rfl
  constructor
  · rintro hs h
    obtain ⟨rule, h1, h3⟩ := hcube (dim shape) h
    refine ⟨rule, ?_, exact_of_cube hs rule _ _ (by omega) h3⟩
    rcases hs with rfl | rfl | rfl <;> exact h1
  · rintro (hs | h)
    · cases shape <;> first | rfl | simp at hs
    · cases shape <;> first | rfl | exact hthrow _ h

/-- C98: `CreateLobattoIntegrationType` with order 2 does not integrate polynomials of order 2: for `x²` it gives the value `2 ^ d` (`d` being the
dimension) while the integral is a third of this. -/
theorem C98_lobatto_counterexample (roots : Int → List ℝ) (hroots : LobattoRoots roots) :
    ∃ rule, lobatto roots .line 2 = .ok rule ∧
      value 1 rule (fun x => MvPolynomial.eval x (MvPolynomial.X 0 ^ 2 : MvPolynomial (Fin 1) ℝ)) = 2 ∧
      integral .line (fun x => MvPolynomial.eval x (MvPolynomial.X 0 ^ 2 : MvPolynomial (Fin 1) ℝ)) = 2 / 3 := by
  obtain ⟨h1, -, -⟩ := hroots 1 one_pos
  have h1 : roots 1 = [] := List.eq_nil_of_length_eq_zero h1
  refine ⟨[(1, [-1]), (1, [1])], ?_, ?_, ?_⟩
  · rw [lobatto, createLobatto, Res.bind_ok', contents, show (2 : Int) - 1 = 1 by norm_num, h1]
    simp [Quadrature.lobatto, Quadrature.tensor, Quadrature.tensorStep, List.range_succ, Res.bind]
  · simp [value]; norm_num
  · have := cubeIntegral_prod 1 fun _ x => x ^ 2
    simp only [Finset.univ_unique, Finset.prod_singleton] at this
    have e : ∀ x : Fin 1 → ℝ, MvPolynomial.eval x (MvPolynomial.X 0 ^ 2 : MvPolynomial (Fin 1) ℝ) = x default ^ 2 := by
      intro x
      rw [map_pow, MvPolynomial.eval_X]; rfl
    change cubeIntegral 1 (fun x => MvPolynomial.eval x (MvPolynomial.X 0 ^ 2 : MvPolynomial (Fin 1) ℝ)) = _
    simp only [e]
    rw [this, integral_pow]; norm_num

/-- root lists as assumed exist -/
example : ∃ roots, GaussRoots roots := by
  choose f hf using fun n => (C60_gauss_exists n).exists
  refine ⟨fun n => f n.toNat, fun n _ => ?_⟩
  obtain ⟨h1, h2, h3⟩ := hf n
  exact ⟨by simpa using h1, by simpa [List.Nodup] using h2.imp fun h => h.ne, by simpa using h3⟩

example : ∃ roots, LobattoRoots roots := by
  choose f hf using fun n : Nat => (C60_lobatto_exists (n + 1) (by omega)).exists
  refine ⟨fun n => f (n.toNat - 1), fun n hn => ?_⟩
  obtain ⟨k, rfl⟩ : ∃ k, n = k + 1 := ⟨n - 1, by omega⟩
  obtain ⟨h1, h2, h3⟩ := hf k
  exact ⟨by simpa using h1, by simpa [List.Nodup] using h2.imp fun h => h.ne, by simpa using h3⟩

example : gaussOrder .hexahedron 7 ∧ gaussOrder .prism 2 ∧ ¬ gaussOrder .triangle 21 := by simp [gaussOrder]

end RuleFactory
end NuTo
