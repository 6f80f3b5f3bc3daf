/-
C65: the rules on triangle, tetrahedron and prism are exact to their order.
-/
import Verif.Model.SimplexRule
import Verif.Lemmas.TetrahedronRule17
import Verif.Lemmas.TetrahedronRule19
import Verif.Lemmas.TetrahedronRule21
import Mathlib.Tactic.IntervalCases
import Mathlib.Tactic.FinCases

namespace NuTo.SimplexRule

open MvPolynomial

/-! ### Statements -/

/-- An integration rule on the triangle, read through its three methods, integrates every polynomial of the given
degree over the triangle with an error of at most `ε` times the sum of the absolute values of the coefficients. -/
def TriangleExact (num : Res ℕ) (coords : Int → Res (ℚ × ℚ)) (weight : Int → Res ℚ) (degree : ℕ) (ε : ℝ) : Prop :=
  ∃ (n : ℕ) (pt : ℕ → ℚ × ℚ) (w : ℕ → ℚ), num = .ok n ∧
    (∀ i < n, coords i = .ok (pt i) ∧ weight i = .ok (w i)) ∧
    ∀ p : MvPolynomial (Fin 2) ℝ, p.totalDegree ≤ degree →
      |∑ i ∈ Finset.range n, (w i : ℝ) * eval ![((pt i).1 : ℝ), ((pt i).2 : ℝ)] p -
        triangleIntegral fun x y => eval ![x, y] p| ≤ ε * norm1 p

/-- The same in three dimensions, over the tetrahedron or the prism. -/
def SolidExact (integral : (ℝ → ℝ → ℝ → ℝ) → ℝ) (num : Res ℕ) (coords : Int → Res (ℚ × ℚ × ℚ))
    (weight : Int → Res ℚ) (degree : ℕ) (ε : ℝ) : Prop :=
  ∃ (n : ℕ) (pt : ℕ → ℚ × ℚ × ℚ) (w : ℕ → ℚ), num = .ok n ∧
    (∀ i < n, coords i = .ok (pt i) ∧ weight i = .ok (w i)) ∧
    ∀ p : MvPolynomial (Fin 3) ℝ, p.totalDegree ≤ degree →
      |∑ i ∈ Finset.range n, (w i : ℝ) * eval ![((pt i).1 : ℝ), ((pt i).2.1 : ℝ), ((pt i).2.2 : ℝ)] p -
        integral fun x y z => eval ![x, y, z] p| ≤ ε * norm1 p

/-! ### Auxiliary facts -/

theorem vecAt_getD {α : Type _} (l : List α) (d : α) (i : ℕ) (hi : i < l.length) :
    vecAt l (i : Int) = .ok (l.getD i d) := by
  have h : ¬ ((i : Int) < 0) := by omega
  simp [vecAt, h, List.getD_eq_getElem?_getD, List.getElem?_eq_getElem hi]

theorem triangle_exact (order : Int) (degree : ℕ) (r : List (ℤ × ℤ × ℤ)) (hr : triangleRule order = .ok r) (c N : ℕ)
    (hN : 0 < N) (h : all2 r c N degree = true) :
    TriangleExact (triangleNum order) (triangleCoords order) (triangleWeight order) degree ((c : ℝ) / N) := by
  refine ⟨r.length, fun i => (coord (r.getD i 0).1, coord (r.getD i 0).2.1),
    fun i => ((r.getD i 0).2.2 : ℚ) / 10 ^ 20, ?_, ?_, ?_⟩
  · rw [triangleNum, hr]; rfl
  · intro i hi
    rw [triangleCoords, triangleWeight, hr, Res.bind_ok', Res.bind_ok', vecAt_getD r 0 i hi]
    exact ⟨rfl, rfl⟩
  · intro p hp
    have e : (triangleIntegral fun x y => eval ![x, y] p) = ∑ m ∈ p.support, p.coeff m *
        (((m 0).factorial * (m 1).factorial : ℝ) / (m 0 + m 1 + 2).factorial) := by
      rw [← triangleIntegral_sum]
      congr 1
      funext x y
      rw [eval_eq']
      exact Finset.sum_congr rfl fun m _ => by rw [Fin.prod_univ_two]; rfl
    rw [e]
    refine rule_error p degree hp _ _ _ _ _ fun m hm => ?_
    rw [Fin.sum_univ_two] at hm
    have := all2_spec h hN (m 0) (m 1) hm
    rw [mom2_sum] at this
    refine le_trans (le_of_eq ?_) this
    congr 2
    · refine Finset.sum_congr rfl fun a _ => ?_
      rw [Fin.prod_univ_two]
      simp [coord]
    · push_cast
      rfl

theorem tetrahedron_exact (order : Int) (degree : ℕ) (r : List (ℤ × ℤ × ℤ × ℤ)) (hr : tetrahedronRule order = .ok r)
    (d : ℕ) (hd : degree ≤ d) (h : Close r d) :
    SolidExact tetrahedronIntegral (tetrahedronNum order) (tetrahedronCoords order) (tetrahedronWeight order) degree
      (2 / 10 ^ 14) := by
  refine ⟨r.length, fun i => (coord (r.getD i 0).1, coord (r.getD i 0).2.1, coord (r.getD i 0).2.2.1),
    fun i => ((r.getD i 0).2.2.2 : ℚ) / 10 ^ 26, ?_, ?_, ?_⟩
  · rw [tetrahedronNum, hr]; rfl
  · intro i hi
    rw [tetrahedronCoords, tetrahedronWeight, hr, Res.bind_ok', Res.bind_ok', vecAt_getD r 0 i hi]
    exact ⟨rfl, rfl⟩
  · intro p hp
    have e : (tetrahedronIntegral fun x y z => eval ![x, y, z] p) = ∑ m ∈ p.support, p.coeff m *
        (((m 0).factorial * (m 1).factorial * (m 2).factorial : ℝ) / (m 0 + m 1 + m 2 + 3).factorial) := by
      rw [← tetrahedronIntegral_sum]
      congr 1
      funext x y z
      rw [eval_eq']
      exact Finset.sum_congr rfl fun m _ => by rw [Fin.prod_univ_three]; rfl
    rw [e]
    refine rule_error p degree hp _ _ _ _ _ fun m hm => ?_
    rw [Fin.sum_univ_three] at hm
    have := h.moment (m 0) (m 1) (m 2) (hm.trans hd)
    rw [mom3_sum] at this
    refine le_trans (le_of_eq ?_) this
    congr 2
    · refine Finset.sum_congr rfl fun a _ => ?_
      rw [Fin.prod_univ_three]
      simp [coord]
    · push_cast
      rfl

/-! ### Triangle -/

/-- The triangle rules of order 1 to 19 integrate all polynomials of their order, up to the rounding of the table. -/
theorem C65_triangle (order : ℕ) (h1 : 1 ≤ order) (h2 : order ≤ 19) :
    TriangleExact (triangleNum order) (triangleCoords order) (triangleWeight order) order (5 / 10 ^ 15) := by
  have key : ∀ r, triangleRule order = .ok r → all2 r 5 (10 ^ 15) order = true →
      TriangleExact (triangleNum order) (triangleCoords order) (triangleWeight order) order (5 / 10 ^ 15) := by
    intro r hr h
    have := triangle_exact order order r hr 5 (10 ^ 15) (by norm_num) h
    convert this using 1
    norm_num
  interval_cases order
  · exact key _ rfl triangle_check_0
  · exact key _ rfl triangle_check_1
  · exact key _ rfl triangle_check_2
  · exact key _ rfl triangle_check_3
  · exact key _ rfl triangle_check_4
  · exact key _ rfl triangle_check_5
  · exact key _ rfl triangle_check_6
  · exact key _ rfl triangle_check_7
  · exact key _ rfl triangle_check_8
  · exact key _ rfl triangle_check_9
  · exact key _ rfl triangle_check_10
  · exact key _ rfl triangle_check_11
  · exact key _ rfl triangle_check_12
  · exact key _ rfl triangle_check_13
  · exact key _ rfl triangle_check_14
  · exact key _ rfl triangle_check_15
  · exact key _ rfl triangle_check_16
  · exact key _ rfl triangle_check_17
  · exact key _ rfl triangle_check_18

/-- The rule of order 20 is off by up to `1.2e-10`, five orders of magnitude more than the rounding of its table: the
coordinate `0.45513668695028248` in lines 580-582 has a wrong digit. -/
theorem C65_triangle20_partial :
    TriangleExact (triangleNum 20) (triangleCoords 20) (triangleWeight 20) 20 (12 / 10 ^ 11) := by
  have := triangle_exact 20 20 triangle19 rfl 12 (10 ^ 11) (by norm_num) triangle_check_19
  convert this using 1
  norm_num

theorem norm1_X (i : Fin 2) : norm1 (X i : MvPolynomial (Fin 2) ℝ) = 1 := by
  rw [norm1, support_X, Finset.sum_singleton, coeff_X, if_pos rfl, abs_one]

/-- The rule of order 20 does not even integrate `x` with an error below `10^-10`. -/
theorem C65_triangle20_counterexample :
    ¬ TriangleExact (triangleNum 20) (triangleCoords 20) (triangleWeight 20) 1 (1 / 10 ^ 10) := by
  rintro ⟨n, pt, w, hn, hpt, h⟩
  have hn' : n = triangle19.length := (Res.ok.inj hn).symm
  have hx := h (X 0) (totalDegree_X (R := ℝ) (0 : Fin 2)).le
  have e : (triangleIntegral fun x y => eval ![x, y] (X 0)) = 1 / 6 := by
    have := triangleIntegral_sum {()} (fun _ => 1) (fun _ => 1) (fun _ => 0)
    simp only [Finset.sum_singleton, one_mul, pow_one, pow_zero, mul_one] at this
    simp only [eval_X, Matrix.cons_val_zero]
    rw [this]
    norm_num [Nat.factorial]
  rw [e, norm1_X, mul_one] at hx
  have hs : ∑ i ∈ Finset.range n, (w i : ℝ) * eval ![((pt i).1 : ℝ), ((pt i).2 : ℝ)] (X 0) =
      (mom2 triangle19 1 0 : ℝ) / (10 ^ (20 + 19 * (1 + 0)) : ℕ) := by
    rw [mom2_sum, hn']
    refine Finset.sum_congr rfl fun i hi => ?_
    have hi' : i < triangle19.length := Finset.mem_range.1 hi
    obtain ⟨h1, h2⟩ := hpt i (hn' ▸ hi')
    have hr : triangleRule 20 = .ok triangle19 := rfl
    rw [triangleCoords, hr, Res.bind_ok', vecAt_getD _ 0 i hi', Res.bind_ok'] at h1
    rw [triangleWeight, hr, Res.bind_ok', vecAt_getD _ 0 i hi', Res.bind_ok'] at h2
    rw [← Res.ok.inj h1, ← Res.ok.inj h2]
    simp [coord]
  have hm : mom2 triangle19 1 0 = 166666666781052017902836457750809252584 := by
    decide +kernel
  rw [hs, hm] at hx
  norm_num [abs_le] at hx

/-! ### Tetrahedron -/

/-- The tetrahedron rules of order 1 to 21 integrate all polynomials of their order, up to the rounding of the table.
(The comment `order 7` in line 101 stands above a rule of order 8, and `orderToIndex` uses it for order 8.) -/
theorem C65_tetrahedron (order : ℕ) (h2 : order ≤ 21) :
    SolidExact tetrahedronIntegral (tetrahedronNum order) (tetrahedronCoords order) (tetrahedronWeight order) order
      (2 / 10 ^ 14) := by
  interval_cases order
  · exact tetrahedron_exact 0 0 _ rfl 1 (by omega) tetrahedron_check_0
  · exact tetrahedron_exact 1 1 _ rfl 1 (by omega) tetrahedron_check_0
  · exact tetrahedron_exact 2 2 _ rfl 2 (by omega) tetrahedron_check_1
  · exact tetrahedron_exact 3 3 _ rfl 3 (by omega) tetrahedron_check_2
  · exact tetrahedron_exact 4 4 _ rfl 4 (by omega) tetrahedron_check_3
  · exact tetrahedron_exact 5 5 _ rfl 5 (by omega) tetrahedron_check_4
  · exact tetrahedron_exact 6 6 _ rfl 6 (by omega) tetrahedron_check_5
  · exact tetrahedron_exact 7 7 _ rfl 7 (by omega) tetrahedron_check_6
  · exact tetrahedron_exact 8 8 _ rfl 8 (by omega) tetrahedron_check_7
  · exact tetrahedron_exact 9 9 _ rfl 9 (by omega) tetrahedron_check_8
  · exact tetrahedron_exact 10 10 _ rfl 11 (by omega) tetrahedron_check_9
  · exact tetrahedron_exact 11 11 _ rfl 11 (by omega) tetrahedron_check_9
  · exact tetrahedron_exact 12 12 _ rfl 13 (by omega) tetrahedron_check_10
  · exact tetrahedron_exact 13 13 _ rfl 13 (by omega) tetrahedron_check_10
  · exact tetrahedron_exact 14 14 _ rfl 15 (by omega) tetrahedron_check_11
  · exact tetrahedron_exact 15 15 _ rfl 15 (by omega) tetrahedron_check_11
  · exact tetrahedron_exact 16 16 _ rfl 17 (by omega) tetrahedron_check_12
  · exact tetrahedron_exact 17 17 _ rfl 17 (by omega) tetrahedron_check_12
  · exact tetrahedron_exact 18 18 _ rfl 19 (by omega) tetrahedron_check_13
  · exact tetrahedron_exact 19 19 _ rfl 19 (by omega) tetrahedron_check_13
  · exact tetrahedron_exact 20 20 _ rfl 21 (by omega) tetrahedron_check_14
  · exact tetrahedron_exact 21 21 _ rfl 21 (by omega) tetrahedron_check_14

/-! ### Prism -/

theorem prism_exact (num : Res ℕ) (coords : Int → Res (ℚ × ℚ × ℚ)) (weight : Int → Res ℚ) (degree : ℕ) (ε : ℝ)
    (n : ℕ) (pt : ℕ → ℚ × ℚ × ℚ) (w : ℕ → ℚ) (hn : num = .ok n)
    (hpt : ∀ i < n, coords i = .ok (pt i) ∧ weight i = .ok (w i))
    (h : ∀ i j k : ℕ, i + j + k ≤ degree →
      |∑ a ∈ Finset.range n, (w a : ℝ) * (((pt a).1 : ℝ) ^ i * ((pt a).2.1 : ℝ) ^ j * ((pt a).2.2 : ℝ) ^ k) -
        (i.factorial * j.factorial : ℝ) / (i + j + 2).factorial * ((1 - (-1) ^ (k + 1)) / (k + 1))| ≤ ε) :
    SolidExact prismIntegral num coords weight degree ε := by
  refine ⟨n, pt, w, hn, hpt, fun p hp => ?_⟩
  have e : (prismIntegral fun x y z => eval ![x, y, z] p) = ∑ m ∈ p.support, p.coeff m *
      (((m 0).factorial * (m 1).factorial : ℝ) / (m 0 + m 1 + 2).factorial *
        ((1 - (-1) ^ (m 2 + 1)) / (m 2 + 1))) := by
    rw [← prismIntegral_sum]
    congr 1
    funext x y z
    rw [eval_eq']
    exact Finset.sum_congr rfl fun m _ => by rw [Fin.prod_univ_three]; rfl
  rw [e]
  refine rule_error p degree hp _ _ _ _ _ fun m hm => ?_
  rw [Fin.sum_univ_three] at hm
  have := h (m 0) (m 1) (m 2) hm
  refine le_trans (le_of_eq ?_) this
  congr 2
  refine Finset.sum_congr rfl fun a _ => ?_
  rw [Fin.prod_univ_three]
  rfl

/-- The one point rule of the prism is exact for linear polynomials. -/
theorem C65_prism1 : SolidExact prismIntegral (.ok prism1Num) prism1Coords prism1Weight 1 0 := by
  refine prism_exact _ _ _ 1 0 1 (fun _ => (1 / 3, 1 / 3, 0)) (fun _ => 1) rfl (fun i _ => ⟨rfl, rfl⟩) ?_
  intro i j k h
  have hi : i ≤ 1 := by omega
  have hj : j ≤ 1 := by omega
  have hk : k ≤ 1 := by omega
  interval_cases i <;> interval_cases j <;> interval_cases k <;>
    first | (exfalso; omega) | norm_num [Nat.factorial]

/-- The points of the six point rule -/
def prism2Pt (i : ℕ) : ℚ × ℚ × ℚ :=
  match prism2Coords i with
  | .ok p => p
  | _ => 0

/-- The six point rule of the prism is exact for quadratic polynomials, up to the rounding of `1/√3`. -/
theorem C65_prism2 : SolidExact prismIntegral (.ok prism2Num) prism2Coords prism2Weight 2 (1 / 10 ^ 15) := by
  refine prism_exact _ _ _ 2 (1 / 10 ^ 15) 6 prism2Pt (fun _ => 1 / 6) rfl ?_ ?_
  · intro i hi
    refine ⟨?_, rfl⟩
    interval_cases i <;> rfl
  · intro i j k h
    have p0 : prism2Pt 0 = (1 / 6, 1 / 6, -0.577350269189626) := rfl
    have p1 : prism2Pt 1 = (4 / 6, 1 / 6, -0.577350269189626) := rfl
    have p2 : prism2Pt 2 = (1 / 6, 4 / 6, -0.577350269189626) := rfl
    have p3 : prism2Pt 3 = (1 / 6, 1 / 6, 0.577350269189626) := rfl
    have p4 : prism2Pt 4 = (4 / 6, 1 / 6, 0.577350269189626) := rfl
    have p5 : prism2Pt 5 = (1 / 6, 4 / 6, 0.577350269189626) := rfl
    have hi : i ≤ 2 := by omega
    have hj : j ≤ 2 := by omega
    have hk : k ≤ 2 := by omega
    simp only [Finset.sum_range_succ, Finset.sum_range_zero, p0, p1, p2, p3, p4, p5]
    interval_cases i <;> interval_cases j <;> interval_cases k <;>
      first | (exfalso; omega) | norm_num [Nat.factorial, abs_le]

/-! ### The points lie in the reference element -/

/-- The point lies in the reference triangle. -/
def InTriangle (p : ℚ × ℚ) : Prop := 0 ≤ p.1 ∧ 0 ≤ p.2 ∧ p.1 + p.2 ≤ 1

/-- The point lies in the reference tetrahedron. -/
def InTetrahedron (p : ℚ × ℚ × ℚ) : Prop := 0 ≤ p.1 ∧ 0 ≤ p.2.1 ∧ 0 ≤ p.2.2 ∧ p.1 + p.2.1 + p.2.2 ≤ 1

/-- The point lies in the reference prism. -/
def InPrism (p : ℚ × ℚ × ℚ) : Prop := 0 ≤ p.1 ∧ 0 ≤ p.2.1 ∧ p.1 + p.2.1 ≤ 1 ∧ -1 ≤ p.2.2 ∧ p.2.2 ≤ 1

def in2 (r : List (ℤ × ℤ × ℤ)) : Bool := r.all fun p => 0 ≤ p.1 && 0 ≤ p.2.1 && p.1 + p.2.1 ≤ 10 ^ 19

def in3 (r : List (ℤ × ℤ × ℤ × ℤ)) : Bool :=
  r.all fun p => 0 ≤ p.1 && 0 ≤ p.2.1 && 0 ≤ p.2.2.1 && p.1 + p.2.1 + p.2.2.1 ≤ 10 ^ 19

theorem bind_ok_inv {α β : Type _} {a : Res α} {f : α → Res β} {b : β} (h : a.bind f = .ok b) :
    ∃ x, a = .ok x ∧ f x = .ok b := by
  cases a with
  | ok x => exact ⟨x, rfl, h⟩
  | throw => cases h
  | ub => cases h

theorem mem_of_vecAt {α : Type _} {l : List α} {i : Int} {a : α} (h : vecAt l i = .ok a) : a ∈ l := by
  unfold vecAt at h
  split at h
  · cases h
  · split at h
    · rename_i b hb
      rw [← Res.ok.inj h]
      exact List.mem_of_getElem? hb
    · cases h

theorem triangle_in (order : Int) (r : List (ℤ × ℤ × ℤ)) (hr : triangleRule order = .ok r) (h : in2 r = true)
    (i : Int) (p : ℚ × ℚ) (hp : triangleCoords order i = .ok p) : InTriangle p := by
  rw [triangleCoords, hr, Res.bind_ok'] at hp
  obtain ⟨q, hq, hp⟩ := bind_ok_inv hp
  have hm := mem_of_vecAt hq
  rw [in2, List.all_eq_true] at h
  have hh := h q hm
  simp only [Bool.and_eq_true, decide_eq_true_eq] at hh
  obtain ⟨⟨h1, h2⟩, h3⟩ := hh
  rw [← Res.ok.inj hp]
  have h1' : (0 : ℚ) ≤ q.1 := by exact_mod_cast h1
  have h2' : (0 : ℚ) ≤ q.2.1 := by exact_mod_cast h2
  have h3' : (q.1 : ℚ) + q.2.1 ≤ 10 ^ 19 := by exact_mod_cast h3
  refine ⟨?_, ?_, ?_⟩
  · simp only [coord]; positivity
  · simp only [coord]; positivity
  · simp only [coord]
    rw [← add_div, div_le_one (by norm_num)]
    exact h3'

theorem tetrahedron_in (order : Int) (r : List (ℤ × ℤ × ℤ × ℤ)) (hr : tetrahedronRule order = .ok r)
    (h : in3 r = true) (i : Int) (p : ℚ × ℚ × ℚ) (hp : tetrahedronCoords order i = .ok p) : InTetrahedron p := by
  rw [tetrahedronCoords, hr, Res.bind_ok'] at hp
  obtain ⟨q, hq, hp⟩ := bind_ok_inv hp
  have hm := mem_of_vecAt hq
  rw [in3, List.all_eq_true] at h
  have hh := h q hm
  simp only [Bool.and_eq_true, decide_eq_true_eq] at hh
  obtain ⟨⟨⟨h1, h2⟩, h3⟩, h4⟩ := hh
  rw [← Res.ok.inj hp]
  have h1' : (0 : ℚ) ≤ q.1 := by exact_mod_cast h1
  have h2' : (0 : ℚ) ≤ q.2.1 := by exact_mod_cast h2
  have h3' : (0 : ℚ) ≤ q.2.2.1 := by exact_mod_cast h3
  have h4' : (q.1 : ℚ) + q.2.1 + q.2.2.1 ≤ 10 ^ 19 := by exact_mod_cast h4
  refine ⟨?_, ?_, ?_, ?_⟩
  · simp only [coord]; positivity
  · simp only [coord]; positivity
  · simp only [coord]; positivity
  · simp only [coord]
    rw [← add_div, ← add_div, div_le_one (by norm_num)]
    exact h4'

/-- The points of the triangle rules lie in the triangle, except for the orders 11, 15, 16, 18 and 20. -/
theorem C65_triangle_inside_partial (order : ℕ) (h1 : 1 ≤ order) (h2 : order ≤ 20)
    (hne : order ≠ 11 ∧ order ≠ 15 ∧ order ≠ 16 ∧ order ≠ 18 ∧ order ≠ 20) (i : Int) (p : ℚ × ℚ)
    (hp : triangleCoords order i = .ok p) : InTriangle p := by
  interval_cases order <;>
    first
    | (exfalso; omega)
    | exact triangle_in _ _ rfl (by decide +kernel) i p hp

/-- For these five orders a point lies outside, by more than the tolerance `1e-8` of `Triangle::IsWithinShape`. -/
theorem C65_triangle_inside_counterexample (order : ℕ)
    (h : order = 11 ∨ order = 15 ∨ order = 16 ∨ order = 18 ∨ order = 20) :
    ∃ (i : Int) (p : ℚ × ℚ), triangleCoords order i = .ok p ∧ (p.1 < -(1 / 10 ^ 8) ∨ p.2 < -(1 / 10 ^ 8)) := by
  rcases h with rfl | rfl | rfl | rfl | rfl
  · exact ⟨2, _, rfl, Or.inl (by norm_num [coord])⟩
  · exact ⟨2, _, rfl, Or.inl (by norm_num [coord])⟩
  · exact ⟨36, _, rfl, Or.inl (by norm_num [coord])⟩
  · exact ⟨66, _, rfl, Or.inl (by norm_num [coord])⟩
  · exact ⟨3, _, rfl, Or.inl (by norm_num [coord])⟩

/-- The points of the tetrahedron rules lie in the tetrahedron, except for the order 9. -/
theorem C65_tetrahedron_inside_partial (order : ℕ) (h2 : order ≤ 21) (hne : order ≠ 9) (i : Int) (p : ℚ × ℚ × ℚ)
    (hp : tetrahedronCoords order i = .ok p) : InTetrahedron p := by
  interval_cases order <;>
    first
    | (exfalso; omega)
    | exact tetrahedron_in _ _ rfl (by decide +kernel) i p hp

/-- The rule of order 9 has a point outside, by more than the tolerance of `Tetrahedron::IsWithinShape`. -/
theorem C65_tetrahedron_inside_counterexample :
    ∃ (i : Int) (p : ℚ × ℚ × ℚ), tetrahedronCoords 9 i = .ok p ∧ p.1 < -(1 / 10 ^ 8) :=
  ⟨41, _, rfl, by norm_num [coord]⟩

/-- The points of the prism rules lie in the prism. -/
theorem C65_prism_inside (i : Int) (p : ℚ × ℚ × ℚ) (hp : prism1Coords i = .ok p ∨ prism2Coords i = .ok p) :
    InPrism p := by
  rcases hp with hp | hp
  · rw [← Res.ok.inj hp]
    norm_num [InPrism]
  · unfold prism2Coords Res.require at hp
    split_ifs at hp <;> first | (cases hp; done) | (rw [← Res.ok.inj hp]; norm_num [InPrism])

/-! ### The factory -/

/-- Every triangle rule the factory returns is usable and exact to the order asked for (with the error of the rule of
order 20); all other orders are refused with an exception. -/
theorem C65_factory_triangle (order : Int) :
    (∃ o : ℕ, order = o ∧ 1 ≤ o ∧ o ≤ 20 ∧ createGauss .triangle order = .ok (.triangle o) ∧
      TriangleExact (triangleNum o) (triangleCoords o) (triangleWeight o) o (12 / 10 ^ 11)) ∨
    ((order ≤ 0 ∨ 21 ≤ order) ∧ createGauss .triangle order = .throw) := by
  by_cases h : 0 < order ∧ order < 21
  · left
    obtain ⟨o, rfl⟩ := Int.eq_ofNat_of_zero_le h.1.le
    refine ⟨o, rfl, by omega, by omega, ?_, ?_⟩
    · rw [createGauss, if_pos h]
    · rcases Nat.lt_or_ge o 20 with h3 | h3
      · obtain ⟨n, pt, w, a, b, c⟩ := C65_triangle o (by omega) (by omega)
        refine ⟨n, pt, w, a, b, fun p hp => (c p hp).trans ?_⟩
        refine mul_le_mul_of_nonneg_right (by norm_num) ?_
        exact Finset.sum_nonneg fun _ _ => abs_nonneg _
      · obtain rfl : o = 20 := by omega
        exact C65_triangle20_partial
  · right
    refine ⟨by omega, ?_⟩
    simp [createGauss, h]

/-- The same for the tetrahedron.  (The rule of order 21 exists but the factory refuses it.) -/
theorem C65_factory_tetrahedron (order : Int) :
    (∃ o : ℕ, order = o ∧ 1 ≤ o ∧ o ≤ 20 ∧ createGauss .tetrahedron order = .ok (.tetrahedron o) ∧
      SolidExact tetrahedronIntegral (tetrahedronNum o) (tetrahedronCoords o) (tetrahedronWeight o) o
        (2 / 10 ^ 14)) ∨
    ((order ≤ 0 ∨ 21 ≤ order) ∧ createGauss .tetrahedron order = .throw) := by
  by_cases h : 0 < order ∧ order < 21
  · left
    obtain ⟨o, rfl⟩ := Int.eq_ofNat_of_zero_le h.1.le
    exact ⟨o, rfl, by omega, by omega, by rw [createGauss, if_pos h], C65_tetrahedron o (by omega)⟩
  · right
    refine ⟨by omega, ?_⟩
    simp [createGauss, h]

/-- The prism has rules of order 1 and 2 only, and the pyramid none. -/
theorem C65_factory_prism (order : Int) :
    (order = 1 ∧ createGauss .prism order = .ok .prism1) ∨ (order = 2 ∧ createGauss .prism order = .ok .prism2) ∨
    (order ≠ 1 ∧ order ≠ 2 ∧ createGauss .prism order = .throw) := by
  by_cases h1 : order = 1
  · left; exact ⟨h1, by simp [createGauss, h1]⟩
  · by_cases h2 : order = 2
    · right; left; exact ⟨h2, by simp [createGauss, h2]⟩
    · right; right; exact ⟨h1, h2, by simp [createGauss, h1, h2]⟩

/-- The classes themselves do not check the order: outside of the table the access is undefined. -/
theorem C65_unchecked_counterexample : triangleNum 0 = .ub ∧ triangleNum 21 = .ub ∧ tetrahedronNum 22 = .ub ∧
    tetrahedronNum (-1) = .ub := by
  decide +kernel

example : (X 0 ^ 2 * X 1 : MvPolynomial (Fin 2) ℝ).totalDegree ≤ 3 :=
  (totalDegree_mul _ _).trans (by rw [totalDegree_X_pow, totalDegree_X])

example : triangleNum 4 = .ok 6 ∧ tetrahedronNum 8 = .ok 43 := by decide +kernel

example : triangleWeight 1 0 = .ok (1 / 2) := by
  have : triangleWeight 1 0 = .ok (((50000000000000000000 : ℤ) : ℚ) / 10 ^ 20) := rfl
  rw [this]
  norm_num

end NuTo.SimplexRule
