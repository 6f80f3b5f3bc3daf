/-
C95, continued: in the plane the kernel of the stiffness matrix consists of the rigid motions only for meshes of linear
triangles and bilinear quadrilaterals of any shape, if the quadrilaterals have integration points on a grid.
-/
import Verif.Props.Statics

namespace NuTo

open Assembly Finset

namespace Balance

/-! ### Specification -/

/-- The rule has a point and, on the two lines of constant coordinate through it, one more point each. -/
def Grid (rule : List (ℝ × List ℝ)) : Prop :=
  ∃ a b c d w₁ w₂ w₃ : ℝ, a ≠ b ∧ c ≠ d ∧ (w₁, [a, c]) ∈ rule ∧ (w₂, [b, c]) ∈ rule ∧ (w₃, [a, d]) ∈ rule

/-- A linear triangle with an integration point, or a bilinear quadrilateral with integration points on a grid. -/
def PlaneElement (x : Cell × FemElement ℝ) : Prop :=
  (Simplex 2 x.2.interp ∧ x.1.rule ≠ []) ∨ (x.2.interp = Interpolation.quadLinear ∧ Grid x.1.rule)

/-- `x` and `y` share two nodes at different places: same dof numbers, same coordinates. -/
def SharesEdge (x y : Cell × FemElement ℝ) : Prop :=
  ∃ i < x.2.nodes.length, ∃ i' < x.2.nodes.length, ∃ j < y.2.nodes.length, ∃ j' < y.2.nodes.length,
    (∀ a < 2, number x.2 i a = number y.2 j a ∧ component x.1.coordElement i a = component y.1.coordElement j a ∧
      number x.2 i' a = number y.2 j' a ∧ component x.1.coordElement i' a = component y.1.coordElement j' a) ∧
    ∃ a < 2, component y.1.coordElement j a ≠ component y.1.coordElement j' a

/-- From the cell `x₀` all cells can be reached across edges. -/
def EdgeConnected (cells : List (Cell × FemElement ℝ)) (x₀ : Cell × FemElement ℝ) : Prop :=
  x₀ ∈ cells ∧ ∀ y ∈ cells, Relation.ReflTransGen (fun x y => y ∈ cells ∧ SharesEdge x y) x₀ y

/-- `R` is the rigid motion `t + W x` on all nodes of an element. -/
def RigidNodes (dim : Nat) (x : Cell × FemElement ℝ) (t : Nat → ℝ) (W : Nat → Nat → ℝ) (R : Nat → ℝ) : Prop :=
  ∀ i < x.2.nodes.length, ∀ a < dim,
    R (number x.2 i a) = t a + ∑ c ∈ range dim, W a c * component x.1.coordElement i c

/-- Tensor product rules with two different points lie on a grid. -/
theorem grid_tensor (n : Nat) (w p : List ℝ) (i j : Nat) (hi : i < n) (hj : j < n) (hij : p.getD i 0 ≠ p.getD j 0) :
    Grid (Quadrature.tensor 2 n w p) := by
  have hmem : ∀ a < n, ∀ b < n, ∃ v, (v, [p.getD a 0, p.getD b 0]) ∈ Quadrature.tensor 2 n w p := by
    intro a ha b hb
    have hlt : a + b * n < n ^ 2 := by nlinarith
    refine ⟨w.getD a 0 * w.getD b 0, List.mem_map.2 ⟨a + b * n, List.mem_range.2 hlt, ?_⟩⟩
    have h1 : (a + b * n) % n = a := by rw [Nat.add_mul_mod_self_right, Nat.mod_eq_of_lt ha]
    have h2 : (a + b * n) / n % n = b := by
      rw [Nat.add_mul_div_right _ _ (by omega), Nat.div_eq_of_lt ha, zero_add, Nat.mod_eq_of_lt hb]
    simp [List.range_succ, Quadrature.tensorStep, h1, h2]
  obtain ⟨w₁, h1⟩ := hmem i hi i hi
  obtain ⟨w₂, h2⟩ := hmem j hj i hi
  obtain ⟨w₃, h3⟩ := hmem i hi j hj
  exact ⟨_, _, _, _, w₁, w₂, w₃, hij, hij, h1, h2, h3⟩

/-! ### One element -/

/-- Each point of the rule is among the evaluated points. -/
theorem rule_point {dim n : Nat} {x : Cell × FemElement ℝ} (h : Body dim n x) {pts : List (ℝ × IpData)}
    (hp : x.1.Points pts) {w : ℝ} {c : List ℝ} (hr : (w, c) ∈ x.1.rule) : ∃ p ∈ pts, p.2.coords = c := by
  obtain ⟨i, hi, hic⟩ := List.getElem_of_mem hr
  unfold Cell.Points at hp
  have hl := hp.length_eq
  rw [List.length_zipIdx] at hl
  have h2 := (List.forall₂_iff_get.1 hp).2 i (by rw [List.length_zipIdx]; exact hi) (by rw [← hl]; exact hi)
  refine ⟨pts[i], List.getElem_mem _, ?_⟩
  simp only [List.get_eq_getElem, List.getElem_zipIdx, hic] at h2
  obtain ⟨d, h3, h4, _⟩ := h.jacobian (0 + i) c
  rw [h2.2] at h3
  rw [Res.ok.inj h3, h4]

/-- The data of an element with equal interpolations at an integration point: chain rule and Jacobian. -/
theorem iso_point {dim n : Nat} {x : Cell × FemElement ℝ} (h : Body dim n x)
    (hiso : x.2.interp = x.1.coordElement.interp) {pts : List (ℝ × IpData)}
    (hp : x.1.Points pts) (p : ℝ × IpData) (hm : p ∈ pts) (hdet : p.2.jacobian.det ≠ 0) :
    (∀ b < dim, ∀ c, p.2.jacobian.jac b c = ∑ i ∈ range x.2.interp.numNodes, component x.1.coordElement i b *
      ((x.2.interp.deriv fun k => p.2.coords.getD k 0).getD i []).getD c 0) ∧
    ∀ R : Nat → ℝ, ∀ a < dim, ∀ c < dim,
      ∑ b ∈ range dim, displacementGradient dim (gradients x.2 p.2) (restrict dim x.2 R) a b * p.2.jacobian.jac b c =
      ∑ i ∈ range x.2.interp.numNodes, R (number x.2 i a) *
        ((x.2.interp.deriv fun k => p.2.coords.getD k 0).getD i []).getD c 0 := by
  obtain ⟨j1, j2, j3⟩ := h.point hp p hm
  have hsq := (Jacobian.C40_square j3 (by rw [j1, j2])).2 hdet
  have hent := Jacobian.C40_entries j3
  have hn : x.2.nodes.length = x.2.interp.numNodes := h.dof.count
  have hnc : x.1.coordElement.nodes.length = x.2.interp.numNodes := by rw [h.coord.count, ← hiso]
  have hlen : (x.1.coordElement.interp.deriv fun k => p.2.coords.getD k 0).length = x.2.interp.numNodes := by
    rw [h.coordUnity.derivLen, ← h.coord.count, hnc]
  refine ⟨?_, ?_⟩
  · intro b hb c
    rw [hent, hlen, j1, ← hiso]
    refine sum_congr rfl fun i hi => ?_
    rw [values_getD (by rw [hnc]; exact mem_range.1 hi) hb]
  have hIJ : ∀ a < dim, ∀ b < dim, ∑ j ∈ range dim, p.2.jacobian.inv a j * p.2.jacobian.jac j b =
      if a = b then 1 else 0 := by
    intro a ha b hb
    have hAB := hsq.2
    rw [j1] at hAB
    have := congrFun (congrFun hAB ⟨a, ha⟩) ⟨b, hb⟩
    rw [Matrix.mul_apply, Matrix.one_apply] at this
    rw [← Fin.sum_univ_eq_sum_range (fun j => p.2.jacobian.inv a j * p.2.jacobian.jac j b)]
    rw [show (∑ j : Fin dim, p.2.jacobian.inv a j * p.2.jacobian.jac j b) = _ from this]
    simp [Fin.ext_iff]
  intro R a ha c hc
  obtain ⟨D, hD⟩ : ∃ D : Nat → Nat → ℝ, D = fun i j =>
    ((x.2.interp.deriv fun k => p.2.coords.getD k 0).getD i []).getD j 0 := ⟨_, rfl⟩
  have hDij : ∀ i j, ((x.2.interp.deriv fun k => p.2.coords.getD k 0).getD i []).getD j 0 = D i j :=
    fun i j => by rw [hD]
  obtain ⟨S, hS⟩ : ∃ S : Nat → ℝ, ∀ j, S j = ∑ i ∈ range x.2.interp.numNodes, R (number x.2 i a) * D i j :=
    ⟨_, fun _ => rfl⟩
  calc _ = ∑ b ∈ range dim, (∑ j ∈ range dim, S j * p.2.jacobian.inv j b) * p.2.jacobian.jac b c := by
        refine sum_congr rfl fun b hb => ?_
        congr 1
        calc displacementGradient dim (gradients x.2 p.2) (restrict dim x.2 R) a b
            = ∑ i ∈ range x.2.interp.numNodes, R (number x.2 i a) * ∑ j ∈ range dim, D i j * p.2.jacobian.inv j b := by
              rw [displacementGradient]
              simp only [gradients]
              refine sum_congr rfl fun i hi => ?_
              rw [restrict_getD (by rw [hn]; exact mem_range.1 hi) ha, Jacobian.transform, sum_range_list, j2]
              simp only [hDij]
          _ = _ := by
              simp only [hS, mul_sum, sum_mul]
              rw [sum_comm]
              exact sum_congr rfl fun j _ => sum_congr rfl fun i _ => by ring
    _ = ∑ j ∈ range dim, S j * ∑ b ∈ range dim, p.2.jacobian.inv j b * p.2.jacobian.jac b c := by
        simp only [sum_mul, mul_sum]
        rw [sum_comm]
        exact sum_congr rfl fun j _ => sum_congr rfl fun b _ => by ring
    _ = _ := by
        rw [sum_congr rfl fun j hj => by rw [hIJ j (mem_range.1 hj) c hc], sum_eq_single c]
        · rw [if_pos rfl, mul_one, hS]
          exact sum_congr rfl fun i _ => by rw [hDij]
        · intro j _ hj
          simp [hj]
        · intro h
          exact absurd (mem_range.2 hc) h

/-- A vector without strains at a point of a bilinear quadrilateral: its derivatives are those of a rotation `w`; the
derivatives of the coordinates do not vanish. -/
theorem quad_point {n : Nat} {x : Cell × FemElement ℝ} (h : Body 2 n x)
    (hiso : x.2.interp = x.1.coordElement.interp) (hI : x.2.interp = Interpolation.quadLinear)
    {pts : List (ℝ × IpData)} (hp : x.1.Points pts) (p : ℝ × IpData) (hm : p ∈ pts) (hdet : p.2.jacobian.det ≠ 0)
    {s t : ℝ} (hs : p.2.coords = [s, t]) (R : Nat → ℝ)
    (h0 : ∀ y ∈ strains 2 (gradients x.2 p.2) (restrict 2 x.2 R), y = 0) (X U : Nat → Nat → ℝ)
    (hX : X = component x.1.coordElement) (hU : U = fun i a => R (number x.2 i a)) :
    ∃ w : ℝ,
      (((1 - t) * (X 1 0 - X 0 0) + (1 + t) * (X 2 0 - X 3 0) ≠ 0 ∨
        (1 - t) * (X 1 1 - X 0 1) + (1 + t) * (X 2 1 - X 3 1) ≠ 0) ∧
      ((1 - s) * (X 3 0 - X 0 0) + (1 + s) * (X 2 0 - X 1 0) ≠ 0 ∨
        (1 - s) * (X 3 1 - X 0 1) + (1 + s) * (X 2 1 - X 1 1) ≠ 0)) ∧
      (1 - t) * (U 1 0 - U 0 0) + (1 + t) * (U 2 0 - U 3 0) =
        -w * ((1 - t) * (X 1 1 - X 0 1) + (1 + t) * (X 2 1 - X 3 1)) ∧
      (1 - t) * (U 1 1 - U 0 1) + (1 + t) * (U 2 1 - U 3 1) =
        w * ((1 - t) * (X 1 0 - X 0 0) + (1 + t) * (X 2 0 - X 3 0)) ∧
      (1 - s) * (U 3 0 - U 0 0) + (1 + s) * (U 2 0 - U 1 0) =
        -w * ((1 - s) * (X 3 1 - X 0 1) + (1 + s) * (X 2 1 - X 1 1)) ∧
      (1 - s) * (U 3 1 - U 0 1) + (1 + s) * (U 2 1 - U 1 1) =
        w * ((1 - s) * (X 3 0 - X 0 0) + (1 + s) * (X 2 0 - X 1 0)) := by
  obtain ⟨hj, hg⟩ := iso_point h hiso hp p hm hdet
  obtain ⟨j1, j2, j3⟩ := h.point hp p hm
  have hd := (Jacobian.C40_square j3 (by rw [j1, j2])).1
  rw [j1, Matrix.det_fin_two] at hd
  have hanti := strains_zero 2 (by norm_num) (by norm_num) _ _ h0
  have hg := hg R
  obtain ⟨g, hgd⟩ : ∃ g, g = displacementGradient 2 (gradients x.2 p.2) (restrict 2 x.2 R) := ⟨_, rfl⟩
  rw [← hgd] at hanti hg
  have a00 := hanti 0 (by norm_num) 0 (by norm_num)
  have a11 := hanti 1 (by norm_num) 1 (by norm_num)
  have a01 := hanti 0 (by norm_num) 1 (by norm_num)
  have g00 : g 0 0 = 0 := by linarith
  have g11 : g 1 1 = 0 := by linarith
  have e00 := hg 0 (by norm_num) 0 (by norm_num)
  have e01 := hg 0 (by norm_num) 1 (by norm_num)
  have e10 := hg 1 (by norm_num) 0 (by norm_num)
  have e11 := hg 1 (by norm_num) 1 (by norm_num)
  have k00 := hj 0 (by norm_num) 0
  have k01 := hj 0 (by norm_num) 1
  have k10 := hj 1 (by norm_num) 0
  have k11 := hj 1 (by norm_num) 1
  have hn4 : (Interpolation.quadLinear : Interpolation ℝ).numNodes = 4 := rfl
  have hU' : ∀ i a, R (number x.2 i a) = U i a := fun i a => by rw [hU]
  simp only [hI, hs, ← hX, hU', hn4, sum_range_succ, sum_range_zero, Interpolation.quadLinear,
    Interpolation.quadLinearDeriv, g00, g11, a01, zero_add, zero_mul, add_zero, List.getD_cons_zero,
    List.getD_cons_succ] at e00 e01 e10 e11 k00 k01 k10 k11
  simp only [Jacobian.toMat, Matrix.of_apply] at hd
  refine ⟨g 1 0, ⟨?_, ?_⟩, ?_, ?_, ?_, ?_⟩
  · by_contra hc
    push Not at hc
    apply hdet
    have z0 : p.2.jacobian.jac 0 0 = 0 := by rw [k00]; linarith [hc.1]
    have z1 : p.2.jacobian.jac 1 0 = 0 := by rw [k10]; linarith [hc.2]
    rw [hd]
    simp [z0, z1]
  · by_contra hc
    push Not at hc
    apply hdet
    have z0 : p.2.jacobian.jac 0 1 = 0 := by rw [k01]; linarith [hc.1]
    have z1 : p.2.jacobian.jac 1 1 = 0 := by rw [k11]; linarith [hc.2]
    rw [hd]
    simp [z0, z1]
  · rw [k10] at e00; linear_combination -4 * e00
  · rw [k00] at e10; linear_combination -4 * e10
  · rw [k11] at e01; linear_combination -4 * e01
  · rw [k01] at e11; linear_combination -4 * e11

/-- A linear function on `[-1, 1]` that vanishes at two points vanishes at the ends. -/
theorem linear_ends {A B t t' : ℝ} (hne : t ≠ t') (h1 : (1 - t) * A + (1 + t) * B = 0)
    (h2 : (1 - t') * A + (1 + t') * B = 0) : A = 0 ∧ B = 0 := by
  have hd : t - t' ≠ 0 := sub_ne_zero.2 hne
  constructor
  · refine (mul_eq_zero.1 (show (t - t') * (2 * A) = 0 by linear_combination (1 + t) * h2 - (1 + t') * h1)).resolve_left hd
      |> fun h => by linarith
  · refine (mul_eq_zero.1 (show (t - t') * (2 * B) = 0 by linear_combination (1 - t') * h1 - (1 - t) * h2)).resolve_left hd
      |> fun h => by linarith

/-- C95: a vector without strains at the integration points of a bilinear quadrilateral, whatever its shape, is a rigid
motion of its four nodes if the points lie on a grid. -/
theorem C95_quad_rigid {n : Nat} {x : Cell × FemElement ℝ} (h : Body 2 n x)
    (hiso : x.2.interp = x.1.coordElement.interp) (hI : x.2.interp = Interpolation.quadLinear) (hG : Grid x.1.rule)
    {pts : List (ℝ × IpData)} (hp : x.1.Points pts) (hdet : ∀ p ∈ pts, p.2.jacobian.det ≠ 0) (R : Nat → ℝ)
    (h0 : ∀ p ∈ pts, ∀ y ∈ strains 2 (gradients x.2 p.2) (restrict 2 x.2 R), y = 0) :
    ∃ (t : Nat → ℝ) (W : Nat → Nat → ℝ), (∀ a b, W a b = -W b a) ∧ RigidNodes 2 x t W R := by
  obtain ⟨a, b, c, d, w₁, w₂, w₃, hab, hcd, r1, r2, r3⟩ := hG
  obtain ⟨p, hpm, hpc⟩ := rule_point h hp r1
  obtain ⟨q, hqm, hqc⟩ := rule_point h hp r2
  obtain ⟨r, hrm, hrc⟩ := rule_point h hp r3
  obtain ⟨X, hX⟩ : ∃ X, X = component x.1.coordElement := ⟨_, rfl⟩
  obtain ⟨U, hU⟩ : ∃ U : Nat → Nat → ℝ, U = fun i a => R (number x.2 i a) := ⟨_, rfl⟩
  obtain ⟨w, ⟨n1, n2⟩, p1, p2, p3, p4⟩ := quad_point h hiso hI hp p hpm (hdet p hpm) hpc R (h0 p hpm) X U hX hU
  obtain ⟨wq, _, q1, q2, q3, q4⟩ := quad_point h hiso hI hp q hqm (hdet q hqm) hqc R (h0 q hqm) X U hX hU
  obtain ⟨wr, _, s1, s2, s3, s4⟩ := quad_point h hiso hI hp r hrm (hdet r hrm) hrc R (h0 r hrm) X U hX hU
  have hwq : wq = w := by
    rcases n1 with n1 | n1
    · exact mul_right_cancel₀ n1 (q2.symm.trans p2)
    · have := mul_right_cancel₀ n1 (q1.symm.trans p1)
      linarith
  have hwr : wr = w := by
    rcases n2 with n2 | n2
    · exact mul_right_cancel₀ n2 (s4.symm.trans p4)
    · have := mul_right_cancel₀ n2 (s3.symm.trans p3)
      linarith
  subst hwq hwr
  obtain ⟨A0, B0⟩ := linear_ends (A := U 1 0 - U 0 0 + wr * (X 1 1 - X 0 1)) (B := U 2 0 - U 3 0 + wr * (X 2 1 - X 3 1))
    hcd (by linear_combination p1) (by linear_combination s1)
  obtain ⟨A1, B1⟩ := linear_ends (A := U 1 1 - U 0 1 - wr * (X 1 0 - X 0 0)) (B := U 2 1 - U 3 1 - wr * (X 2 0 - X 3 0))
    hcd (by linear_combination p2) (by linear_combination s2)
  obtain ⟨C0, D0⟩ := linear_ends (A := U 3 0 - U 0 0 + wr * (X 3 1 - X 0 1)) (B := U 2 0 - U 1 0 + wr * (X 2 1 - X 1 1))
    hab (by linear_combination p3) (by linear_combination q3)
  obtain ⟨C1, D1⟩ := linear_ends (A := U 3 1 - U 0 1 - wr * (X 3 0 - X 0 0)) (B := U 2 1 - U 1 1 - wr * (X 2 0 - X 1 0))
    hab (by linear_combination p4) (by linear_combination q4)
  refine ⟨fun a => if a = 0 then U 0 0 + wr * X 0 1 else U 0 1 - wr * X 0 0,
    fun a b => if a = 0 ∧ b = 1 then -wr else if a = 1 ∧ b = 0 then wr else 0, ?_, ?_⟩
  · intro a b
    by_cases ha : a = 0
    · subst ha
      by_cases hb : b = 1 <;> simp [hb]
    · by_cases ha' : a = 1
      · subst ha'
        by_cases hb : b = 0 <;> simp [hb]
      · simp [ha, ha']
  · intro i hi a ha
    have hi4 : i < 4 := by rw [h.dof.count, hI] at hi; exact hi
    have hUR : R (number x.2 i a) = U i a := by rw [hU]
    rw [hUR, ← hX]
    interval_cases a <;> interval_cases i <;> simp [sum_range_succ] <;> linarith

/-- C95: the same for both kinds of plane elements. -/
theorem C95_plane_rigid {n : Nat} {x : Cell × FemElement ℝ} (h : Body 2 n x)
    (hiso : x.2.interp = x.1.coordElement.interp) (hI : PlaneElement x)
    (hdet : ∀ pts, x.1.Points pts → ∀ p ∈ pts, p.2.jacobian.det ≠ 0) (R : Nat → ℝ)
    (h0 : ∀ pts, x.1.Points pts → ∀ p ∈ pts, ∀ y ∈ strains 2 (gradients x.2 p.2) (restrict 2 x.2 R), y = 0) :
    ∃ (t : Nat → ℝ) (W : Nat → Nat → ℝ), (∀ a b, W a b = -W b a) ∧ RigidNodes 2 x t W R := by
  obtain ⟨pts, hp⟩ := C77_points h
  rcases hI with ⟨hI, hne⟩ | ⟨hI, hG⟩
  · have hl := hp.length_eq
    rw [List.length_zipIdx] at hl
    obtain ⟨p, hm⟩ : ∃ p, p ∈ pts := List.exists_mem_of_length_pos (by rw [← hl]; exact List.length_pos_iff.2 hne)
    obtain ⟨t, W, hW, hR⟩ := C95_simplex_rigid h hiso hI hp p hm (hdet pts hp p hm) R (h0 pts hp p hm)
    refine ⟨t, W, hW, fun i hi => hR i ?_⟩
    rw [h.dof.count, hI.1] at hi
    omega
  · exact C95_quad_rigid h hiso hI hG hp (hdet pts hp) R (h0 pts hp)

/-- Two rigid motions of the plane that agree on two different points agree everywhere. -/
theorem plane_extend {x y : Cell × FemElement ℝ} (R : Nat → ℝ) (he : SharesEdge x y) (t : Nat → ℝ) (W : Nat → Nat → ℝ)
    (hW : ∀ a b, W a b = -W b a) (hx : RigidNodes 2 x t W R) (t' : Nat → ℝ) (W' : Nat → Nat → ℝ)
    (hW' : ∀ a b, W' a b = -W' b a) (hy : RigidNodes 2 y t' W' R) : RigidNodes 2 y t W R := by
  obtain ⟨i, hi, i', hi', j, hj, j', hj', hs, a, ha, hne⟩ := he
  obtain ⟨⟨m0, c0, m0', c0'⟩, ⟨m1, c1, m1', c1'⟩⟩ := And.intro (hs 0 (by norm_num)) (hs 1 (by norm_num))
  have x0 := hx i hi 0 (by norm_num)
  have x1 := hx i hi 1 (by norm_num)
  have x0' := hx i' hi' 0 (by norm_num)
  have x1' := hx i' hi' 1 (by norm_num)
  have y0 := hy j hj 0 (by norm_num)
  have y1 := hy j hj 1 (by norm_num)
  have y0' := hy j' hj' 0 (by norm_num)
  have y1' := hy j' hj' 1 (by norm_num)
  simp only [m0, m1, m0', m1', c0, c1, c0', c1', sum_range_succ, sum_range_zero, zero_add] at x0 x1 x0' x1' y0 y1 y0' y1'
  have z00 : W 0 0 = 0 := by linarith [hW 0 0]
  have z11 : W 1 1 = 0 := by linarith [hW 1 1]
  have z01 := hW 0 1
  have z00' : W' 0 0 = 0 := by linarith [hW' 0 0]
  have z11' : W' 1 1 = 0 := by linarith [hW' 1 1]
  have z01' := hW' 0 1
  rw [z00, z01] at x0 x0'
  rw [z11] at x1 x1'
  rw [z00', z01'] at y0 y0'
  rw [z11'] at y1 y1'
  have hw : W 1 0 = W' 1 0 := by
    interval_cases a
    · refine mul_right_cancel₀ (sub_ne_zero.2 hne) ?_
      linarith
    · refine mul_right_cancel₀ (sub_ne_zero.2 hne) ?_
      linarith
  have ht0 : t 0 = t' 0 := by rw [hw] at x0; linarith
  have ht1 : t 1 = t' 1 := by rw [hw] at x1; linarith
  intro k hk a ha
  rw [hy k hk a ha]
  interval_cases a <;> simp [sum_range_succ, z00, z11, z00', z11', z01, z01', hw, ht0, ht1]

variable {dof n : Nat} {T : List ℝ → IpData → DMat ℝ} {cells : List (Cell × FemElement ℝ)} {m : SpMat ℝ}

/-- C95: on an edge-connected mesh of linear triangles and bilinear quadrilaterals a vector without strains is one rigid
motion of the whole mesh. -/
theorem C95_plane_unstrained (hb : ∀ x ∈ cells, Body 2 n x) (hiso : ∀ x ∈ cells, x.2.interp = x.1.coordElement.interp)
    (hI : ∀ x ∈ cells, PlaneElement x)
    (hdet : ∀ x ∈ cells, ∀ pts, x.1.Points pts → ∀ p ∈ pts, p.2.jacobian.det ≠ 0) (x₀ : Cell × FemElement ℝ)
    (hc : EdgeConnected cells x₀) (R : Nat → ℝ) (h0 : Unstrained 2 cells R) :
    ∃ (t : Nat → ℝ) (W : Nat → Nat → ℝ), (∀ a b, W a b = -W b a) ∧ ∀ x ∈ cells, RigidNodes 2 x t W R := by
  have hown : ∀ x ∈ cells, ∃ (t : Nat → ℝ) (W : Nat → Nat → ℝ), (∀ a b, W a b = -W b a) ∧ RigidNodes 2 x t W R :=
    fun x hx => C95_plane_rigid (hb x hx) (hiso x hx) (hI x hx) (hdet x hx) R (h0 x hx)
  obtain ⟨t, W, hW, h1⟩ := hown x₀ hc.1
  refine ⟨t, W, hW, fun y hy => ?_⟩
  have := hc.2 y hy
  induction this with
  | refl => exact h1
  | @tail y z hyz hz ih =>
    by_cases hym : y ∈ cells
    · obtain ⟨t', W', hW', h2⟩ := hown z hy
      exact plane_extend R hz.2 t W hW (ih hym) t' W' hW' h2
    · exfalso
      rcases Relation.ReflTransGen.cases_tail hyz with h | ⟨w, _, hw⟩
      · exact hym (h ▸ hc.1)
      · exact hym hw.1

/-- C95 (kernel in the plane): on an edge-connected mesh of linear triangles and bilinear quadrilaterals with definite
tangents the stiffness matrix maps exactly the rigid motions to zero. -/
theorem C95_plane_kernel (k : Stiff dof 2 n T cells m) (hpd : Definite 2 T)
    (hw : ∀ x ∈ cells, ∀ pts, x.1.Points pts → ∀ p ∈ pts, 0 < p.2.jacobian.det * p.1)
    (hiso : ∀ x ∈ cells, x.2.interp = x.1.coordElement.interp) (hI : ∀ x ∈ cells, PlaneElement x)
    (x₀ : Cell × FemElement ℝ) (hc : EdgeConnected cells x₀) (R : Nat → ℝ) :
    (∀ i < n, ∑ j ∈ range n, m.entry i j * R j = 0) ↔
      ∃ (t : Nat → ℝ) (W : Nat → Nat → ℝ), (∀ a b, W a b = -W b a) ∧ ∀ x ∈ cells, RigidNodes 2 x t W R := by
  have hdet : ∀ x ∈ cells, ∀ pts, x.1.Points pts → ∀ p ∈ pts, p.2.jacobian.det ≠ 0 := by
    intro x hx pts hp p hm h0
    have := hw x hx pts hp p hm
    rw [h0, zero_mul] at this
    exact lt_irrefl _ this
  constructor
  · intro h
    refine C95_plane_unstrained k.body hiso hI hdet x₀ hc R ((C95_energy_zero k hpd hw R).1 ?_)
    refine sum_eq_zero fun i hi => ?_
    have : ∑ j ∈ range n, R i * m.entry i j * R j = R i * ∑ j ∈ range n, m.entry i j * R j := by
      rw [mul_sum]
      exact sum_congr rfl fun j _ => by ring
    rw [this, h i (mem_range.1 hi), mul_zero]
  · rintro ⟨t, W, hW, h⟩ i hi
    exact C95_rigid k hiso hdet t W hW R (fun x hx j hj a ha => h x hx j hj a ha) i hi

/-! ### Supports -/

/-- No rigid motion other than zero leaves all prescribed dofs at zero. -/
def PlaneSupported (cells : List (Cell × FemElement ℝ)) (prescribed : Nat → Prop) : Prop :=
  ∀ (t : Nat → ℝ) (W : Nat → Nat → ℝ), (∀ a b, W a b = -W b a) →
    (∀ x ∈ cells, ∀ i < x.2.nodes.length, ∀ a < 2, prescribed (number x.2 i a) →
      t a + ∑ c ∈ range 2, W a c * component x.1.coordElement i c = 0) →
    ∀ x ∈ cells, ∀ i < x.2.nodes.length, ∀ a < 2, t a + ∑ c ∈ range 2, W a c * component x.1.coordElement i c = 0

/-- C95 (solvable in the plane): on an edge-connected mesh of linear triangles and bilinear quadrilaterals with definite
tangents and supports that exclude rigid motions the equations have exactly one solution, for all prescribed values and all loads. -/
theorem C95_plane_solvable (k : Stiff dof 2 n T cells m) (hpd : Definite 2 T)
    (hw : ∀ x ∈ cells, ∀ pts, x.1.Points pts → ∀ p ∈ pts, 0 < p.2.jacobian.det * p.1)
    (hiso : ∀ x ∈ cells, x.2.interp = x.1.coordElement.interp) (hI : ∀ x ∈ cells, PlaneElement x)
    (x₀ : Cell × FemElement ℝ) (hc : EdgeConnected cells x₀)
    (hall : ∀ g < n, ∃ x ∈ cells, ∃ i < x.2.nodes.length, ∃ a < 2, number x.2 i a = g) (prescribed : Nat → Prop)
    (hsup : PlaneSupported cells prescribed) (value load : Nat → ℝ) :
    ∃! U : Fin n → ℝ, ∀ i : Fin n, (prescribed i → U i = value i) ∧
      (¬ prescribed i → ∑ j : Fin n, m.entry i j * U j = load i) := by
  classical
  have hlift : ∀ (U : Fin n → ℝ) (i : Nat), ∑ j ∈ range n, m.entry i j * (if h : j < n then U ⟨j, h⟩ else 0) =
      ∑ j : Fin n, m.entry i j * U j := by
    intro U i
    rw [← Fin.sum_univ_eq_sum_range (fun j => m.entry i j * (if h : j < n then U ⟨j, h⟩ else 0))]
    exact sum_congr rfl fun j _ => by rw [dif_pos j.2]
  obtain ⟨L, hL⟩ : ∃ L : (Fin n → ℝ) →ₗ[ℝ] (Fin n → ℝ), ∀ U i, L U i =
      if prescribed i then U i else ∑ j : Fin n, m.entry i j * U j :=
    ⟨{ toFun := fun U i => if prescribed i then U i else ∑ j : Fin n, m.entry i j * U j
       map_add' := by
        intro U V
        ext i
        by_cases h : prescribed i <;> simp [h, mul_add, sum_add_distrib]
       map_smul' := by
        intro c U
        ext i
        by_cases h : prescribed i
        · simp [h]
        · simp only [if_neg h, Pi.smul_apply, smul_eq_mul, RingHom.id_apply, mul_sum]
          exact sum_congr rfl fun j _ => by ring }, fun _ _ => rfl⟩
  have hinj : Function.Injective L := by
    rw [injective_iff_map_eq_zero]
    intro U hU
    have hU' : ∀ i : Fin n, (if prescribed i then U i else ∑ j : Fin n, m.entry i j * U j) = 0 := fun i => by
      rw [← hL, hU]
      rfl
    have h1 := C95_unique k hpd hw prescribed (fun j => if h : j < n then U ⟨j, h⟩ else 0) (fun _ => 0)
      (by
        intro i hi hpi
        have := hU' ⟨i, hi⟩
        rw [if_pos hpi] at this
        rw [dif_pos hi, this])
      (by
        intro i hi hpi
        have := hU' ⟨i, hi⟩
        rw [if_neg hpi] at this
        rw [hlift, this]
        simp)
    simp only [sub_zero] at h1
    have hdet : ∀ x ∈ cells, ∀ pts, x.1.Points pts → ∀ p ∈ pts, p.2.jacobian.det ≠ 0 := by
      intro x hx pts hp p hm h0
      have := hw x hx pts hp p hm
      rw [h0, zero_mul] at this
      exact lt_irrefl _ this
    obtain ⟨t, W, hW, hR⟩ := C95_plane_unstrained k.body hiso hI hdet x₀ hc _ h1
    have hnum : ∀ x ∈ cells, ∀ i < x.2.nodes.length, ∀ a < 2, number x.2 i a < n := by
      intro x hx i hi a ha
      have hb := k.body x hx
      rw [number, List.getD_eq_getElem _ _ hi]
      have hw := (hb.dof.wf _ (List.getElem_mem hi)).2
      rw [List.getD_eq_getElem _ _ (by rw [hw]; exact ha)]
      have := hb.numbered _ (List.getElem_mem hi) _ (List.getElem_mem (by rw [hw]; exact ha))
      omega
    have hz := hsup t W hW (by
      intro x hx i hi a ha hpi
      rw [← hR x hx i hi a ha]
      dsimp only
      have := hU' ⟨_, hnum x hx i hi a ha⟩
      rw [if_pos hpi] at this
      rw [dif_pos (hnum x hx i hi a ha), this])
    ext g
    obtain ⟨x, hx, i, hi, a, ha, hg⟩ := hall g g.2
    have := hR x hx i hi a ha
    dsimp only at this
    rw [hz x hx i hi a ha, hg, dif_pos g.2] at this
    exact this
  obtain ⟨U, hU⟩ := LinearMap.injective_iff_surjective.1 hinj fun i => if prescribed i then value i else load i
  have hiff : ∀ V : Fin n → ℝ, (L V = fun i : Fin n => if prescribed i then value i else load i) ↔
      ∀ i : Fin n, (prescribed i → V i = value i) ∧ (¬ prescribed i → ∑ j : Fin n, m.entry i j * V j = load i) := by
    intro V
    rw [funext_iff]
    refine forall_congr' fun i => ?_
    rw [hL]
    by_cases h : prescribed i <;> simp [h]
  refine ⟨U, (hiff U).1 hU, fun V hV => hinj ?_⟩
  rw [(hiff V).2 hV, hU]

/-- C101: on an edge-connected plane mesh of linear triangles and bilinear quadrilaterals the constraints leave no motion
without strains if they leave no rigid motion. -/
theorem C101_plane_held {c : Constraints ℝ} {num : Term ℝ → Nat} (hb : ∀ x ∈ cells, Body 2 n x)
    (hw : ∀ x ∈ cells, ∀ pts, x.1.Points pts → ∀ p ∈ pts, 0 < p.2.jacobian.det * p.1)
    (hiso : ∀ x ∈ cells, x.2.interp = x.1.coordElement.interp) (hI : ∀ x ∈ cells, PlaneElement x)
    (x₀ : Cell × FemElement ℝ) (hc : EdgeConnected cells x₀)
    (hrigid : ∀ w : List ℝ, w.length = n → (∃ (t : Nat → ℝ) (W : Nat → Nat → ℝ), (∀ a b, W a b = -W b a) ∧
      ∀ x ∈ cells, RigidNodes 2 x t W fun i => w.getD i 0) →
      Statics.Satisfies c dof num (fun _ => 0) w → ∀ i < n, w.getD i 0 = 0) :
    Statics.Held 2 dof n cells c num := by
  intro w hwl hs hu
  refine hrigid w hwl (C95_plane_unstrained hb hiso hI (fun x hx pts hp p hm h0 => ?_) x₀ hc _ hu) hs
  have := hw x hx pts hp p hm
  rw [h0, zero_mul] at this
  exact lt_irrefl _ this

/-! ### Examples -/

/-- A quadrilateral that is no parallelogram, with four integration points. -/
noncomputable def exampleTrapezoid : Cell × FemElement ℝ :=
  (⟨0, ⟨nodesAt [[0, 0], [3, 0], [2, 2], [0, 2]], Interpolation.quadLinear⟩,
    Quadrature.tensor 2 2 [1, 1] [-1 / 2, 1 / 2]⟩,
   ⟨[⟨[[0, 0]], [0, 1]⟩, ⟨[[0, 0]], [2, 3]⟩, ⟨[[0, 0]], [4, 5]⟩, ⟨[[0, 0]], [6, 7]⟩], Interpolation.quadLinear⟩)

/-- A triangle on the slanted edge of the quadrilateral. -/
noncomputable def exampleBeside : Cell × FemElement ℝ :=
  (⟨1, ⟨nodesAt [[3, 0], [4, 2], [2, 2]], Interpolation.triangleLinear⟩, [(1 / 2, [1 / 3, 1 / 3])]⟩,
   ⟨[⟨[[0, 0]], [2, 3]⟩, ⟨[[0, 0]], [8, 9]⟩, ⟨[[0, 0]], [4, 5]⟩], Interpolation.triangleLinear⟩)

theorem examplePlane_body : ∀ x ∈ [exampleTrapezoid, exampleBeside], Body 2 10 x := by
  intro x hx
  simp only [List.mem_cons, List.not_mem_nil, or_false] at hx
  rcases hx with rfl | rfl
  · exact {
      dim1 := by norm_num
      dim3 := by norm_num
      dof := ⟨by simp [exampleTrapezoid], rfl, by simp [exampleTrapezoid, Node.WF]⟩
      coord := ⟨by simp [exampleTrapezoid, nodesAt], rfl, by simp [exampleTrapezoid, nodesAt, Node.ofVector, Node.WF]⟩
      dofDim := rfl
      coordDim := rfl
      dofUnity := C77_types _ (by simp [exactTypes, exampleTrapezoid])
      coordUnity := C77_types _ (by simp [exactTypes, exampleTrapezoid])
      numbered := by simp [exampleTrapezoid, Numbered] }
  · exact {
      dim1 := by norm_num
      dim3 := by norm_num
      dof := ⟨by simp [exampleBeside], rfl, by simp [exampleBeside, Node.WF]⟩
      coord := ⟨by simp [exampleBeside, nodesAt], rfl, by simp [exampleBeside, nodesAt, Node.ofVector, Node.WF]⟩
      dofDim := rfl
      coordDim := rfl
      dofUnity := C77_types _ (by simp [exactTypes, exampleBeside])
      coordUnity := C77_types _ (by simp [exactTypes, exampleBeside])
      numbered := by simp [exampleBeside, Numbered] }

/-- Weight and coordinates of an evaluated point are those of a point of the rule. -/
theorem point_rule {dim n : Nat} {x : Cell × FemElement ℝ} (h : Body dim n x) {pts : List (ℝ × IpData)}
    (hp : x.1.Points pts) (p : ℝ × IpData) (hm : p ∈ pts) : (p.1, p.2.coords) ∈ x.1.rule := by
  obtain ⟨i, hi, rfl⟩ := List.getElem_of_mem hm
  unfold Cell.Points at hp
  have hl := hp.length_eq
  rw [List.length_zipIdx] at hl
  have h2 := (List.forall₂_iff_get.1 hp).2 i (by rw [List.length_zipIdx, hl]; exact hi) hi
  simp only [List.get_eq_getElem, List.getElem_zipIdx] at h2
  obtain ⟨d, h3, h4, _⟩ := h.jacobian (0 + i) (x.1.rule[i]'(by rw [hl]; exact hi)).2
  rw [h2.2] at h3
  rw [h2.1, Res.ok.inj h3, h4]
  exact List.getElem_mem _

theorem examplePlane_weights : ∀ x ∈ [exampleTrapezoid, exampleBeside], ∀ pts, x.1.Points pts → ∀ p ∈ pts,
    0 < p.2.jacobian.det * p.1 := by
  intro x hx pts hp p hm
  have hb := examplePlane_body x hx
  obtain ⟨_, _, h⟩ := hb.point hp p hm
  have hr := point_rule hb hp p hm
  simp only [List.mem_cons, List.not_mem_nil, or_false] at hx
  rcases hx with rfl | rfl
  · have hv : values 2 exampleTrapezoid.1.coordElement = [0, 0, 3, 0, 2, 2, 0, 2] := by
      simp [values, exampleTrapezoid, nodesAt, Node.ofVector, component, List.range_succ]
    rw [hv, make_square2 _ _ (by simp [exampleTrapezoid, Interpolation.quadLinear, Interpolation.quadLinearDeriv])
      (by simp [exampleTrapezoid, Interpolation.quadLinear, Interpolation.quadLinearDeriv])] at h
    rw [← Res.ok.inj h]
    simp [exampleTrapezoid, Quadrature.tensor, Quadrature.tensorStep, List.range_succ] at hr
    rcases hr with ⟨h1, h2⟩ | ⟨h1, h2⟩ | ⟨h1, h2⟩ | ⟨h1, h2⟩ <;> rw [h1, h2] <;>
      simp [exampleTrapezoid, Interpolation.quadLinear, Interpolation.quadLinearDeriv, Jacobian.det2,
        Jacobian.calculate, List.range_succ] <;> norm_num
  · have hv : values 2 exampleBeside.1.coordElement = [3, 0, 4, 2, 2, 2] := by
      simp [values, exampleBeside, nodesAt, Node.ofVector, component, List.range_succ]
    rw [hv, make_square2 _ _ (by simp [exampleBeside, Interpolation.triangleLinear, Interpolation.triangleLinearDeriv])
      (by simp [exampleBeside, Interpolation.triangleLinear, Interpolation.triangleLinearDeriv])] at h
    rw [← Res.ok.inj h]
    simp [exampleBeside] at hr
    rw [hr.1]
    simp [exampleBeside, Interpolation.triangleLinear, Interpolation.triangleLinearDeriv, Jacobian.det2,
      Jacobian.calculate, List.range_succ]
    norm_num

theorem examplePlane_elements : ∀ x ∈ [exampleTrapezoid, exampleBeside], PlaneElement x := by
  intro x hx
  simp only [List.mem_cons, List.not_mem_nil, or_false] at hx
  rcases hx with rfl | rfl
  · exact Or.inr ⟨rfl, grid_tensor 2 _ _ 0 1 (by norm_num) (by norm_num) (by norm_num)⟩
  · exact Or.inl ⟨triangleLinear_simplex, by simp [exampleBeside]⟩

theorem examplePlane_connected : EdgeConnected [exampleTrapezoid, exampleBeside] exampleTrapezoid := by
  refine ⟨by simp, fun y hy => ?_⟩
  simp only [List.mem_cons, List.not_mem_nil, or_false] at hy
  rcases hy with rfl | rfl
  · exact Relation.ReflTransGen.refl
  · refine Relation.ReflTransGen.single ⟨by simp, 1, by simp [exampleTrapezoid], 2, by simp [exampleTrapezoid], 0,
      by simp [exampleBeside], 2, by simp [exampleBeside], fun a ha => ?_, 0, by norm_num, ?_⟩
    · interval_cases a <;> simp [exampleTrapezoid, exampleBeside, number, component, nodesAt, Node.ofVector]
    · simp [exampleBeside, component, nodesAt, Node.ofVector]

/-- The node at the origin is fixed, the node at `(3, 0)` is held in the direction y. -/
theorem examplePlane_supported : PlaneSupported [exampleTrapezoid, exampleBeside] fun g => g = 0 ∨ g = 1 ∨ g = 3 := by
  intro t W hW h x hx i hi a ha
  have h0 := h exampleTrapezoid (by simp) 0 (by simp [exampleTrapezoid]) 0 (by norm_num) (by simp [exampleTrapezoid, number])
  have h1 := h exampleTrapezoid (by simp) 0 (by simp [exampleTrapezoid]) 1 (by norm_num) (by simp [exampleTrapezoid, number])
  have h2 := h exampleTrapezoid (by simp) 1 (by simp [exampleTrapezoid]) 1 (by norm_num) (by simp [exampleTrapezoid, number])
  simp [exampleTrapezoid, component, nodesAt, Node.ofVector, sum_range_succ] at h0 h1 h2
  have e00 := hW 0 0
  have e11 := hW 1 1
  have e01 := hW 0 1
  have w00 : W 0 0 = 0 := by linarith
  have w11 : W 1 1 = 0 := by linarith
  have w10 : W 1 0 = 0 := by linarith
  have w01 : W 0 1 = 0 := by linarith
  interval_cases a <;> simp [sum_range_succ, w00, w11, w10, w01, h0, h1]

theorem examplePlane_numbers : ∀ g < 10, ∃ x ∈ [exampleTrapezoid, exampleBeside], ∃ i < x.2.nodes.length, ∃ a < 2,
    number x.2 i a = g := by
  intro g hg
  by_cases h8 : g < 8
  · refine ⟨exampleTrapezoid, by simp, g / 2, by simp [exampleTrapezoid]; omega, g % 2, by omega, ?_⟩
    interval_cases g <;> simp [exampleTrapezoid, number]
  · refine ⟨exampleBeside, by simp, 1, by simp [exampleBeside], g - 8, by omega, ?_⟩
    interval_cases g <;> simp [exampleBeside, number]

/-- The trapezoid and the triangle meet the hypotheses of `C95_plane_kernel` and `C95_plane_solvable`. -/
example : ∃ m, Stiff 0 2 10 (fun _ _ => elasticTangent 2 1 0 .planeStress) [exampleTrapezoid, exampleBeside] m ∧
    Definite 2 (fun _ _ => elasticTangent 2 1 0 .planeStress) ∧
    (∀ x ∈ [exampleTrapezoid, exampleBeside], ∀ pts, x.1.Points pts → ∀ p ∈ pts, 0 < p.2.jacobian.det * p.1) ∧
    (∀ x ∈ [exampleTrapezoid, exampleBeside], x.2.interp = x.1.coordElement.interp) ∧
    (∀ x ∈ [exampleTrapezoid, exampleBeside], PlaneElement x) ∧
    EdgeConnected [exampleTrapezoid, exampleBeside] exampleTrapezoid ∧
    (∀ g < 10, ∃ x ∈ [exampleTrapezoid, exampleBeside], ∃ i < x.2.nodes.length, ∃ a < 2, number x.2 i a = g) ∧
    PlaneSupported [exampleTrapezoid, exampleBeside] fun g => g = 0 ∨ g = 1 ∨ g = 3 := by
  have hel := C95_elastic 2 (by norm_num) (by norm_num) 1 0 .planeStress (by norm_num) (by norm_num) (by norm_num)
  obtain ⟨_, m, _, _, _, _, h⟩ := C95_exists ⟨[(0, 10)], [(0, 0)]⟩ 0 2 10 (fun _ _ => elasticTangent 2 1 0 .planeStress)
    (fun e d he => by rw [he]; exact hel.1) [exampleTrapezoid, exampleBeside] [[exampleTrapezoid, exampleBeside]] (by simp)
    rfl examplePlane_body
  refine ⟨m, h, hel.2.2.1, examplePlane_weights, ?_, examplePlane_elements, examplePlane_connected, ?_,
    examplePlane_supported⟩
  · intro x hx
    simp only [List.mem_cons, List.not_mem_nil, or_false] at hx
    rcases hx with rfl | rfl <;> rfl
  · exact examplePlane_numbers

/-- Three prescribed dofs hold the trapezoid and the triangle. -/
example (g : ℝ → ℝ) : Statics.Held 2 0 10 [exampleTrapezoid, exampleBeside] (Statics.exC101 g) (fun t => t.comp.toNat) := by
  refine C101_plane_held examplePlane_body examplePlane_weights ?_ examplePlane_elements exampleTrapezoid
    examplePlane_connected ?_
  · intro x hx
    simp only [List.mem_cons, List.not_mem_nil, or_false] at hx
    rcases hx with rfl | rfl <;> rfl
  · rintro w _ ⟨t, W, hW, hR⟩ hs i hi
    have hs' : ∀ g : Nat, g = 0 ∨ g = 1 ∨ g = 3 → w.getD g 0 = 0 := by
      rintro g (rfl | rfl | rfl)
      · simpa [Equation.lhs] using hs ⟨⟨1, 0, 1⟩, [], fun _ => 0⟩ (by simp [Statics.exC101_eqs])
      · simpa [Equation.lhs] using hs ⟨⟨1, 1, 1⟩, [], fun _ => 0⟩ (by simp [Statics.exC101_eqs])
      · simpa [Equation.lhs] using hs ⟨⟨1, 3, 1⟩, [], g⟩ (by simp [Statics.exC101_eqs])
    have hz := examplePlane_supported t W hW fun x hx i hi a ha hp => by
      rw [← hR x hx i hi a ha]
      exact hs' _ hp
    obtain ⟨x, hx, j, hj, a, ha, hg⟩ := examplePlane_numbers i hi
    have := hR x hx j hj a ha
    rw [hz x hx j hj a ha, hg] at this
    exact this

end Balance

end NuTo
