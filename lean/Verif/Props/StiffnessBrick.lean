/-
C95, continued: in space the kernel of the stiffness matrix consists of the rigid motions only for meshes of linear
tetrahedra and of linear bricks that are parallelepipeds, if the bricks have integration points on a grid.
-/
import Verif.Props.StiffnessQuad

namespace NuTo

open Assembly Finset

namespace Balance

/-! ### Specification -/

/-- The rule contains all points with coordinates `a` and `b`. -/
def Grid3 (rule : List (ℝ × List ℝ)) : Prop :=
  ∃ a b : ℝ, a ≠ b ∧ ∀ r s t : ℝ, (r = a ∨ r = b) → (s = a ∨ s = b) → (t = a ∨ t = b) → ∃ w, (w, [r, s, t]) ∈ rule

/-- The corner of the cube `[-1, 1]³` at which node `i` of a brick lies. -/
def corner (i c : Nat) : ℝ := (([[-1, -1, -1], [1, -1, -1], [1, 1, -1], [-1, 1, -1], [-1, -1, 1], [1, -1, 1], [1, 1, 1],
  [-1, 1, 1]] : List (List ℝ)).getD i []).getD c 0

/-- The nodes of the element are the corners of a parallelepiped. -/
def Parallelepiped (e : FemElement ℝ) : Prop :=
  ∃ (C : Nat → ℝ) (A : Nat → Nat → ℝ), ∀ i < 8, ∀ b < 3, component e i b = C b + ∑ c ∈ range 3, A b c * corner i c

/-- A linear tetrahedron with an integration point, or a linear brick that is a parallelepiped with integration points on
a grid. -/
def SpaceElement (x : Cell × FemElement ℝ) : Prop :=
  (Simplex 3 x.2.interp ∧ x.1.rule ≠ []) ∨
    (x.2.interp = Interpolation.brickLinear ∧ Parallelepiped x.1.coordElement ∧ Grid3 x.1.rule)

/-- Component `k` of the normal of the plane through three nodes. -/
def normal (e : FemElement ℝ) (i j l k : Nat) : ℝ :=
  let d := component e
  (d j ((k + 1) % 3) - d i ((k + 1) % 3)) * (d l ((k + 2) % 3) - d i ((k + 2) % 3)) -
    (d j ((k + 2) % 3) - d i ((k + 2) % 3)) * (d l ((k + 1) % 3) - d i ((k + 1) % 3))

/-- Node `i` of `x` is node `j` of `y`: same dof numbers, same coordinates. -/
def SameNode (x y : Cell × FemElement ℝ) (i j : Nat) : Prop :=
  i < x.2.nodes.length ∧ j < y.2.nodes.length ∧
    ∀ a < 3, number x.2 i a = number y.2 j a ∧ component x.1.coordElement i a = component y.1.coordElement j a

/-- `x` and `y` share three nodes that do not lie on a line. -/
def SharesFace (x y : Cell × FemElement ℝ) : Prop :=
  ∃ i i' i'' j j' j'', SameNode x y i j ∧ SameNode x y i' j' ∧ SameNode x y i'' j'' ∧
    ∃ k < 3, normal y.1.coordElement j j' j'' k ≠ 0

/-- From the cell `x₀` all cells can be reached across faces. -/
def SpaceConnected (cells : List (Cell × FemElement ℝ)) (x₀ : Cell × FemElement ℝ) : Prop :=
  x₀ ∈ cells ∧ ∀ y ∈ cells, Relation.ReflTransGen (fun x y => y ∈ cells ∧ SharesFace x y) x₀ y

/-- No rigid motion other than zero leaves all prescribed dofs at zero. -/
def NodesSupported (dim : Nat) (cells : List (Cell × FemElement ℝ)) (prescribed : Nat → Prop) : Prop :=
  ∀ (t : Nat → ℝ) (W : Nat → Nat → ℝ), (∀ a b, W a b = -W b a) →
    (∀ x ∈ cells, ∀ i < x.2.nodes.length, ∀ a < dim, prescribed (number x.2 i a) →
      t a + ∑ c ∈ range dim, W a c * component x.1.coordElement i c = 0) →
    ∀ x ∈ cells, ∀ i < x.2.nodes.length, ∀ a < dim, t a + ∑ c ∈ range dim, W a c * component x.1.coordElement i c = 0

/-- Tensor product rules with two different points lie on a grid. -/
theorem grid3_tensor (n : Nat) (w p : List ℝ) (i j : Nat) (hi : i < n) (hj : j < n) (hij : p.getD i 0 ≠ p.getD j 0) :
    Grid3 (Quadrature.tensor 3 n w p) := by
  have hmem : ∀ a < n, ∀ b < n, ∀ c < n, ∃ v, (v, [p.getD a 0, p.getD b 0, p.getD c 0]) ∈ Quadrature.tensor 3 n w p := by
    intro a ha b hb c hc
    obtain ⟨_, h, _, hm⟩ := C31_points (K := ℝ) 3 n w p
    rw [h]
    exact ⟨_, List.mem_map.2 ⟨[a, b, c], (hm _).2 ⟨rfl, by simp [ha, hb, hc]⟩, rfl⟩⟩
  refine ⟨_, _, hij, ?_⟩
  rintro r s t (rfl | rfl) (rfl | rfl) (rfl | rfl)
  · exact hmem i hi i hi i hi
  · exact hmem i hi i hi j hj
  · exact hmem i hi j hj i hi
  · exact hmem i hi j hj j hj
  · exact hmem j hj i hi i hi
  · exact hmem j hj i hi j hj
  · exact hmem j hj j hj i hi
  · exact hmem j hj j hj j hj

/-! ### One element -/

/-- The derivatives of the shape functions of the brick. -/
noncomputable def slope (r s t : ℝ) (i c : Nat) : ℝ :=
  (((Interpolation.brickLinearDeriv fun k => [r, s, t].getD k 0).getD i []).getD c 0 : ℝ)

theorem slope_corner (r s t : ℝ) (c d : Nat) (hc : c < 3) (hd : d < 3) :
    ∑ i ∈ range 8, corner i c * slope r s t i d = if c = d then 1 else 0 := by
  interval_cases c <;> interval_cases d <;>
    simp only [sum_range_succ, sum_range_zero, corner, slope, Interpolation.brickLinearDeriv, List.getD_cons_zero,
      List.getD_cons_succ] <;> norm_num <;> ring

theorem slope_one (r s t : ℝ) (d : Nat) (hd : d < 3) : ∑ i ∈ range 8, slope r s t i d = 0 := by
  interval_cases d <;>
    simp only [sum_range_succ, sum_range_zero, slope, Interpolation.brickLinearDeriv, List.getD_cons_zero,
      List.getD_cons_succ] <;> ring

/-- Two conditions on the ends from values on a grid. -/
theorem bilinear_ends {a b P Q R S : ℝ} (hab : a ≠ b)
    (h : ∀ s t : ℝ, (s = a ∨ s = b) → (t = a ∨ t = b) →
      (1 - s) * (1 - t) * P + (1 + s) * (1 - t) * Q + (1 - s) * (1 + t) * R + (1 + s) * (1 + t) * S = 0) :
    P = 0 ∧ Q = 0 ∧ R = 0 ∧ S = 0 := by
  have key : ∀ t : ℝ, (t = a ∨ t = b) → (1 - t) * P + (1 + t) * R = 0 ∧ (1 - t) * Q + (1 + t) * S = 0 := by
    intro t ht
    exact linear_ends hab (by linear_combination h a t (Or.inl rfl) ht) (by linear_combination h b t (Or.inr rfl) ht)
  obtain ⟨p1, r1⟩ := linear_ends hab (key a (Or.inl rfl)).1 (key b (Or.inr rfl)).1
  obtain ⟨q1, s1⟩ := linear_ends hab (key a (Or.inl rfl)).2 (key b (Or.inr rfl)).2
  exact ⟨p1, q1, r1, s1⟩

/-- A trilinear field on the cube whose symmetric gradient vanishes on a grid is a rigid motion. -/
theorem brick_reference {a b : ℝ} (hab : a ≠ b) (V : Nat → Nat → ℝ)
    (h : ∀ r s t : ℝ, (r = a ∨ r = b) → (s = a ∨ s = b) → (t = a ∨ t = b) → ∀ c < 3, ∀ d < 3,
      ∑ i ∈ range 8, V i c * slope r s t i d + ∑ i ∈ range 8, V i d * slope r s t i c = 0) :
    ∃ (τ : Nat → ℝ) (M : Nat → Nat → ℝ), (∀ c d, M c d = -M d c) ∧
      ∀ i < 8, ∀ c < 3, V i c = τ c + ∑ d ∈ range 3, M c d * corner i d := by
  simp only [sum_range_succ, sum_range_zero, slope, Interpolation.brickLinearDeriv, List.getD_cons_zero,
    List.getD_cons_succ, zero_add] at h
  have la : a = a ∨ a = b := Or.inl rfl
  obtain ⟨x1, x2, x3, x4⟩ := bilinear_ends hab (P := V 1 0 - V 0 0) (Q := V 2 0 - V 3 0) (R := V 5 0 - V 4 0)
    (S := V 6 0 - V 7 0) fun s t hs ht => by
      have := h a s t la hs ht 0 (by norm_num) 0 (by norm_num)
      simp only [List.getD_cons_zero] at this
      linear_combination 4 * this
  obtain ⟨y1, y2, y3, y4⟩ := bilinear_ends hab (P := V 3 1 - V 0 1) (Q := V 2 1 - V 1 1) (R := V 7 1 - V 4 1)
    (S := V 6 1 - V 5 1) fun s t hs ht => by
      have := h s a t hs la ht 1 (by norm_num) 1 (by norm_num)
      simp only [List.getD_cons_zero, List.getD_cons_succ] at this
      linear_combination 4 * this
  obtain ⟨z1, z2, z3, z4⟩ := bilinear_ends hab (P := V 4 2 - V 0 2) (Q := V 5 2 - V 1 2) (R := V 7 2 - V 3 2)
    (S := V 6 2 - V 2 2) fun s t hs ht => by
      have := h s t a hs ht la 2 (by norm_num) 2 (by norm_num)
      simp only [List.getD_cons_zero, List.getD_cons_succ] at this
      linear_combination 4 * this
  have e10 : V 1 0 = V 0 0 := by linarith
  have e20 : V 2 0 = V 3 0 := by linarith
  have e50 : V 5 0 = V 4 0 := by linarith
  have e60 : V 6 0 = V 7 0 := by linarith
  have e31 : V 3 1 = V 0 1 := by linarith
  have e21 : V 2 1 = V 1 1 := by linarith
  have e71 : V 7 1 = V 4 1 := by linarith
  have e61 : V 6 1 = V 5 1 := by linarith
  have e42 : V 4 2 = V 0 2 := by linarith
  have e52 : V 5 2 = V 1 2 := by linarith
  have e72 : V 7 2 = V 3 2 := by linarith
  have e62 : V 6 2 = V 2 2 := by linarith
  have hXY : ∀ t : ℝ, (t = a ∨ t = b) → (1 - t) * (V 3 0 - V 0 0 + (V 1 1 - V 0 1)) +
      (1 + t) * (V 7 0 - V 4 0 + (V 5 1 - V 4 1)) = 0 := by
    intro t ht
    have := h a a t la la ht 0 (by norm_num) 1 (by norm_num)
    simp only [List.getD_cons_zero, List.getD_cons_succ, e10, e20, e50, e60, e31, e21, e71, e61] at this
    linear_combination 4 * this
  have hXZ : ∀ t : ℝ, (t = a ∨ t = b) → (1 - t) * (V 4 0 - V 0 0 + (V 1 2 - V 0 2)) +
      (1 + t) * (V 7 0 - V 3 0 + (V 2 2 - V 3 2)) = 0 := by
    intro t ht
    have := h a t a la ht la 0 (by norm_num) 2 (by norm_num)
    simp only [List.getD_cons_zero, List.getD_cons_succ, e10, e20, e50, e60, e42, e52, e72, e62] at this
    linear_combination 4 * this
  have hYZ : ∀ t : ℝ, (t = a ∨ t = b) → (1 - t) * (V 4 1 - V 0 1 + (V 3 2 - V 0 2)) +
      (1 + t) * (V 5 1 - V 1 1 + (V 2 2 - V 1 2)) = 0 := by
    intro t ht
    have := h t a a ht la la 1 (by norm_num) 2 (by norm_num)
    simp only [List.getD_cons_zero, List.getD_cons_succ, e31, e21, e71, e61, e42, e52, e72, e62] at this
    linear_combination 4 * this
  obtain ⟨i1, i2⟩ := linear_ends hab (hXY a la) (hXY b (Or.inr rfl))
  obtain ⟨j1, j2⟩ := linear_ends hab (hXZ a la) (hXZ b (Or.inr rfl))
  obtain ⟨k1, k2⟩ := linear_ends hab (hYZ a la) (hYZ b (Or.inr rfl))
  obtain ⟨m01, hm01⟩ : ∃ m, m = (V 3 0 - V 0 0) / 2 := ⟨_, rfl⟩
  obtain ⟨m02, hm02⟩ : ∃ m, m = (V 4 0 - V 0 0) / 2 := ⟨_, rfl⟩
  obtain ⟨m12, hm12⟩ : ∃ m, m = (V 4 1 - V 0 1) / 2 := ⟨_, rfl⟩
  refine ⟨fun c => [V 0 0 + m01 + m02, V 0 1 - m01 + m12, V 0 2 - m02 - m12].getD c 0,
    fun c d => if c = 0 ∧ d = 1 then m01 else if c = 1 ∧ d = 0 then -m01 else if c = 0 ∧ d = 2 then m02 else
      if c = 2 ∧ d = 0 then -m02 else if c = 1 ∧ d = 2 then m12 else if c = 2 ∧ d = 1 then -m12 else 0, ?_, ?_⟩
  · intro c d
    by_cases c0 : c = 0 <;> by_cases c1 : c = 1 <;> by_cases c2 : c = 2 <;> by_cases d0 : d = 0 <;>
      by_cases d1 : d = 1 <;> by_cases d2 : d = 2 <;> simp [c0, c1, c2, d0, d1, d2]
  · intro i hi c hc
    interval_cases c <;> interval_cases i <;> simp [sum_range_succ, corner] <;> linarith

/-- C95: a vector without strains at the integration points of a brick that is a parallelepiped is a rigid motion of its
eight nodes if the points contain a grid. -/
theorem C95_brick_rigid {n : Nat} {x : Cell × FemElement ℝ} (h : Body 3 n x)
    (hiso : x.2.interp = x.1.coordElement.interp) (hI : x.2.interp = Interpolation.brickLinear)
    (hbox : Parallelepiped x.1.coordElement) (hG : Grid3 x.1.rule) {pts : List (ℝ × IpData)} (hp : x.1.Points pts)
    (hdet : ∀ p ∈ pts, p.2.jacobian.det ≠ 0) (R : Nat → ℝ)
    (h0 : ∀ p ∈ pts, ∀ y ∈ strains 3 (gradients x.2 p.2) (restrict 3 x.2 R), y = 0) :
    ∃ (t : Nat → ℝ) (W : Nat → Nat → ℝ), (∀ a b, W a b = -W b a) ∧ RigidNodes 3 x t W R := by
  obtain ⟨C, A, hA⟩ := hbox
  obtain ⟨a, b, hab, hG⟩ := hG
  obtain ⟨U, hU⟩ : ∃ U : Nat → Nat → ℝ, ∀ i a, R (number x.2 i a) = U i a := ⟨_, fun _ _ => rfl⟩
  have hn8 : x.2.interp.numNodes = 8 := by rw [hI]; rfl
  have hjac : ∀ p ∈ pts, ∀ r s t : ℝ, p.2.coords = [r, s, t] → (∀ b < 3, ∀ c < 3, p.2.jacobian.jac b c = A b c) ∧
      ∀ a < 3, ∀ c < 3, ∑ b ∈ range 3, displacementGradient 3 (gradients x.2 p.2) (restrict 3 x.2 R) a b * A b c =
        ∑ i ∈ range 8, U i a * slope r s t i c := by
    intro p hm r s t hc
    obtain ⟨hj, hg⟩ := iso_point h hiso hp p hm (hdet p hm)
    have hslope : ∀ i c, ((x.2.interp.deriv fun k => p.2.coords.getD k 0).getD i []).getD c 0 = slope r s t i c := by
      intro i c
      rw [hI, hc]
      rfl
    have hg := hg R
    simp only [hslope, hn8, hU] at hj hg
    have h1 : ∀ b < 3, ∀ c < 3, p.2.jacobian.jac b c = A b c := by
      intro b hb c hc
      rw [hj b hb c]
      calc ∑ i ∈ range 8, component x.1.coordElement i b * slope r s t i c
          = C b * ∑ i ∈ range 8, slope r s t i c + ∑ d ∈ range 3, A b d * ∑ i ∈ range 8, corner i d * slope r s t i c := by
            rw [sum_congr rfl fun i hi => by rw [hA i (mem_range.1 hi) b hb]]
            simp only [add_mul, sum_add_distrib, mul_sum, sum_mul]
            rw [sum_comm (s := range 3)]
            simp only [mul_assoc]
        _ = A b c := by
            rw [slope_one r s t c hc, sum_congr rfl fun d hd => by rw [slope_corner r s t d c (mem_range.1 hd) hc]]
            simp [hc]
    refine ⟨h1, fun a ha c hc => ?_⟩
    rw [← hg a ha c hc]
    exact sum_congr rfl fun b hb => by rw [h1 b (mem_range.1 hb) c hc]
  -- the components along the edges
  obtain ⟨V, hV⟩ : ∃ V : Nat → Nat → ℝ, ∀ i c, V i c = ∑ a ∈ range 3, A a c * U i a := ⟨_, fun _ _ => rfl⟩
  have hsym : ∀ r s t : ℝ, (r = a ∨ r = b) → (s = a ∨ s = b) → (t = a ∨ t = b) → ∀ c < 3, ∀ d < 3,
      ∑ i ∈ range 8, V i c * slope r s t i d + ∑ i ∈ range 8, V i d * slope r s t i c = 0 := by
    intro r s t hr hs ht c hc d hd
    obtain ⟨w, hw⟩ := hG r s t hr hs ht
    obtain ⟨p, hm, hpc⟩ := rule_point h hp hw
    obtain ⟨_, hg⟩ := hjac p hm r s t hpc
    have hanti := strains_zero 3 (by norm_num) (by norm_num) _ _ (h0 p hm)
    obtain ⟨g, hgd⟩ : ∃ g, g = displacementGradient 3 (gradients x.2 p.2) (restrict 3 x.2 R) := ⟨_, rfl⟩
    rw [← hgd] at hanti hg
    have hVg : ∀ c < 3, ∀ d < 3, ∑ i ∈ range 8, V i c * slope r s t i d =
        ∑ a ∈ range 3, ∑ b ∈ range 3, A a c * g a b * A b d := by
      intro c hc d hd
      calc ∑ i ∈ range 8, V i c * slope r s t i d = ∑ a ∈ range 3, A a c * ∑ i ∈ range 8, U i a * slope r s t i d := by
            simp only [hV, sum_mul, mul_sum]
            rw [sum_comm]
            simp only [mul_assoc]
        _ = _ := by
            refine sum_congr rfl fun a ha => ?_
            rw [← hg a (mem_range.1 ha) d hd, mul_sum]
            exact sum_congr rfl fun b _ => by ring
    rw [hVg c hc d hd, hVg d hd c hc, sum_comm (s := range 3) (f := fun a b => A a d * g a b * A b c), ← sum_add_distrib]
    refine sum_eq_zero fun a ha => ?_
    rw [← sum_add_distrib]
    refine sum_eq_zero fun b hb => ?_
    rw [hanti a (mem_range.1 ha) b (mem_range.1 hb)]
    ring
  obtain ⟨τ, M, hM, hVM⟩ := brick_reference hab V hsym
  -- back to the components along the axes
  obtain ⟨B, hAB, hBA⟩ : ∃ B : Nat → Nat → ℝ, (∀ a < 3, ∀ b < 3, ∑ j ∈ range 3, A a j * B j b = if a = b then 1 else 0) ∧
      ∀ a < 3, ∀ b < 3, ∑ j ∈ range 3, B a j * A j b = if a = b then 1 else 0 := by
    obtain ⟨w, hw⟩ := hG a a a (Or.inl rfl) (Or.inl rfl) (Or.inl rfl)
    obtain ⟨p, hm, hpc⟩ := rule_point h hp hw
    obtain ⟨hj, _⟩ := hjac p hm a a a hpc
    obtain ⟨j1, j2, j3⟩ := h.point hp p hm
    have hsq := (Jacobian.C40_square j3 (by rw [j1, j2])).2 (hdet p hm)
    have hdelta : ∀ A B : Nat → Nat → ℝ, Jacobian.toMat p.2.jacobian.rows p.2.jacobian.rows A *
        Jacobian.toMat p.2.jacobian.rows p.2.jacobian.rows B = 1 → ∀ a < 3, ∀ b < 3,
        ∑ j ∈ range 3, A a j * B j b = if a = b then 1 else 0 := by
      intro A B hAB a ha b hb
      rw [j1] at hAB
      have := congrFun (congrFun hAB ⟨a, ha⟩) ⟨b, hb⟩
      rw [Matrix.mul_apply, Matrix.one_apply] at this
      rw [← Fin.sum_univ_eq_sum_range (fun j => A a j * B j b)]
      rw [show (∑ j : Fin 3, A a j * B j b) = _ from this]
      simp [Fin.ext_iff]
    refine ⟨p.2.jacobian.inv, fun a ha b hb => ?_, fun a ha b hb => ?_⟩
    · rw [← hdelta _ _ hsq.1 a ha b hb]
      exact sum_congr rfl fun j hjr => by rw [hj a ha j (mem_range.1 hjr)]
    · rw [← hdelta _ _ hsq.2 a ha b hb]
      exact sum_congr rfl fun j hjr => by rw [hj j (mem_range.1 hjr) b hb]
  have hback : ∀ i, ∀ a < 3, U i a = ∑ c ∈ range 3, B c a * V i c := by
    intro i a ha
    calc U i a = ∑ a' ∈ range 3, U i a' * (if a' = a then 1 else 0) := by simp [ha]
      _ = ∑ a' ∈ range 3, ∑ c ∈ range 3, U i a' * (A a' c * B c a) := by
          refine sum_congr rfl fun a' ha' => ?_
          rw [← hAB a' (mem_range.1 ha') a ha, mul_sum]
      _ = _ := by
          rw [sum_comm]
          refine sum_congr rfl fun c _ => ?_
          rw [hV, mul_sum]
          exact sum_congr rfl fun a' _ => by ring
  have hcorner : ∀ i < 8, ∀ d < 3, corner i d = ∑ e ∈ range 3, B d e * (component x.1.coordElement i e - C e) := by
    intro i hi d hd
    calc corner i d = ∑ c ∈ range 3, (if d = c then 1 else 0) * corner i c := by simp [hd]
      _ = ∑ c ∈ range 3, ∑ e ∈ range 3, B d e * A e c * corner i c := by
          refine sum_congr rfl fun c hc => ?_
          rw [← hBA d hd c (mem_range.1 hc), sum_mul]
      _ = _ := by
          rw [sum_comm]
          refine sum_congr rfl fun e he => ?_
          rw [hA i hi e (mem_range.1 he), add_sub_cancel_left, mul_sum]
          exact sum_congr rfl fun c _ => by ring
  obtain ⟨W, hW⟩ : ∃ W : Nat → Nat → ℝ, ∀ a e, W a e = ∑ c ∈ range 3, ∑ d ∈ range 3, B c a * M c d * B d e :=
    ⟨_, fun _ _ => rfl⟩
  refine ⟨fun a => ∑ c ∈ range 3, B c a * τ c - ∑ e ∈ range 3, W a e * C e, W, ?_, ?_⟩
  · intro a e
    rw [hW, hW, sum_comm, ← sum_neg_distrib]
    refine sum_congr rfl fun c _ => ?_
    rw [← sum_neg_distrib]
    refine sum_congr rfl fun d _ => ?_
    rw [hM d c]
    ring
  · intro i hi a ha
    have hi8 : i < 8 := by rw [h.dof.count, hn8] at hi; exact hi
    have hWX : ∑ e ∈ range 3, W a e * (component x.1.coordElement i e - C e) =
        ∑ c ∈ range 3, B c a * ∑ d ∈ range 3, M c d * corner i d := by
      calc _ = ∑ e ∈ range 3, ∑ c ∈ range 3, ∑ d ∈ range 3, B c a * M c d * B d e *
            (component x.1.coordElement i e - C e) := by simp only [hW, sum_mul]
        _ = ∑ c ∈ range 3, ∑ d ∈ range 3, ∑ e ∈ range 3, B c a * M c d * B d e *
            (component x.1.coordElement i e - C e) := by
            rw [sum_comm]
            exact sum_congr rfl fun c _ => sum_comm
        _ = _ := by
            refine sum_congr rfl fun c _ => ?_
            rw [mul_sum]
            refine sum_congr rfl fun d hd => ?_
            rw [hcorner i hi8 d (mem_range.1 hd)]
            simp only [mul_sum]
            exact sum_congr rfl fun e _ => by ring
    rw [hU, hback i a ha, sum_congr rfl fun c hc => by rw [hVM i hi8 c (mem_range.1 hc)]]
    simp only [mul_add, sum_add_distrib]
    rw [← hWX]
    simp only [mul_sub, sum_sub_distrib]
    ring

/-- C95: the same for both kinds of elements in space. -/
theorem C95_space_rigid {n : Nat} {x : Cell × FemElement ℝ} (h : Body 3 n x)
    (hiso : x.2.interp = x.1.coordElement.interp) (hI : SpaceElement x)
    (hdet : ∀ pts, x.1.Points pts → ∀ p ∈ pts, p.2.jacobian.det ≠ 0) (R : Nat → ℝ)
    (h0 : ∀ pts, x.1.Points pts → ∀ p ∈ pts, ∀ y ∈ strains 3 (gradients x.2 p.2) (restrict 3 x.2 R), y = 0) :
    ∃ (t : Nat → ℝ) (W : Nat → Nat → ℝ), (∀ a b, W a b = -W b a) ∧ RigidNodes 3 x t W R := by
  obtain ⟨pts, hp⟩ := C77_points h
  rcases hI with ⟨hI, hne⟩ | ⟨hI, hbox, hG⟩
  · have hl := hp.length_eq
    rw [List.length_zipIdx] at hl
    obtain ⟨p, hm⟩ : ∃ p, p ∈ pts := List.exists_mem_of_length_pos (by rw [← hl]; exact List.length_pos_iff.2 hne)
    obtain ⟨t, W, hW, hR⟩ := C95_simplex_rigid h hiso hI hp p hm (hdet pts hp p hm) R (h0 pts hp p hm)
    refine ⟨t, W, hW, fun i hi => hR i ?_⟩
    rw [h.dof.count, hI.1] at hi
    omega
  · exact C95_brick_rigid h hiso hI hbox hG hp (hdet pts hp) R (h0 pts hp)

/-- A rotation that leaves two vectors in place vanishes if they are not parallel. -/
theorem axis_zero {d0 d1 d2 a0 a1 a2 b0 b1 b2 : ℝ} (h1 : d1 * a2 = d2 * a1) (h2 : d2 * a0 = d0 * a2)
    (h3 : d0 * a1 = d1 * a0) (h4 : d1 * b2 = d2 * b1) (h5 : d2 * b0 = d0 * b2) (h6 : d0 * b1 = d1 * b0)
    (hne : a1 * b2 - a2 * b1 ≠ 0 ∨ a2 * b0 - a0 * b2 ≠ 0 ∨ a0 * b1 - a1 * b0 ≠ 0) : d0 = 0 ∧ d1 = 0 ∧ d2 = 0 := by
  rcases hne with hne | hne | hne
  · refine ⟨?_, ?_, ?_⟩ <;> refine (mul_eq_zero.1 ?_).resolve_right hne
    · linear_combination b2 * h3 + b1 * h2 + a0 * h4
    · linear_combination a1 * h4 - b1 * h1
    · linear_combination a2 * h4 - b2 * h1
  · refine ⟨?_, ?_, ?_⟩ <;> refine (mul_eq_zero.1 ?_).resolve_right hne
    · linear_combination a0 * h5 - b0 * h2
    · linear_combination b0 * h1 + b2 * h3 + a1 * h5
    · linear_combination a2 * h5 - b2 * h2
  · refine ⟨?_, ?_, ?_⟩ <;> refine (mul_eq_zero.1 ?_).resolve_right hne
    · linear_combination a0 * h6 - b0 * h3
    · linear_combination a1 * h6 - b1 * h3
    · linear_combination b0 * h1 + b1 * h2 + a2 * h6

/-- Two rigid motions of space that agree on three points that are not on a line agree everywhere. -/
theorem space_extend {x y : Cell × FemElement ℝ} (R : Nat → ℝ) (he : SharesFace x y) (t : Nat → ℝ) (W : Nat → Nat → ℝ)
    (hW : ∀ a b, W a b = -W b a) (hx : RigidNodes 3 x t W R) (t' : Nat → ℝ) (W' : Nat → Nat → ℝ)
    (hW' : ∀ a b, W' a b = -W' b a) (hy : RigidNodes 3 y t' W' R) : RigidNodes 3 y t W R := by
  obtain ⟨i, i', i'', j, j', j'', s1, s2, s3, k, hk, hne⟩ := he
  obtain ⟨P, hP⟩ : ∃ P, component y.1.coordElement = P := ⟨_, rfl⟩
  have hagree : ∀ i j, SameNode x y i j → ∀ a < 3, t a + ∑ c ∈ range 3, W a c * P j c =
      t' a + ∑ c ∈ range 3, W' a c * P j c := by
    rintro i j ⟨hi, hj, hs⟩ a ha
    have e1 := hx i hi a ha
    rw [(hs a ha).1, sum_congr rfl fun c hc => by rw [(hs c (mem_range.1 hc)).2], hP] at e1
    have e2 := hy j hj a ha
    rw [hP] at e2
    rw [← e1, e2]
  have z : ∀ a, W a a = 0 := fun a => by linarith [hW a a]
  have z' : ∀ a, W' a a = 0 := fun a => by linarith [hW' a a]
  have w10 := hW 1 0
  have w20 := hW 2 0
  have w21 := hW 2 1
  have w10' := hW' 1 0
  have w20' := hW' 2 0
  have w21' := hW' 2 1
  have f := fun i j h => And.intro (hagree i j h 0 (by norm_num)) (And.intro (hagree i j h 1 (by norm_num))
    (hagree i j h 2 (by norm_num)))
  simp only [sum_range_succ, sum_range_zero, zero_add, z, z', w10, w20, w21, w10', w20', w21'] at f
  obtain ⟨p0, p1, p2⟩ := f i j s1
  obtain ⟨q0, q1, q2⟩ := f i' j' s2
  obtain ⟨r0, r1, r2⟩ := f i'' j'' s3
  have hne' : (P j' 1 - P j 1) * (P j'' 2 - P j 2) - (P j' 2 - P j 2) * (P j'' 1 - P j 1) ≠ 0 ∨
      (P j' 2 - P j 2) * (P j'' 0 - P j 0) - (P j' 0 - P j 0) * (P j'' 2 - P j 2) ≠ 0 ∨
      (P j' 0 - P j 0) * (P j'' 1 - P j 1) - (P j' 1 - P j 1) * (P j'' 0 - P j 0) ≠ 0 := by
    simp only [normal, hP] at hne
    interval_cases k
    · exact Or.inl hne
    · exact Or.inr (Or.inl hne)
    · exact Or.inr (Or.inr hne)
  obtain ⟨d0, d1, d2⟩ := axis_zero (d0 := -(W 1 2 - W' 1 2)) (d1 := W 0 2 - W' 0 2) (d2 := -(W 0 1 - W' 0 1))
    (by linarith) (by linarith) (by linarith) (by linarith) (by linarith) (by linarith) hne'
  have v12 : W 1 2 = W' 1 2 := by linarith
  have v02 : W 0 2 = W' 0 2 := by linarith
  have v01 : W 0 1 = W' 0 1 := by linarith
  have t0 : t 0 = t' 0 := by rw [v01, v02] at p0; linarith
  have t1 : t 1 = t' 1 := by rw [v01, v12] at p1; linarith
  have t2 : t 2 = t' 2 := by rw [v02, v12] at p2; linarith
  intro l hl a ha
  rw [hy l hl a ha]
  interval_cases a <;> simp [sum_range_succ, z, z', w10, w20, w21, w10', w20', w21', v12, v02, v01, t0, t1, t2]

variable {dof n : Nat} {T : List ℝ → IpData → DMat ℝ} {cells : List (Cell × FemElement ℝ)} {m : SpMat ℝ}

/-- C95: on an face-connected mesh of linear tetrahedra and parallelepipeds a vector without strains is one rigid
motion of the whole mesh. -/
theorem C95_space_unstrained (hb : ∀ x ∈ cells, Body 3 n x) (hiso : ∀ x ∈ cells, x.2.interp = x.1.coordElement.interp)
    (hI : ∀ x ∈ cells, SpaceElement x)
    (hdet : ∀ x ∈ cells, ∀ pts, x.1.Points pts → ∀ p ∈ pts, p.2.jacobian.det ≠ 0) (x₀ : Cell × FemElement ℝ)
    (hc : SpaceConnected cells x₀) (R : Nat → ℝ) (h0 : Unstrained 3 cells R) :
    ∃ (t : Nat → ℝ) (W : Nat → Nat → ℝ), (∀ a b, W a b = -W b a) ∧ ∀ x ∈ cells, RigidNodes 3 x t W R := by
  have hown : ∀ x ∈ cells, ∃ (t : Nat → ℝ) (W : Nat → Nat → ℝ), (∀ a b, W a b = -W b a) ∧ RigidNodes 3 x t W R :=
    fun x hx => C95_space_rigid (hb x hx) (hiso x hx) (hI x hx) (hdet x hx) R (h0 x hx)
  obtain ⟨t, W, hW, h1⟩ := hown x₀ hc.1
  refine ⟨t, W, hW, fun y hy => ?_⟩
  have := hc.2 y hy
  induction this with
  | refl => exact h1
  | @tail y z hyz hz ih =>
    by_cases hym : y ∈ cells
    · obtain ⟨t', W', hW', h2⟩ := hown z hy
      exact space_extend R hz.2 t W hW (ih hym) t' W' hW' h2
    · exfalso
      rcases Relation.ReflTransGen.cases_tail hyz with h | ⟨w, _, hw⟩
      · exact hym (h ▸ hc.1)
      · exact hym hw.1

/-- C95 (kernel in space): on an face-connected mesh of linear tetrahedra and parallelepipeds with definite
tangents the stiffness matrix maps exactly the rigid motions to zero. -/
theorem C95_space_kernel (k : Stiff dof 3 n T cells m) (hpd : Definite 3 T)
    (hw : ∀ x ∈ cells, ∀ pts, x.1.Points pts → ∀ p ∈ pts, 0 < p.2.jacobian.det * p.1)
    (hiso : ∀ x ∈ cells, x.2.interp = x.1.coordElement.interp) (hI : ∀ x ∈ cells, SpaceElement x)
    (x₀ : Cell × FemElement ℝ) (hc : SpaceConnected cells x₀) (R : Nat → ℝ) :
    (∀ i < n, ∑ j ∈ range n, m.entry i j * R j = 0) ↔
      ∃ (t : Nat → ℝ) (W : Nat → Nat → ℝ), (∀ a b, W a b = -W b a) ∧ ∀ x ∈ cells, RigidNodes 3 x t W R := by
  have hdet : ∀ x ∈ cells, ∀ pts, x.1.Points pts → ∀ p ∈ pts, p.2.jacobian.det ≠ 0 := by
    intro x hx pts hp p hm h0
    have := hw x hx pts hp p hm
    rw [h0, zero_mul] at this
    exact lt_irrefl _ this
  constructor
  · intro h
    refine C95_space_unstrained k.body hiso hI hdet x₀ hc R ((C95_energy_zero k hpd hw R).1 ?_)
    refine sum_eq_zero fun i hi => ?_
    have : ∑ j ∈ range n, R i * m.entry i j * R j = R i * ∑ j ∈ range n, m.entry i j * R j := by
      rw [mul_sum]
      exact sum_congr rfl fun j _ => by ring
    rw [this, h i (mem_range.1 hi), mul_zero]
  · rintro ⟨t, W, hW, h⟩ i hi
    exact C95_rigid k hiso hdet t W hW R (fun x hx j hj a ha => h x hx j hj a ha) i hi

/-- If the vectors without strains are rigid motions and the supports exclude these, the equations have exactly one solution, for all prescribed values and all loads. -/
theorem solvable_of_rigid {dim : Nat} (k : Stiff dof dim n T cells m) (hpd : Definite dim T)
    (hw : ∀ x ∈ cells, ∀ pts, x.1.Points pts → ∀ p ∈ pts, 0 < p.2.jacobian.det * p.1)
    (hrig : ∀ R : Nat → ℝ, Unstrained dim cells R → ∃ (t : Nat → ℝ) (W : Nat → Nat → ℝ), (∀ a b, W a b = -W b a) ∧
      ∀ x ∈ cells, RigidNodes dim x t W R)
    (hall : ∀ g < n, ∃ x ∈ cells, ∃ i < x.2.nodes.length, ∃ a < dim, number x.2 i a = g) (prescribed : Nat → Prop)
    (hsup : NodesSupported dim cells prescribed) (value load : Nat → ℝ) :
    ∃! U : Fin n → ℝ, ∀ i : Fin n, (prescribed i → U i = value i) ∧
      (¬ prescribed i → ∑ j : Fin n, m.entry i j * U j = load i) := by
  classical
  have hlift : ∀ (U : Fin n → ℝ) (i : Nat), ∑ j ∈ range n, m.entry i j * (if h : j < n then U ⟨j, h⟩ else 0) =
      ∑ j : Fin n, m.entry i j * U j := by
    intro U i
    rw [← Fin.sum_univ_eq_sum_range (fun j => m.entry i j * (if h : j < n then U ⟨j, h⟩ else 0))]
    exact sum_congr rfl fun j _ => by rw [dif_pos j.2]
  obtain ⟨L, hL⟩ : ∃ L : (Fin n → ℝ) →ₗ[ℝ] (Fin n → ℝ), ∀ U i, L U i =
      if prescribed i then U i else ∑ j : Fin n, m.entry i j * U j :=
    ⟨{ toFun := fun U i => if prescribed i then U i else ∑ j : Fin n, m.entry i j * U j
       map_add' := by
        intro U V
        ext i
        by_cases h : prescribed i <;> simp [h, mul_add, sum_add_distrib]
       map_smul' := by
        intro c U
        ext i
        by_cases h : prescribed i
        · simp [h]
        · simp only [if_neg h, Pi.smul_apply, smul_eq_mul, RingHom.id_apply, mul_sum]
          exact sum_congr rfl fun j _ => by ring }, fun _ _ => rfl⟩
  have hinj : Function.Injective L := by
    rw [injective_iff_map_eq_zero]
    intro U hU
    have hU' : ∀ i : Fin n, (if prescribed i then U i else ∑ j : Fin n, m.entry i j * U j) = 0 := fun i => by
      rw [← hL, hU]
      rfl
    have h1 := C95_unique k hpd hw prescribed (fun j => if h : j < n then U ⟨j, h⟩ else 0) (fun _ => 0)
      (by
        intro i hi hpi
        have := hU' ⟨i, hi⟩
        rw [if_pos hpi] at this
        rw [dif_pos hi, this])
      (by
        intro i hi hpi
        have := hU' ⟨i, hi⟩
        rw [if_neg hpi] at this
        rw [hlift, this]
        simp)
    simp only [sub_zero] at h1
    obtain ⟨t, W, hW, hR⟩ := hrig _ h1
    have hnum : ∀ x ∈ cells, ∀ i < x.2.nodes.length, ∀ a < dim, number x.2 i a < n := by
      intro x hx i hi a ha
      have hb := k.body x hx
      rw [number, List.getD_eq_getElem _ _ hi]
      have hw := (hb.dof.wf _ (List.getElem_mem hi)).2
      rw [List.getD_eq_getElem _ _ (by rw [hw]; exact ha)]
      have := hb.numbered _ (List.getElem_mem hi) _ (List.getElem_mem (by rw [hw]; exact ha))
      omega
    have hz := hsup t W hW (by
      intro x hx i hi a ha hpi
      rw [← hR x hx i hi a ha]
      dsimp only
      have := hU' ⟨_, hnum x hx i hi a ha⟩
      rw [if_pos hpi] at this
      rw [dif_pos (hnum x hx i hi a ha), this])
    ext g
    obtain ⟨x, hx, i, hi, a, ha, hg⟩ := hall g g.2
    have := hR x hx i hi a ha
    dsimp only at this
    rw [hz x hx i hi a ha, hg, dif_pos g.2] at this
    exact this
  obtain ⟨U, hU⟩ := LinearMap.injective_iff_surjective.1 hinj fun i => if prescribed i then value i else load i
  have hiff : ∀ V : Fin n → ℝ, (L V = fun i : Fin n => if prescribed i then value i else load i) ↔
      ∀ i : Fin n, (prescribed i → V i = value i) ∧ (¬ prescribed i → ∑ j : Fin n, m.entry i j * V j = load i) := by
    intro V
    rw [funext_iff]
    refine forall_congr' fun i => ?_
    rw [hL]
    by_cases h : prescribed i <;> simp [h]
  refine ⟨U, (hiff U).1 hU, fun V hV => hinj ?_⟩
  rw [(hiff V).2 hV, hU]

/-- C95 (solvable in space): on a face-connected mesh of linear tetrahedra and parallelepipeds with definite tangents and
supports that exclude rigid motions the equations have exactly one solution, for all prescribed values and all loads. -/
theorem C95_space_solvable (k : Stiff dof 3 n T cells m) (hpd : Definite 3 T)
    (hw : ∀ x ∈ cells, ∀ pts, x.1.Points pts → ∀ p ∈ pts, 0 < p.2.jacobian.det * p.1)
    (hiso : ∀ x ∈ cells, x.2.interp = x.1.coordElement.interp) (hI : ∀ x ∈ cells, SpaceElement x)
    (x₀ : Cell × FemElement ℝ) (hc : SpaceConnected cells x₀)
    (hall : ∀ g < n, ∃ x ∈ cells, ∃ i < x.2.nodes.length, ∃ a < 3, number x.2 i a = g) (prescribed : Nat → Prop)
    (hsup : NodesSupported 3 cells prescribed) (value load : Nat → ℝ) :
    ∃! U : Fin n → ℝ, ∀ i : Fin n, (prescribed i → U i = value i) ∧
      (¬ prescribed i → ∑ j : Fin n, m.entry i j * U j = load i) := by
  refine solvable_of_rigid k hpd hw (fun R h => ?_) hall prescribed hsup value load
  refine C95_space_unstrained k.body hiso hI (fun x hx pts hp p hm h0 => ?_) x₀ hc R h
  have := hw x hx pts hp p hm
  rw [h0, zero_mul] at this
  exact lt_irrefl _ this

/-- C101: on a face-connected mesh of linear tetrahedra and parallelepipeds the constraints leave no motion without strains
if they leave no rigid motion. -/
theorem C101_space_held {c : Constraints ℝ} {num : Term ℝ → Nat} (hb : ∀ x ∈ cells, Body 3 n x)
    (hw : ∀ x ∈ cells, ∀ pts, x.1.Points pts → ∀ p ∈ pts, 0 < p.2.jacobian.det * p.1)
    (hiso : ∀ x ∈ cells, x.2.interp = x.1.coordElement.interp) (hI : ∀ x ∈ cells, SpaceElement x)
    (x₀ : Cell × FemElement ℝ) (hc : SpaceConnected cells x₀)
    (hrigid : ∀ w : List ℝ, w.length = n → (∃ (t : Nat → ℝ) (W : Nat → Nat → ℝ), (∀ a b, W a b = -W b a) ∧
      ∀ x ∈ cells, RigidNodes 3 x t W fun i => w.getD i 0) →
      Statics.Satisfies c dof num (fun _ => 0) w → ∀ i < n, w.getD i 0 = 0) :
    Statics.Held 3 dof n cells c num := by
  intro w hwl hs hu
  refine hrigid w hwl (C95_space_unstrained hb hiso hI (fun x hx pts hp p hm h0 => ?_) x₀ hc _ hu) hs
  have := hw x hx pts hp p hm
  rw [h0, zero_mul] at this
  exact lt_irrefl _ this

/-! ### Examples -/

/-- A sheared brick with eight integration points. -/
noncomputable def exampleBrick : Cell × FemElement ℝ :=
  (⟨0, ⟨nodesAt [[0, 0, 0], [2, 0, 0], [3, 2, 0], [1, 2, 0], [0, 0, 2], [2, 0, 2], [3, 2, 2], [1, 2, 2]],
    Interpolation.brickLinear⟩, Quadrature.tensor 3 2 [1, 1] [-1 / 2, 1 / 2]⟩,
   ⟨[⟨[[0, 0, 0]], [0, 1, 2]⟩, ⟨[[0, 0, 0]], [3, 4, 5]⟩, ⟨[[0, 0, 0]], [6, 7, 8]⟩, ⟨[[0, 0, 0]], [9, 10, 11]⟩,
     ⟨[[0, 0, 0]], [12, 13, 14]⟩, ⟨[[0, 0, 0]], [15, 16, 17]⟩, ⟨[[0, 0, 0]], [18, 19, 20]⟩, ⟨[[0, 0, 0]], [21, 22, 23]⟩],
     Interpolation.brickLinear⟩)

/-- A tetrahedron on the upper face of the brick. -/
noncomputable def exampleOnTop : Cell × FemElement ℝ :=
  (⟨1, ⟨nodesAt [[0, 0, 2], [2, 0, 2], [1, 2, 2], [0, 0, 3]], Interpolation.tetrahedronLinear⟩,
    [(1 / 6, [1 / 4, 1 / 4, 1 / 4])]⟩,
   ⟨[⟨[[0, 0, 0]], [12, 13, 14]⟩, ⟨[[0, 0, 0]], [15, 16, 17]⟩, ⟨[[0, 0, 0]], [21, 22, 23]⟩, ⟨[[0, 0, 0]], [24, 25, 26]⟩],
     Interpolation.tetrahedronLinear⟩)

theorem exampleSpace_body : ∀ x ∈ [exampleBrick, exampleOnTop], Body 3 27 x := by
  intro x hx
  simp only [List.mem_cons, List.not_mem_nil, or_false] at hx
  rcases hx with rfl | rfl
  · exact {
      dim1 := by norm_num
      dim3 := by norm_num
      dof := ⟨by simp [exampleBrick], rfl, by simp [exampleBrick, Node.WF]⟩
      coord := ⟨by simp [exampleBrick, nodesAt], rfl, by simp [exampleBrick, nodesAt, Node.ofVector, Node.WF]⟩
      dofDim := rfl
      coordDim := rfl
      dofUnity := C77_types _ (by simp [exactTypes, exampleBrick])
      coordUnity := C77_types _ (by simp [exactTypes, exampleBrick])
      numbered := by simp [exampleBrick, Numbered] }
  · exact {
      dim1 := by norm_num
      dim3 := by norm_num
      dof := ⟨by simp [exampleOnTop], rfl, by simp [exampleOnTop, Node.WF]⟩
      coord := ⟨by simp [exampleOnTop, nodesAt], rfl, by simp [exampleOnTop, nodesAt, Node.ofVector, Node.WF]⟩
      dofDim := rfl
      coordDim := rfl
      dofUnity := C77_types _ (by simp [exactTypes, exampleOnTop])
      coordUnity := C77_types _ (by simp [exactTypes, exampleOnTop])
      numbered := by simp [exampleOnTop, Numbered] }

theorem exampleBrick_box : Parallelepiped exampleBrick.1.coordElement := by
  refine ⟨fun b => [3 / 2, 1, 1].getD b 0, fun b c => ([[1, 1 / 2, 0], [0, 1, 0], [0, 0, 1]].getD b []).getD c 0,
    fun i hi b hb => ?_⟩
  interval_cases i <;> interval_cases b <;>
    simp [exampleBrick, component, nodesAt, Node.ofVector, sum_range_succ, corner] <;> norm_num

theorem exampleSpace_elements : ∀ x ∈ [exampleBrick, exampleOnTop], SpaceElement x := by
  intro x hx
  simp only [List.mem_cons, List.not_mem_nil, or_false] at hx
  rcases hx with rfl | rfl
  · exact Or.inr ⟨rfl, exampleBrick_box, grid3_tensor 2 _ _ 0 1 (by norm_num) (by norm_num) (by norm_num)⟩
  · exact Or.inl ⟨tetrahedronLinear_simplex, by simp [exampleOnTop]⟩

theorem exampleSpace_connected : SpaceConnected [exampleBrick, exampleOnTop] exampleBrick := by
  refine ⟨by simp, fun y hy => ?_⟩
  simp only [List.mem_cons, List.not_mem_nil, or_false] at hy
  rcases hy with rfl | rfl
  · exact Relation.ReflTransGen.refl
  · refine Relation.ReflTransGen.single ⟨by simp, 4, 5, 7, 0, 1, 2, ⟨by simp [exampleBrick], by simp [exampleOnTop], ?_⟩,
      ⟨by simp [exampleBrick], by simp [exampleOnTop], ?_⟩, ⟨by simp [exampleBrick], by simp [exampleOnTop], ?_⟩, 2,
      by norm_num, ?_⟩
    · intro a ha
      interval_cases a <;> simp [exampleBrick, exampleOnTop, number, component, nodesAt, Node.ofVector]
    · intro a ha
      interval_cases a <;> simp [exampleBrick, exampleOnTop, number, component, nodesAt, Node.ofVector]
    · intro a ha
      interval_cases a <;> simp [exampleBrick, exampleOnTop, number, component, nodesAt, Node.ofVector]
    · simp [exampleOnTop, normal, component, nodesAt, Node.ofVector]

/-- The four nodes of the lower face are held, so the prescribed dofs exclude rigid motions. -/
theorem exampleSpace_supported : NodesSupported 3 [exampleBrick, exampleOnTop] fun g => g < 12 := by
  intro t W hW h x hx i hi a ha
  have f := fun (i : Nat) (hi : i < 4) (a : Nat) (ha : a < 3) =>
    h exampleBrick (by simp) i (by simp [exampleBrick]; omega) a ha (by
      interval_cases i <;> interval_cases a <;> simp [exampleBrick, number])
  have h00 := f 0 (by norm_num) 0 (by norm_num)
  have h01 := f 0 (by norm_num) 1 (by norm_num)
  have h02 := f 0 (by norm_num) 2 (by norm_num)
  have h11 := f 1 (by norm_num) 1 (by norm_num)
  have h12 := f 1 (by norm_num) 2 (by norm_num)
  have h32 := f 3 (by norm_num) 2 (by norm_num)
  simp [exampleBrick, component, nodesAt, Node.ofVector, sum_range_succ] at h00 h01 h02 h11 h12 h32
  have z : ∀ a, W a a = 0 := fun a => by linarith [hW a a]
  have w10 : W 1 0 = 0 := by linarith
  have w20 : W 2 0 = 0 := by linarith
  have w21 : W 2 1 = 0 := by linarith
  have w01 : W 0 1 = 0 := by rw [hW, w10, neg_zero]
  have w02 : W 0 2 = 0 := by rw [hW, w20, neg_zero]
  have w12 : W 1 2 = 0 := by rw [hW, w21, neg_zero]
  interval_cases a <;> simp [sum_range_succ, z, w10, w20, w21, w01, w02, w12, h00, h01, h02]

theorem exampleSpace_weights : ∀ x ∈ [exampleBrick, exampleOnTop], ∀ pts, x.1.Points pts → ∀ p ∈ pts,
    0 < p.2.jacobian.det * p.1 := by
  intro x hx pts hp p hm
  have hb := exampleSpace_body x hx
  obtain ⟨_, _, h⟩ := hb.point hp p hm
  have hr := point_rule hb hp p hm
  simp only [List.mem_cons, List.not_mem_nil, or_false] at hx
  rcases hx with rfl | rfl
  · have hv : values 3 exampleBrick.1.coordElement = [0, 0, 0, 2, 0, 0, 3, 2, 0, 1, 2, 0, 0, 0, 2, 2, 0, 2, 3, 2, 2, 1, 2, 2] := by
      simp [values, exampleBrick, nodesAt, Node.ofVector, component, List.range_succ]
    rw [hv, make_square3 _ _ (by simp [exampleBrick, Interpolation.brickLinear, Interpolation.brickLinearDeriv])
      (by simp [exampleBrick, Interpolation.brickLinear, Interpolation.brickLinearDeriv])] at h
    rw [← Res.ok.inj h]
    have hw : p.1 = 1 := by
      simp [exampleBrick, Quadrature.tensor, Quadrature.tensorStep, List.range_succ] at hr
      rcases hr with hr | hr | hr | hr | hr | hr | hr | hr <;> exact hr.1
    rw [hw]
    generalize (fun k => p.2.coords.getD k 0) = u
    suffices Jacobian.det3 (Jacobian.calculate 3 [0, 0, 0, 2, 0, 0, 3, 2, 0, 1, 2, 0, 0, 0, 2, 2, 0, 2, 3, 2, 2, 1, 2, 2]
        (exampleBrick.1.coordElement.interp.deriv u)) = 1 by rw [this]; norm_num
    have hc : ∀ b < 3, ∀ c < 3, Jacobian.calculate 3 [0, 0, 0, 2, 0, 0, 3, 2, 0, 1, 2, 0, 0, 0, 2, 2, 0, 2, 3, 2, 2, 1, 2, 2]
        (exampleBrick.1.coordElement.interp.deriv u) b c =
        ([[1, 1 / 2, 0], [0, 1, 0], [0, 0, 1]].getD b [] : List ℝ).getD c 0 := by
      intro b hb c hc
      interval_cases b <;> interval_cases c <;>
        simp [exampleBrick, Interpolation.brickLinear, Interpolation.brickLinearDeriv, Jacobian.calculate,
          List.range_succ] <;> ring
    simp [Jacobian.det3, Jacobian.brute3, hc]
  · have hv : values 3 exampleOnTop.1.coordElement = [0, 0, 2, 2, 0, 2, 1, 2, 2, 0, 0, 3] := by
      simp [values, exampleOnTop, nodesAt, Node.ofVector, component, List.range_succ]
    rw [hv, make_square3 _ _ (by simp [exampleOnTop, Interpolation.tetrahedronLinear, Interpolation.tetrahedronLinearDeriv])
      (by simp [exampleOnTop, Interpolation.tetrahedronLinear, Interpolation.tetrahedronLinearDeriv])] at h
    rw [← Res.ok.inj h]
    simp [exampleOnTop] at hr
    rw [hr.1]
    simp [exampleOnTop, Interpolation.tetrahedronLinear, Interpolation.tetrahedronLinearDeriv, Jacobian.det3, Jacobian.brute3,
      Jacobian.calculate, List.range_succ]
    norm_num

/-- The brick and the tetrahedron meet the hypotheses of `C95_space_kernel` and `C95_space_solvable`. -/
example : ∃ m, Stiff 0 3 27 (fun _ _ => elasticTangent 3 1 0 .planeStress) [exampleBrick, exampleOnTop] m ∧
    Definite 3 (fun _ _ => elasticTangent 3 1 0 .planeStress) ∧
    (∀ x ∈ [exampleBrick, exampleOnTop], ∀ pts, x.1.Points pts → ∀ p ∈ pts, 0 < p.2.jacobian.det * p.1) ∧
    (∀ x ∈ [exampleBrick, exampleOnTop], x.2.interp = x.1.coordElement.interp) ∧
    (∀ x ∈ [exampleBrick, exampleOnTop], SpaceElement x) ∧
    SpaceConnected [exampleBrick, exampleOnTop] exampleBrick ∧
    (∀ g < 27, ∃ x ∈ [exampleBrick, exampleOnTop], ∃ i < x.2.nodes.length, ∃ a < 3, number x.2 i a = g) ∧
    NodesSupported 3 [exampleBrick, exampleOnTop] fun g => g < 12 := by
  have hel := C95_elastic 3 (by norm_num) (by norm_num) 1 0 .planeStress (by norm_num) (by norm_num) (by norm_num)
  obtain ⟨_, m, _, _, _, _, h⟩ := C95_exists ⟨[(0, 27)], [(0, 0)]⟩ 0 3 27 (fun _ _ => elasticTangent 3 1 0 .planeStress)
    (fun e d he => by rw [he]; exact hel.1) [exampleBrick, exampleOnTop] [[exampleBrick, exampleOnTop]] (by simp)
    rfl exampleSpace_body
  refine ⟨m, h, hel.2.2.1, exampleSpace_weights, ?_, exampleSpace_elements, exampleSpace_connected, ?_,
    exampleSpace_supported⟩
  · intro x hx
    simp only [List.mem_cons, List.not_mem_nil, or_false] at hx
    rcases hx with rfl | rfl <;> rfl
  · intro g hg
    by_cases h24 : g < 24
    · refine ⟨exampleBrick, by simp, g / 3, by simp [exampleBrick]; omega, g % 3, by omega, ?_⟩
      interval_cases g <;> simp [exampleBrick, number]
    · refine ⟨exampleOnTop, by simp, 3, by simp [exampleOnTop], g - 24, by omega, ?_⟩
      interval_cases g <;> simp [exampleOnTop, number]

end Balance

end NuTo
