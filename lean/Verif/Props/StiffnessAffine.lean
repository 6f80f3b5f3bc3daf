/-
C95, continued: the kernel of the stiffness matrix for quadratic triangles and tetrahedra with straight edges.
-/
import Verif.Props.StiffnessBrick

namespace NuTo

open Assembly Finset

namespace Balance

/-! ### Specification -/

/-- The nodes of the element are the image of the nodes `σ` of the reference element under an affine map. -/
def Straight (dim : Nat) (e : FemElement ℝ) : Prop :=
  ∃ (C : Nat → ℝ) (A : Nat → Nat → ℝ), ∀ i < e.nodes.length, ∀ b < dim,
    component e i b = C b + ∑ c ∈ range dim, A b c * ((e.interp.coords.getD i []).getD c 0)

/-- The rule has three points that are not on a line. -/
def Spread2 (rule : List (ℝ × List ℝ)) : Prop :=
  ∃ w₀ w₁ w₂ r₀ s₀ r₁ s₁ r₂ s₂ : ℝ, (w₀, [r₀, s₀]) ∈ rule ∧ (w₁, [r₁, s₁]) ∈ rule ∧ (w₂, [r₂, s₂]) ∈ rule ∧
    (r₁ - r₀) * (s₂ - s₀) - (r₂ - r₀) * (s₁ - s₀) ≠ 0

/-- The rule has four points that are not on a plane. -/
def Spread3 (rule : List (ℝ × List ℝ)) : Prop :=
  ∃ w₀ w₁ w₂ w₃ r₀ s₀ t₀ r₁ s₁ t₁ r₂ s₂ t₂ r₃ s₃ t₃ : ℝ, (w₀, [r₀, s₀, t₀]) ∈ rule ∧ (w₁, [r₁, s₁, t₁]) ∈ rule ∧
    (w₂, [r₂, s₂, t₂]) ∈ rule ∧ (w₃, [r₃, s₃, t₃]) ∈ rule ∧
    (r₁ - r₀) * ((s₂ - s₀) * (t₃ - t₀) - (s₃ - s₀) * (t₂ - t₀)) -
      (r₂ - r₀) * ((s₁ - s₀) * (t₃ - t₀) - (s₃ - s₀) * (t₁ - t₀)) +
      (r₃ - r₀) * ((s₁ - s₀) * (t₂ - t₀) - (s₂ - s₀) * (t₁ - t₀)) ≠ 0

/-- An element of `C95_plane_kernel`, or a quadratic triangle with straight edges and three points that are not on a line. -/
def PlaneElement2 (x : Cell × FemElement ℝ) : Prop :=
  PlaneElement x ∨
    (x.2.interp = Interpolation.triangleQuadratic ∧ Straight 2 x.1.coordElement ∧ Spread2 x.1.rule)

/-- An element of `C95_space_kernel`, or a quadratic tetrahedron with straight edges and four points that are not on a
plane. -/
def SpaceElement2 (x : Cell × FemElement ℝ) : Prop :=
  SpaceElement x ∨
    (x.2.interp = Interpolation.tetrahedronQuadratic ∧ Straight 3 x.1.coordElement ∧ Spread3 x.1.rule)

/-! ### Affine elements -/

/-- The derivative of shape function `i` of an interpolation in direction `c`. -/
def slopeOf (I : Interpolation ℝ) (xi : List ℝ) (i c : Nat) : ℝ := ((I.deriv fun k => xi.getD k 0).getD i []).getD c 0

/-- The node of the reference element. -/
def refNode (I : Interpolation ℝ) (i c : Nat) : ℝ := (I.coords.getD i []).getD c 0

/-- On an affine element it is enough to look at the reference element. -/
theorem affine_rigid {dim n : Nat} {x : Cell × FemElement ℝ} (h : Body dim n x)
    (hiso : x.2.interp = x.1.coordElement.interp) (hbox : Straight dim x.1.coordElement) {pts : List (ℝ × IpData)}
    (hp : x.1.Points pts) (hne : pts ≠ []) (hdet : ∀ p ∈ pts, p.2.jacobian.det ≠ 0)
    (hone : ∀ xi, ∀ c < dim, ∑ i ∈ range x.2.interp.numNodes, slopeOf x.2.interp xi i c = 0)
    (hlin : ∀ xi, ∀ c < dim, ∀ d < dim, ∑ i ∈ range x.2.interp.numNodes, refNode x.2.interp i c * slopeOf x.2.interp xi i d =
      if c = d then 1 else 0)
    (href : ∀ V : Nat → Nat → ℝ, (∀ p ∈ pts, ∀ c < dim, ∀ d < dim,
        ∑ i ∈ range x.2.interp.numNodes, V i c * slopeOf x.2.interp p.2.coords i d +
          ∑ i ∈ range x.2.interp.numNodes, V i d * slopeOf x.2.interp p.2.coords i c = 0) →
      ∃ (τ : Nat → ℝ) (M : Nat → Nat → ℝ), (∀ c d, M c d = -M d c) ∧ ∀ i < x.2.interp.numNodes, ∀ c < dim,
        V i c = τ c + ∑ d ∈ range dim, M c d * refNode x.2.interp i d)
    (R : Nat → ℝ) (h0 : ∀ p ∈ pts, ∀ y ∈ strains dim (gradients x.2 p.2) (restrict dim x.2 R), y = 0) :
    ∃ (t : Nat → ℝ) (W : Nat → Nat → ℝ), (∀ a b, W a b = -W b a) ∧ RigidNodes dim x t W R := by
  obtain ⟨C, A, hA⟩ := hbox
  obtain ⟨U, hU⟩ : ∃ U : Nat → Nat → ℝ, ∀ i a, R (number x.2 i a) = U i a := ⟨_, fun _ _ => rfl⟩
  obtain ⟨N, hN⟩ : ∃ N, x.2.interp.numNodes = N := ⟨_, rfl⟩
  have hA : ∀ i < N, ∀ b < dim, component x.1.coordElement i b = C b + ∑ c ∈ range dim, A b c * refNode x.2.interp i c := by
    intro i hi b hb
    rw [hA i (by rw [h.coord.count, ← hiso, hN]; exact hi) b hb]
    simp only [refNode, hiso]
  rw [hN] at hone hlin href
  have hjac : ∀ p ∈ pts, (∀ b < dim, ∀ c < dim, p.2.jacobian.jac b c = A b c) ∧
      ∀ a < dim, ∀ c < dim, ∑ b ∈ range dim,
        displacementGradient dim (gradients x.2 p.2) (restrict dim x.2 R) a b * A b c =
        ∑ i ∈ range N, U i a * slopeOf x.2.interp p.2.coords i c := by
    intro p hm
    obtain ⟨hj, hg⟩ := iso_point h hiso hp p hm (hdet p hm)
    have hg := hg R
    have hslope : ∀ i c, ((x.2.interp.deriv fun k => p.2.coords.getD k 0).getD i []).getD c 0 =
        slopeOf x.2.interp p.2.coords i c := fun _ _ => rfl
    simp only [hslope, hN, hU] at hj hg
    have h1 : ∀ b < dim, ∀ c < dim, p.2.jacobian.jac b c = A b c := by
      intro b hb c hc
      rw [hj b hb c]
      calc ∑ i ∈ range N, component x.1.coordElement i b * slopeOf x.2.interp p.2.coords i c
          = C b * ∑ i ∈ range N, slopeOf x.2.interp p.2.coords i c +
            ∑ d ∈ range dim, A b d * ∑ i ∈ range N, refNode x.2.interp i d * slopeOf x.2.interp p.2.coords i c := by
            rw [sum_congr rfl fun i hi => by rw [hA i (mem_range.1 hi) b hb]]
            simp only [add_mul, sum_add_distrib, mul_sum, sum_mul]
            rw [sum_comm (s := range dim)]
            simp only [mul_assoc]
        _ = A b c := by
            rw [hone _ c hc, sum_congr rfl fun d hd => by rw [hlin _ d (mem_range.1 hd) c hc]]
            simp [hc]
    refine ⟨h1, fun a ha c hc => ?_⟩
    rw [← hg a ha c hc]
    exact sum_congr rfl fun b hb => by rw [h1 b (mem_range.1 hb) c hc]
  -- the components along the edges
  obtain ⟨V, hV⟩ : ∃ V : Nat → Nat → ℝ, ∀ i c, V i c = ∑ a ∈ range dim, A a c * U i a := ⟨_, fun _ _ => rfl⟩
  have hsym : ∀ p ∈ pts, ∀ c < dim, ∀ d < dim,
      ∑ i ∈ range N, V i c * slopeOf x.2.interp p.2.coords i d + ∑ i ∈ range N, V i d * slopeOf x.2.interp p.2.coords i c = 0 := by
    intro p hm c hc d hd
    obtain ⟨_, hg⟩ := hjac p hm
    have hanti := strains_zero dim h.dim1 h.dim3 _ _ (h0 p hm)
    obtain ⟨g, hgd⟩ : ∃ g, g = displacementGradient dim (gradients x.2 p.2) (restrict dim x.2 R) := ⟨_, rfl⟩
    rw [← hgd] at hanti hg
    have hVg : ∀ c < dim, ∀ d < dim, ∑ i ∈ range N, V i c * slopeOf x.2.interp p.2.coords i d =
        ∑ a ∈ range dim, ∑ b ∈ range dim, A a c * g a b * A b d := by
      intro c hc d hd
      calc ∑ i ∈ range N, V i c * slopeOf x.2.interp p.2.coords i d = ∑ a ∈ range dim, A a c * ∑ i ∈ range N, U i a * slopeOf x.2.interp p.2.coords i d := by
            simp only [hV, sum_mul, mul_sum]
            rw [sum_comm]
            simp only [mul_assoc]
        _ = _ := by
            refine sum_congr rfl fun a ha => ?_
            rw [← hg a (mem_range.1 ha) d hd, mul_sum]
            exact sum_congr rfl fun b _ => by ring
    rw [hVg c hc d hd, hVg d hd c hc, sum_comm (s := range dim) (f := fun a b => A a d * g a b * A b c), ← sum_add_distrib]
    refine sum_eq_zero fun a ha => ?_
    rw [← sum_add_distrib]
    refine sum_eq_zero fun b hb => ?_
    rw [hanti a (mem_range.1 ha) b (mem_range.1 hb)]
    ring
  obtain ⟨τ, M, hM, hVM⟩ := href V hsym
  -- back to the components along the axes
  obtain ⟨B, hAB, hBA⟩ : ∃ B : Nat → Nat → ℝ, (∀ a < dim, ∀ b < dim, ∑ j ∈ range dim, A a j * B j b = if a = b then 1 else 0) ∧
      ∀ a < dim, ∀ b < dim, ∑ j ∈ range dim, B a j * A j b = if a = b then 1 else 0 := by
    obtain ⟨p, hm⟩ := List.exists_mem_of_ne_nil _ hne
    obtain ⟨hj, _⟩ := hjac p hm
    obtain ⟨j1, j2, j3⟩ := h.point hp p hm
    have hsq := (Jacobian.C40_square j3 (by rw [j1, j2])).2 (hdet p hm)
    have hdelta : ∀ A B : Nat → Nat → ℝ, Jacobian.toMat p.2.jacobian.rows p.2.jacobian.rows A *
        Jacobian.toMat p.2.jacobian.rows p.2.jacobian.rows B = 1 → ∀ a < dim, ∀ b < dim,
        ∑ j ∈ range dim, A a j * B j b = if a = b then 1 else 0 := by
      intro A B hAB a ha b hb
      rw [j1] at hAB
      have := congrFun (congrFun hAB ⟨a, ha⟩) ⟨b, hb⟩
      rw [Matrix.mul_apply, Matrix.one_apply] at this
      rw [← Fin.sum_univ_eq_sum_range (fun j => A a j * B j b)]
      rw [show (∑ j : Fin dim, A a j * B j b) = _ from this]
      simp [Fin.ext_iff]
    refine ⟨p.2.jacobian.inv, fun a ha b hb => ?_, fun a ha b hb => ?_⟩
    · rw [← hdelta _ _ hsq.1 a ha b hb]
      exact sum_congr rfl fun j hjr => by rw [hj a ha j (mem_range.1 hjr)]
    · rw [← hdelta _ _ hsq.2 a ha b hb]
      exact sum_congr rfl fun j hjr => by rw [hj j (mem_range.1 hjr) b hb]
  have hback : ∀ i, ∀ a < dim, U i a = ∑ c ∈ range dim, B c a * V i c := by
    intro i a ha
    calc U i a = ∑ a' ∈ range dim, U i a' * (if a' = a then 1 else 0) := by simp [ha]
      _ = ∑ a' ∈ range dim, ∑ c ∈ range dim, U i a' * (A a' c * B c a) := by
          refine sum_congr rfl fun a' ha' => ?_
          rw [← hAB a' (mem_range.1 ha') a ha, mul_sum]
      _ = _ := by
          rw [sum_comm]
          refine sum_congr rfl fun c _ => ?_
          rw [hV, mul_sum]
          exact sum_congr rfl fun a' _ => by ring
  have hcorner : ∀ i < N, ∀ d < dim, refNode x.2.interp i d = ∑ e ∈ range dim, B d e * (component x.1.coordElement i e - C e) := by
    intro i hi d hd
    calc refNode x.2.interp i d = ∑ c ∈ range dim, (if d = c then 1 else 0) * refNode x.2.interp i c := by simp [hd]
      _ = ∑ c ∈ range dim, ∑ e ∈ range dim, B d e * A e c * refNode x.2.interp i c := by
          refine sum_congr rfl fun c hc => ?_
          rw [← hBA d hd c (mem_range.1 hc), sum_mul]
      _ = _ := by
          rw [sum_comm]
          refine sum_congr rfl fun e he => ?_
          rw [hA i hi e (mem_range.1 he), add_sub_cancel_left, mul_sum]
          exact sum_congr rfl fun c _ => by ring
  obtain ⟨W, hW⟩ : ∃ W : Nat → Nat → ℝ, ∀ a e, W a e = ∑ c ∈ range dim, ∑ d ∈ range dim, B c a * M c d * B d e :=
    ⟨_, fun _ _ => rfl⟩
  refine ⟨fun a => ∑ c ∈ range dim, B c a * τ c - ∑ e ∈ range dim, W a e * C e, W, ?_, ?_⟩
  · intro a e
    rw [hW, hW, sum_comm, ← sum_neg_distrib]
    refine sum_congr rfl fun c _ => ?_
    rw [← sum_neg_distrib]
    refine sum_congr rfl fun d _ => ?_
    rw [hM d c]
    ring
  · intro i hi a ha
    have hi8 : i < N := by rw [h.dof.count, hN] at hi; exact hi
    have hWX : ∑ e ∈ range dim, W a e * (component x.1.coordElement i e - C e) =
        ∑ c ∈ range dim, B c a * ∑ d ∈ range dim, M c d * refNode x.2.interp i d := by
      calc _ = ∑ e ∈ range dim, ∑ c ∈ range dim, ∑ d ∈ range dim, B c a * M c d * B d e *
            (component x.1.coordElement i e - C e) := by simp only [hW, sum_mul]
        _ = ∑ c ∈ range dim, ∑ d ∈ range dim, ∑ e ∈ range dim, B c a * M c d * B d e *
            (component x.1.coordElement i e - C e) := by
            rw [sum_comm]
            exact sum_congr rfl fun c _ => sum_comm
        _ = _ := by
            refine sum_congr rfl fun c _ => ?_
            rw [mul_sum]
            refine sum_congr rfl fun d hd => ?_
            rw [hcorner i hi8 d (mem_range.1 hd)]
            simp only [mul_sum]
            exact sum_congr rfl fun e _ => by ring
    rw [hU, hback i a ha, sum_congr rfl fun c hc => by rw [hVM i hi8 c (mem_range.1 hc)]]
    simp only [mul_add, sum_add_distrib]
    rw [← hWX]
    simp only [mul_sub, sum_sub_distrib]
    ring

/-! ### Quadratic triangles -/

/-- An affine function of two variables that vanishes at three points that are not on a line vanishes. -/
theorem affine_zero2 {r₀ s₀ r₁ s₁ r₂ s₂ : ℝ} (hd : (r₁ - r₀) * (s₂ - s₀) - (r₂ - r₀) * (s₁ - s₀) ≠ 0) (F : ℝ → ℝ → ℝ)
    (hF : ∀ r s, F r s = F 0 0 + (F 1 0 - F 0 0) * r + (F 0 1 - F 0 0) * s) (h0 : F r₀ s₀ = 0) (h1 : F r₁ s₁ = 0)
    (h2 : F r₂ s₂ = 0) : F 0 0 = 0 ∧ F 1 0 = 0 ∧ F 0 1 = 0 := by
  rw [hF] at h0 h1 h2
  generalize F 0 0 = α, F 1 0 = β, F 0 1 = γ at *
  have hb : β - α = 0 := (mul_eq_zero.1 (show (β - α) * ((r₁ - r₀) * (s₂ - s₀) - (r₂ - r₀) * (s₁ - s₀)) = 0 by
    linear_combination (s₂ - s₀) * (h1 - h0) - (s₁ - s₀) * (h2 - h0))).resolve_right hd
  have hc : γ - α = 0 := (mul_eq_zero.1 (show (γ - α) * ((r₁ - r₀) * (s₂ - s₀) - (r₂ - r₀) * (s₁ - s₀)) = 0 by
    linear_combination (r₁ - r₀) * (h2 - h0) - (r₂ - r₀) * (h1 - h0))).resolve_right hd
  rw [hb, hc] at h0
  refine ⟨by linarith, by linarith, by linarith⟩

/-- C95: a vector without strains at three points, not on a line, of a quadratic triangle with straight edges is a rigid
motion of its six nodes. -/
theorem C95_triangleQuadratic_rigid {n : Nat} {x : Cell × FemElement ℝ} (h : Body 2 n x)
    (hiso : x.2.interp = x.1.coordElement.interp) (hI : x.2.interp = Interpolation.triangleQuadratic)
    (hbox : Straight 2 x.1.coordElement) (hG : Spread2 x.1.rule) {pts : List (ℝ × IpData)} (hp : x.1.Points pts)
    (hdet : ∀ p ∈ pts, p.2.jacobian.det ≠ 0) (R : Nat → ℝ)
    (h0 : ∀ p ∈ pts, ∀ y ∈ strains 2 (gradients x.2 p.2) (restrict 2 x.2 R), y = 0) :
    ∃ (t : Nat → ℝ) (W : Nat → Nat → ℝ), (∀ a b, W a b = -W b a) ∧ RigidNodes 2 x t W R := by
  obtain ⟨w₀, w₁, w₂, r₀, s₀, r₁, s₁, r₂, s₂, g0, g1, g2, hd⟩ := hG
  obtain ⟨p₀, m0, c0⟩ := rule_point h hp g0
  obtain ⟨p₁, m1, c1⟩ := rule_point h hp g1
  obtain ⟨p₂, m2, c2⟩ := rule_point h hp g2
  have hN : x.2.interp.numNodes = 6 := by rw [hI]; rfl
  refine affine_rigid h hiso hbox hp (List.ne_nil_of_mem m0) hdet ?_ ?_ ?_ R h0
  · intro xi c hc
    rw [hN, hI]
    interval_cases c <;> simp only [sum_range_succ, sum_range_zero, slopeOf, Interpolation.triangleQuadratic,
      Interpolation.triangleQuadraticDeriv, List.getD_cons_zero, List.getD_cons_succ] <;> ring
  · intro xi c hc d hd
    rw [hN, hI]
    interval_cases c <;> interval_cases d <;> simp only [sum_range_succ, sum_range_zero, slopeOf, refNode,
      Interpolation.triangleQuadratic, Interpolation.triangleQuadraticDeriv, Interpolation.triangleQuadraticCoords,
      List.getD_cons_zero, List.getD_cons_succ] <;> norm_num <;> ring
  · intro V hV
    rw [hN, hI] at hV
    rw [hN, hI]
    have key : ∀ c < 2, ∀ d < 2, ∀ F : ℝ → ℝ → ℝ, (∀ r s, F r s =
        ∑ i ∈ range 6, V i c * slopeOf Interpolation.triangleQuadratic [r, s] i d +
          ∑ i ∈ range 6, V i d * slopeOf Interpolation.triangleQuadratic [r, s] i c) →
        F 0 0 = 0 ∧ F 1 0 = 0 ∧ F 0 1 = 0 := by
      intro c hc d hd' F hF
      refine affine_zero2 hd F ?_ ?_ ?_ ?_
      · intro r s
        simp only [hF]
        interval_cases c <;> interval_cases d <;> simp only [sum_range_succ, sum_range_zero, slopeOf,
          Interpolation.triangleQuadratic, Interpolation.triangleQuadraticDeriv, List.getD_cons_zero,
          List.getD_cons_succ] <;> ring
      · rw [hF, ← c0]; exact hV p₀ m0 c hc d hd'
      · rw [hF, ← c1]; exact hV p₁ m1 c hc d hd'
      · rw [hF, ← c2]; exact hV p₂ m2 c hc d hd'
    have k00 := key 0 (by norm_num) 0 (by norm_num) _ fun _ _ => rfl
    have k01 := key 0 (by norm_num) 1 (by norm_num) _ fun _ _ => rfl
    have k11 := key 1 (by norm_num) 1 (by norm_num) _ fun _ _ => rfl
    simp only [sum_range_succ, sum_range_zero, slopeOf, Interpolation.triangleQuadratic,
      Interpolation.triangleQuadraticDeriv, List.getD_cons_zero, List.getD_cons_succ] at k00 k01 k11
    norm_num at k00 k01 k11
    obtain ⟨a1, a2, a3⟩ := k00
    obtain ⟨b1, b2, b3⟩ := k01
    obtain ⟨d1, d2, d3⟩ := k11
    refine ⟨fun c => V 0 c, fun c d => if c = 0 ∧ d = 1 then V 2 0 - V 0 0 else if c = 1 ∧ d = 0 then -(V 2 0 - V 0 0) else 0,
      ?_, ?_⟩
    · intro c d
      by_cases hc : c = 0
      · subst hc
        by_cases hd : d = 1 <;> simp [hd]
      · by_cases hc' : c = 1
        · subst hc'
          by_cases hd : d = 0 <;> simp [hd]
        · simp [hc, hc']
    · intro i hi c hc
      have hi : i < 6 := hi
      interval_cases c <;> interval_cases i <;>
        simp [sum_range_succ, refNode, Interpolation.triangleQuadratic, Interpolation.triangleQuadraticCoords] <;> linarith

/-! ### Quadratic tetrahedra -/

/-- An affine function of three variables that vanishes at four points that are not on a plane vanishes. -/
theorem affine_zero3 {r₀ s₀ t₀ r₁ s₁ t₁ r₂ s₂ t₂ r₃ s₃ t₃ : ℝ}
    (hd : (r₁ - r₀) * ((s₂ - s₀) * (t₃ - t₀) - (s₃ - s₀) * (t₂ - t₀)) -
      (r₂ - r₀) * ((s₁ - s₀) * (t₃ - t₀) - (s₃ - s₀) * (t₁ - t₀)) +
      (r₃ - r₀) * ((s₁ - s₀) * (t₂ - t₀) - (s₂ - s₀) * (t₁ - t₀)) ≠ 0) (F : ℝ → ℝ → ℝ → ℝ)
    (hF : ∀ r s t, F r s t = F 0 0 0 + (F 1 0 0 - F 0 0 0) * r + (F 0 1 0 - F 0 0 0) * s + (F 0 0 1 - F 0 0 0) * t)
    (h0 : F r₀ s₀ t₀ = 0) (h1 : F r₁ s₁ t₁ = 0) (h2 : F r₂ s₂ t₂ = 0) (h3 : F r₃ s₃ t₃ = 0) :
    F 0 0 0 = 0 ∧ F 1 0 0 = 0 ∧ F 0 1 0 = 0 ∧ F 0 0 1 = 0 := by
  rw [hF] at h0 h1 h2 h3
  generalize F 0 0 0 = α, F 1 0 0 = β, F 0 1 0 = γ, F 0 0 1 = δ at *
  have e1 : (β - α) * (r₁ - r₀) + (γ - α) * (s₁ - s₀) + (δ - α) * (t₁ - t₀) = 0 := by linear_combination h1 - h0
  have e2 : (β - α) * (r₂ - r₀) + (γ - α) * (s₂ - s₀) + (δ - α) * (t₂ - t₀) = 0 := by linear_combination h2 - h0
  have e3 : (β - α) * (r₃ - r₀) + (γ - α) * (s₃ - s₀) + (δ - α) * (t₃ - t₀) = 0 := by linear_combination h3 - h0
  clear hF h1 h2 h3
  have hb : β - α = 0 := by
    refine (mul_eq_zero.1 ?_).resolve_right hd
    linear_combination ((s₂ - s₀) * (t₃ - t₀) - (s₃ - s₀) * (t₂ - t₀)) * e1 -
      ((s₁ - s₀) * (t₃ - t₀) - (s₃ - s₀) * (t₁ - t₀)) * e2 + ((s₁ - s₀) * (t₂ - t₀) - (s₂ - s₀) * (t₁ - t₀)) * e3
  have hc : γ - α = 0 := by
    refine (mul_eq_zero.1 ?_).resolve_right hd
    linear_combination -((r₂ - r₀) * (t₃ - t₀) - (r₃ - r₀) * (t₂ - t₀)) * e1 +
      ((r₁ - r₀) * (t₃ - t₀) - (r₃ - r₀) * (t₁ - t₀)) * e2 - ((r₁ - r₀) * (t₂ - t₀) - (r₂ - r₀) * (t₁ - t₀)) * e3
  have hdz : δ - α = 0 := by
    refine (mul_eq_zero.1 ?_).resolve_right hd
    linear_combination ((r₂ - r₀) * (s₃ - s₀) - (r₃ - r₀) * (s₂ - s₀)) * e1 -
      ((r₁ - r₀) * (s₃ - s₀) - (r₃ - r₀) * (s₁ - s₀)) * e2 + ((r₁ - r₀) * (s₂ - s₀) - (r₂ - r₀) * (s₁ - s₀)) * e3
  rw [hb, hc, hdz] at h0
  refine ⟨by linarith, by linarith, by linarith, by linarith⟩

/-- A quadratic field on the reference tetrahedron whose symmetric gradient vanishes at the corners is a rigid motion. -/
theorem tetrahedron_reference (V : Nat → Nat → ℝ)
    (key : ∀ c < 3, ∀ d < 3, ∀ F : ℝ → ℝ → ℝ → ℝ, (∀ r s t, F r s t =
      ∑ i ∈ range 10, V i c * slopeOf Interpolation.tetrahedronQuadratic [r, s, t] i d +
        ∑ i ∈ range 10, V i d * slopeOf Interpolation.tetrahedronQuadratic [r, s, t] i c) →
      F 0 0 0 = 0 ∧ F 1 0 0 = 0 ∧ F 0 1 0 = 0 ∧ F 0 0 1 = 0) :
    ∃ (τ : Nat → ℝ) (M : Nat → Nat → ℝ), (∀ c d, M c d = -M d c) ∧ ∀ i < 10, ∀ c < 3,
      V i c = τ c + ∑ d ∈ range 3, M c d * refNode Interpolation.tetrahedronQuadratic i d := by
  have k00 := key 0 (by norm_num) 0 (by norm_num) _ fun _ _ _ => rfl
  have k01 := key 0 (by norm_num) 1 (by norm_num) _ fun _ _ _ => rfl
  have k02 := key 0 (by norm_num) 2 (by norm_num) _ fun _ _ _ => rfl
  have k11 := key 1 (by norm_num) 1 (by norm_num) _ fun _ _ _ => rfl
  have k12 := key 1 (by norm_num) 2 (by norm_num) _ fun _ _ _ => rfl
  have k22 := key 2 (by norm_num) 2 (by norm_num) _ fun _ _ _ => rfl
  simp only [sum_range_succ, sum_range_zero, slopeOf, Interpolation.tetrahedronQuadratic,
    Interpolation.tetrahedronQuadraticDeriv, List.getD_cons_zero, List.getD_cons_succ] at k00 k01 k02 k11 k12 k22
  norm_num at k00 k01 k02 k11 k12 k22
  obtain ⟨a1, a2, a3, a4⟩ := k00
  obtain ⟨b1, b2, b3, b4⟩ := k01
  obtain ⟨c1, c2, c3, c4⟩ := k02
  obtain ⟨d1, d2, d3, d4⟩ := k11
  obtain ⟨e1, e2, e3, e4⟩ := k12
  obtain ⟨f1, f2, f3, f4⟩ := k22
  have p10 : V 1 0 = V 0 0 := by linarith only [a1, a2]
  have p40 : V 4 0 = V 0 0 := by linarith only [a1, a2]
  have p50 : V 5 0 = V 6 0 := by linarith only [a1, a2, a3]
  have p90 : V 9 0 = V 7 0 := by linarith only [a1, a2, a4]
  have p21 : V 2 1 = V 0 1 := by linarith only [d1, d3]
  have p61 : V 6 1 = V 0 1 := by linarith only [d1, d3]
  have p51 : V 5 1 = V 4 1 := by linarith only [d1, d3, d2]
  have p81 : V 8 1 = V 7 1 := by linarith only [d1, d3, d4]
  have p32 : V 3 2 = V 0 2 := by linarith only [f1, f4]
  have p72 : V 7 2 = V 0 2 := by linarith only [f1, f4]
  have p82 : V 8 2 = V 6 2 := by linarith only [f1, f4, f3]
  have p92 : V 9 2 = V 4 2 := by linarith only [f1, f4, f2]
  have q41 : V 4 1 = (V 0 1 + V 1 1) / 2 := by linarith only [b1, b2, p40, p50]
  have q60 : V 6 0 = (V 0 0 + V 2 0) / 2 := by linarith only [b1, b3, p51, p61]
  have q42 : V 4 2 = (V 0 2 + V 1 2) / 2 := by linarith only [c1, c2, p40, p90]
  have q70 : V 7 0 = (V 0 0 + V 3 0) / 2 := by linarith only [c1, c4, p92, p72]
  have q62 : V 6 2 = (V 0 2 + V 2 2) / 2 := by linarith only [e1, e3, p61, p81]
  have q71 : V 7 1 = (V 0 1 + V 3 1) / 2 := by linarith only [e1, e4, p82, p72]
  have q11 : V 1 1 = V 0 1 - (V 2 0 - V 0 0) := by linarith only [b1, q41, q60]
  have q12 : V 1 2 = V 0 2 - (V 3 0 - V 0 0) := by linarith only [c1, q42, q70]
  have q22 : V 2 2 = V 0 2 - (V 3 1 - V 0 1) := by linarith only [e1, q62, q71]
  have r80 : V 8 0 = (V 2 0 + V 3 0) / 2 ∧ V 9 1 = (V 1 1 + V 3 1) / 2 ∧ V 5 2 = (V 1 2 + V 2 2) / 2 := by
    refine ⟨?_, ?_, ?_⟩ <;> linarith only [b4, c3, e2, q41, q60, q42, q70, q62, q71, q11, q12, q22, p40, p50, p90, p61, p51,
      p81, p72, p82, p92, p10, p21, p32]
  clear a1 a2 a3 a4 b1 b2 b3 b4 c1 c2 c3 c4 d1 d2 d3 d4 e1 e2 e3 e4 f1 f2 f3 f4
  obtain ⟨r80, r91, r52⟩ := r80
  rw [q60] at p50
  rw [q70] at p90
  rw [q11] at q41
  rw [q41] at p51
  rw [q71] at p81
  rw [q11] at r91
  rw [q12] at q42
  rw [q22] at q62
  rw [q62] at p82
  rw [q42] at p92
  rw [q12, q22] at r52
  refine ⟨fun c => V 0 c,
    fun c d => if c = 0 ∧ d = 1 then V 2 0 - V 0 0 else if c = 1 ∧ d = 0 then -(V 2 0 - V 0 0) else
      if c = 0 ∧ d = 2 then V 3 0 - V 0 0 else if c = 2 ∧ d = 0 then -(V 3 0 - V 0 0) else
      if c = 1 ∧ d = 2 then V 3 1 - V 0 1 else if c = 2 ∧ d = 1 then -(V 3 1 - V 0 1) else 0, ?_, ?_⟩
  · intro c d
    by_cases c0 : c = 0 <;> by_cases c1 : c = 1 <;> by_cases c2 : c = 2 <;> by_cases d0 : d = 0 <;>
      by_cases d1 : d = 1 <;> by_cases d2 : d = 2 <;> simp [c0, c1, c2, d0, d1, d2]
  · intro i hi c hc
    have hi : i < 10 := hi
    interval_cases c <;> interval_cases i <;>
      simp [sum_range_succ, refNode, Interpolation.tetrahedronQuadratic, Interpolation.tetrahedronQuadraticCoords, p10, p40,
        p50, p90, p21, p61, p51, p81, p32, p72, p82, p92, q41, q60, q42, q70, q62, q71, q11, q12, q22, r80, r91, r52] <;>
      ring

/-- C95: a vector without strains at four points, not on a plane, of a quadratic tetrahedron with straight edges is a rigid
motion of its ten nodes. -/
theorem C95_tetrahedronQuadratic_rigid {n : Nat} {x : Cell × FemElement ℝ} (h : Body 3 n x)
    (hiso : x.2.interp = x.1.coordElement.interp) (hI : x.2.interp = Interpolation.tetrahedronQuadratic)
    (hbox : Straight 3 x.1.coordElement) (hG : Spread3 x.1.rule) {pts : List (ℝ × IpData)} (hp : x.1.Points pts)
    (hdet : ∀ p ∈ pts, p.2.jacobian.det ≠ 0) (R : Nat → ℝ)
    (h0 : ∀ p ∈ pts, ∀ y ∈ strains 3 (gradients x.2 p.2) (restrict 3 x.2 R), y = 0) :
    ∃ (t : Nat → ℝ) (W : Nat → Nat → ℝ), (∀ a b, W a b = -W b a) ∧ RigidNodes 3 x t W R := by
  obtain ⟨w₀, w₁, w₂, w₃, r₀, s₀, t₀, r₁, s₁, t₁, r₂, s₂, t₂, r₃, s₃, t₃, g0, g1, g2, g3, hd⟩ := hG
  obtain ⟨p₀, m0, c0⟩ := rule_point h hp g0
  obtain ⟨p₁, m1, c1⟩ := rule_point h hp g1
  obtain ⟨p₂, m2, c2⟩ := rule_point h hp g2
  obtain ⟨p₃, m3, c3⟩ := rule_point h hp g3
  have hN : x.2.interp.numNodes = 10 := by rw [hI]; rfl
  refine affine_rigid h hiso hbox hp (List.ne_nil_of_mem m0) hdet ?_ ?_ ?_ R h0
  · intro xi c hc
    rw [hN, hI]
    interval_cases c <;> simp only [sum_range_succ, sum_range_zero, slopeOf, Interpolation.tetrahedronQuadratic,
      Interpolation.tetrahedronQuadraticDeriv, List.getD_cons_zero, List.getD_cons_succ] <;> ring
  · intro xi c hc d hd
    rw [hN, hI]
    interval_cases c <;> interval_cases d <;> simp only [sum_range_succ, sum_range_zero, slopeOf, refNode,
      Interpolation.tetrahedronQuadratic, Interpolation.tetrahedronQuadraticDeriv, Interpolation.tetrahedronQuadraticCoords,
      List.getD_cons_zero, List.getD_cons_succ] <;> norm_num <;> ring
  · intro V hV
    rw [hN, hI] at hV
    rw [hN, hI]
    have key : ∀ c < 3, ∀ d < 3, ∀ F : ℝ → ℝ → ℝ → ℝ, (∀ r s t, F r s t =
        ∑ i ∈ range 10, V i c * slopeOf Interpolation.tetrahedronQuadratic [r, s, t] i d +
          ∑ i ∈ range 10, V i d * slopeOf Interpolation.tetrahedronQuadratic [r, s, t] i c) →
        F 0 0 0 = 0 ∧ F 1 0 0 = 0 ∧ F 0 1 0 = 0 ∧ F 0 0 1 = 0 := by
      intro c hc d hd' F hF
      refine affine_zero3 hd F ?_ ?_ ?_ ?_ ?_
      · intro r s t
        simp only [hF]
        interval_cases c <;> interval_cases d <;> simp only [sum_range_succ, sum_range_zero, slopeOf,
          Interpolation.tetrahedronQuadratic, Interpolation.tetrahedronQuadraticDeriv, List.getD_cons_zero,
          List.getD_cons_succ] <;> ring
      · rw [hF, ← c0]; exact hV p₀ m0 c hc d hd'
      · rw [hF, ← c1]; exact hV p₁ m1 c hc d hd'
      · rw [hF, ← c2]; exact hV p₂ m2 c hc d hd'
      · rw [hF, ← c3]; exact hV p₃ m3 c hc d hd'
    exact tetrahedron_reference V key

/-! ### Meshes -/

variable {dof n : Nat} {T : List ℝ → IpData → DMat ℝ} {cells : List (Cell × FemElement ℝ)} {m : SpMat ℝ}

theorem points_det (hw : ∀ x ∈ cells, ∀ pts, x.1.Points pts → ∀ p ∈ pts, 0 < p.2.jacobian.det * p.1) :
    ∀ x ∈ cells, ∀ pts, x.1.Points pts → ∀ p ∈ pts, p.2.jacobian.det ≠ 0 := by
  intro x hx pts hp p hm h0
  have := hw x hx pts hp p hm
  rw [h0, zero_mul] at this
  exact lt_irrefl _ this

/-- Rigid motions of the single elements of a connected mesh are one rigid motion. -/
theorem unstrained_connected {dim : Nat} {share : Cell × FemElement ℝ → Cell × FemElement ℝ → Prop} (R : Nat → ℝ)
    (hext : ∀ x y, share x y → ∀ (t : Nat → ℝ) (W : Nat → Nat → ℝ), (∀ a b, W a b = -W b a) → RigidNodes dim x t W R →
      ∀ (t' : Nat → ℝ) (W' : Nat → Nat → ℝ), (∀ a b, W' a b = -W' b a) → RigidNodes dim y t' W' R → RigidNodes dim y t W R)
    (hown : ∀ x ∈ cells, ∃ (t : Nat → ℝ) (W : Nat → Nat → ℝ), (∀ a b, W a b = -W b a) ∧ RigidNodes dim x t W R)
    (x₀ : Cell × FemElement ℝ) (h0 : x₀ ∈ cells)
    (hc : ∀ y ∈ cells, Relation.ReflTransGen (fun x y => y ∈ cells ∧ share x y) x₀ y) :
    ∃ (t : Nat → ℝ) (W : Nat → Nat → ℝ), (∀ a b, W a b = -W b a) ∧ ∀ x ∈ cells, RigidNodes dim x t W R := by
  obtain ⟨t, W, hW, h1⟩ := hown x₀ h0
  refine ⟨t, W, hW, fun y hy => ?_⟩
  have := hc y hy
  induction this with
  | refl => exact h1
  | @tail y z hyz hz ih =>
    by_cases hym : y ∈ cells
    · obtain ⟨t', W', hW', h2⟩ := hown z hy
      exact hext y z hz.2 t W hW (ih hym) t' W' hW' h2
    · exfalso
      rcases Relation.ReflTransGen.cases_tail hyz with h | ⟨w, _, hw⟩
      · exact hym (h ▸ h0)
      · exact hym hw.1

/-- If the vectors without strains are rigid motions, the kernel consists of the rigid motions. -/
theorem kernel_of_rigid {dim : Nat} (k : Stiff dof dim n T cells m) (hpd : Definite dim T)
    (hw : ∀ x ∈ cells, ∀ pts, x.1.Points pts → ∀ p ∈ pts, 0 < p.2.jacobian.det * p.1)
    (hiso : ∀ x ∈ cells, x.2.interp = x.1.coordElement.interp)
    (hrig : ∀ R : Nat → ℝ, Unstrained dim cells R → ∃ (t : Nat → ℝ) (W : Nat → Nat → ℝ), (∀ a b, W a b = -W b a) ∧
      ∀ x ∈ cells, RigidNodes dim x t W R) (R : Nat → ℝ) :
    (∀ i < n, ∑ j ∈ range n, m.entry i j * R j = 0) ↔
      ∃ (t : Nat → ℝ) (W : Nat → Nat → ℝ), (∀ a b, W a b = -W b a) ∧ ∀ x ∈ cells, RigidNodes dim x t W R := by
  constructor
  · intro h
    refine hrig R ((C95_energy_zero k hpd hw R).1 ?_)
    refine sum_eq_zero fun i hi => ?_
    have : ∑ j ∈ range n, R i * m.entry i j * R j = R i * ∑ j ∈ range n, m.entry i j * R j := by
      rw [mul_sum]
      exact sum_congr rfl fun j _ => by ring
    rw [this, h i (mem_range.1 hi), mul_zero]
  · rintro ⟨t, W, hW, h⟩ i hi
    exact C95_rigid k hiso (points_det hw) t W hW R (fun x hx j hj a ha => h x hx j hj a ha) i hi

/-- C95: on such plane meshes a vector without strains is one rigid motion of the whole mesh. -/
theorem C95_plane_unstrained_quadratic (hb : ∀ x ∈ cells, Body 2 n x)
    (hiso : ∀ x ∈ cells, x.2.interp = x.1.coordElement.interp) (hI : ∀ x ∈ cells, PlaneElement2 x)
    (hw : ∀ x ∈ cells, ∀ pts, x.1.Points pts → ∀ p ∈ pts, 0 < p.2.jacobian.det * p.1)
    (x₀ : Cell × FemElement ℝ) (hc : EdgeConnected cells x₀) (R : Nat → ℝ) (h0 : Unstrained 2 cells R) :
    ∃ (t : Nat → ℝ) (W : Nat → Nat → ℝ), (∀ a b, W a b = -W b a) ∧ ∀ x ∈ cells, RigidNodes 2 x t W R := by
  refine unstrained_connected R (fun x y hs t W hW hx t' W' hW' hy => plane_extend R hs t W hW hx t' W' hW' hy) (fun x hx => ?_)
    x₀ hc.1 hc.2
  have hdet := points_det hw x hx
  rcases hI x hx with hI | ⟨hI, hS, hG⟩
  · exact C95_plane_rigid (hb x hx) (hiso x hx) hI hdet R (h0 x hx)
  · obtain ⟨pts, hp⟩ := C77_points (hb x hx)
    exact C95_triangleQuadratic_rigid (hb x hx) (hiso x hx) hI hS hG hp (hdet pts hp) R (h0 x hx pts hp)

/-- C95 (kernel): on edge-connected plane meshes of linear and quadratic triangles and bilinear quadrilaterals with definite
tangents the stiffness matrix maps exactly the rigid motions to zero. -/
theorem C95_plane_kernel_quadratic (k : Stiff dof 2 n T cells m) (hpd : Definite 2 T)
    (hw : ∀ x ∈ cells, ∀ pts, x.1.Points pts → ∀ p ∈ pts, 0 < p.2.jacobian.det * p.1)
    (hiso : ∀ x ∈ cells, x.2.interp = x.1.coordElement.interp) (hI : ∀ x ∈ cells, PlaneElement2 x)
    (x₀ : Cell × FemElement ℝ) (hc : EdgeConnected cells x₀) (R : Nat → ℝ) :
    (∀ i < n, ∑ j ∈ range n, m.entry i j * R j = 0) ↔
      ∃ (t : Nat → ℝ) (W : Nat → Nat → ℝ), (∀ a b, W a b = -W b a) ∧ ∀ x ∈ cells, RigidNodes 2 x t W R :=
  kernel_of_rigid k hpd hw hiso (fun R h => C95_plane_unstrained_quadratic k.body hiso hI hw x₀ hc R h) R

/-- C95 (solvable): with supports that exclude rigid motions the equations have exactly one solution. -/
theorem C95_plane_solvable_quadratic (k : Stiff dof 2 n T cells m) (hpd : Definite 2 T)
    (hw : ∀ x ∈ cells, ∀ pts, x.1.Points pts → ∀ p ∈ pts, 0 < p.2.jacobian.det * p.1)
    (hiso : ∀ x ∈ cells, x.2.interp = x.1.coordElement.interp) (hI : ∀ x ∈ cells, PlaneElement2 x)
    (x₀ : Cell × FemElement ℝ) (hc : EdgeConnected cells x₀)
    (hall : ∀ g < n, ∃ x ∈ cells, ∃ i < x.2.nodes.length, ∃ a < 2, number x.2 i a = g) (prescribed : Nat → Prop)
    (hsup : NodesSupported 2 cells prescribed) (value load : Nat → ℝ) :
    ∃! U : Fin n → ℝ, ∀ i : Fin n, (prescribed i → U i = value i) ∧
      (¬ prescribed i → ∑ j : Fin n, m.entry i j * U j = load i) :=
  solvable_of_rigid k hpd hw (fun R h => C95_plane_unstrained_quadratic k.body hiso hI hw x₀ hc R h) hall prescribed hsup
    value load

/-- C101: on such plane meshes the constraints leave no motion without strains if they leave no rigid motion. -/
theorem C101_plane_held_quadratic {c : Constraints ℝ} {num : Term ℝ → Nat} (hb : ∀ x ∈ cells, Body 2 n x)
    (hw : ∀ x ∈ cells, ∀ pts, x.1.Points pts → ∀ p ∈ pts, 0 < p.2.jacobian.det * p.1)
    (hiso : ∀ x ∈ cells, x.2.interp = x.1.coordElement.interp) (hI : ∀ x ∈ cells, PlaneElement2 x)
    (x₀ : Cell × FemElement ℝ) (hc : EdgeConnected cells x₀)
    (hrigid : ∀ w : List ℝ, w.length = n → (∃ (t : Nat → ℝ) (W : Nat → Nat → ℝ), (∀ a b, W a b = -W b a) ∧
      ∀ x ∈ cells, RigidNodes 2 x t W fun i => w.getD i 0) →
      Statics.Satisfies c dof num (fun _ => 0) w → ∀ i < n, w.getD i 0 = 0) :
    Statics.Held 2 dof n cells c num :=
  fun w hwl hs hu => hrigid w hwl (C95_plane_unstrained_quadratic hb hiso hI hw x₀ hc _ hu) hs

/-- C95: on such meshes in space a vector without strains is one rigid motion of the whole mesh. -/
theorem C95_space_unstrained_quadratic (hb : ∀ x ∈ cells, Body 3 n x)
    (hiso : ∀ x ∈ cells, x.2.interp = x.1.coordElement.interp) (hI : ∀ x ∈ cells, SpaceElement2 x)
    (hw : ∀ x ∈ cells, ∀ pts, x.1.Points pts → ∀ p ∈ pts, 0 < p.2.jacobian.det * p.1)
    (x₀ : Cell × FemElement ℝ) (hc : SpaceConnected cells x₀) (R : Nat → ℝ) (h0 : Unstrained 3 cells R) :
    ∃ (t : Nat → ℝ) (W : Nat → Nat → ℝ), (∀ a b, W a b = -W b a) ∧ ∀ x ∈ cells, RigidNodes 3 x t W R := by
  refine unstrained_connected R (fun x y hs t W hW hx t' W' hW' hy => space_extend R hs t W hW hx t' W' hW' hy) (fun x hx => ?_)
    x₀ hc.1 hc.2
  have hdet := points_det hw x hx
  rcases hI x hx with hI | ⟨hI, hS, hG⟩
  · exact C95_space_rigid (hb x hx) (hiso x hx) hI hdet R (h0 x hx)
  · obtain ⟨pts, hp⟩ := C77_points (hb x hx)
    exact C95_tetrahedronQuadratic_rigid (hb x hx) (hiso x hx) hI hS hG hp (hdet pts hp) R (h0 x hx pts hp)

/-- C95 (kernel): on face-connected meshes of linear and quadratic tetrahedra and parallelepipeds with definite
tangents the stiffness matrix maps exactly the rigid motions to zero. -/
theorem C95_space_kernel_quadratic (k : Stiff dof 3 n T cells m) (hpd : Definite 3 T)
    (hw : ∀ x ∈ cells, ∀ pts, x.1.Points pts → ∀ p ∈ pts, 0 < p.2.jacobian.det * p.1)
    (hiso : ∀ x ∈ cells, x.2.interp = x.1.coordElement.interp) (hI : ∀ x ∈ cells, SpaceElement2 x)
    (x₀ : Cell × FemElement ℝ) (hc : SpaceConnected cells x₀) (R : Nat → ℝ) :
    (∀ i < n, ∑ j ∈ range n, m.entry i j * R j = 0) ↔
      ∃ (t : Nat → ℝ) (W : Nat → Nat → ℝ), (∀ a b, W a b = -W b a) ∧ ∀ x ∈ cells, RigidNodes 3 x t W R :=
  kernel_of_rigid k hpd hw hiso (fun R h => C95_space_unstrained_quadratic k.body hiso hI hw x₀ hc R h) R

/-- C95 (solvable): with supports that exclude rigid motions the equations have exactly one solution. -/
theorem C95_space_solvable_quadratic (k : Stiff dof 3 n T cells m) (hpd : Definite 3 T)
    (hw : ∀ x ∈ cells, ∀ pts, x.1.Points pts → ∀ p ∈ pts, 0 < p.2.jacobian.det * p.1)
    (hiso : ∀ x ∈ cells, x.2.interp = x.1.coordElement.interp) (hI : ∀ x ∈ cells, SpaceElement2 x)
    (x₀ : Cell × FemElement ℝ) (hc : SpaceConnected cells x₀)
    (hall : ∀ g < n, ∃ x ∈ cells, ∃ i < x.2.nodes.length, ∃ a < 3, number x.2 i a = g) (prescribed : Nat → Prop)
    (hsup : NodesSupported 3 cells prescribed) (value load : Nat → ℝ) :
    ∃! U : Fin n → ℝ, ∀ i : Fin n, (prescribed i → U i = value i) ∧
      (¬ prescribed i → ∑ j : Fin n, m.entry i j * U j = load i) :=
  solvable_of_rigid k hpd hw (fun R h => C95_space_unstrained_quadratic k.body hiso hI hw x₀ hc R h) hall prescribed hsup
    value load

/-- C101: on such meshes in space the constraints leave no motion without strains if they leave no rigid motion. -/
theorem C101_space_held_quadratic {c : Constraints ℝ} {num : Term ℝ → Nat} (hb : ∀ x ∈ cells, Body 3 n x)
    (hw : ∀ x ∈ cells, ∀ pts, x.1.Points pts → ∀ p ∈ pts, 0 < p.2.jacobian.det * p.1)
    (hiso : ∀ x ∈ cells, x.2.interp = x.1.coordElement.interp) (hI : ∀ x ∈ cells, SpaceElement2 x)
    (x₀ : Cell × FemElement ℝ) (hc : SpaceConnected cells x₀)
    (hrigid : ∀ w : List ℝ, w.length = n → (∃ (t : Nat → ℝ) (W : Nat → Nat → ℝ), (∀ a b, W a b = -W b a) ∧
      ∀ x ∈ cells, RigidNodes 3 x t W fun i => w.getD i 0) →
      Statics.Satisfies c dof num (fun _ => 0) w → ∀ i < n, w.getD i 0 = 0) :
    Statics.Held 3 dof n cells c num :=
  fun w hwl hs hu => hrigid w hwl (C95_space_unstrained_quadratic hb hiso hI hw x₀ hc _ hu) hs

/-! ### Examples -/

/-- A quadratic triangle with three integration points. -/
noncomputable def exampleSix : Cell × FemElement ℝ :=
  (⟨0, ⟨nodesAt [[0, 0], [2, 0], [0, 2], [1, 0], [1, 1], [0, 1]], Interpolation.triangleQuadratic⟩,
    [(1 / 6, [1 / 6, 1 / 6]), (1 / 6, [2 / 3, 1 / 6]), (1 / 6, [1 / 6, 2 / 3])]⟩,
   ⟨[⟨[[0, 0]], [0, 1]⟩, ⟨[[0, 0]], [2, 3]⟩, ⟨[[0, 0]], [4, 5]⟩, ⟨[[0, 0]], [6, 7]⟩, ⟨[[0, 0]], [8, 9]⟩,
     ⟨[[0, 0]], [10, 11]⟩], Interpolation.triangleQuadratic⟩)

theorem exampleSix_ok : Body 2 12 exampleSix where
  dim1 := by norm_num
  dim3 := by norm_num
  dof := ⟨by simp [exampleSix], rfl, by simp [exampleSix, Node.WF]⟩
  coord := ⟨by simp [exampleSix, nodesAt], rfl, by simp [exampleSix, nodesAt, Node.ofVector, Node.WF]⟩
  dofDim := rfl
  coordDim := rfl
  dofUnity := C77_types _ (by simp [exactTypes, exampleSix])
  coordUnity := C77_types _ (by simp [exactTypes, exampleSix])
  numbered := by simp [exampleSix, Numbered]

theorem exampleSix_weights : ∀ pts, exampleSix.1.Points pts → ∀ p ∈ pts, 0 < p.2.jacobian.det * p.1 := by
  intro pts hp p hm
  obtain ⟨_, _, h⟩ := exampleSix_ok.point hp p hm
  have hr := point_rule exampleSix_ok hp p hm
  have hv : values 2 exampleSix.1.coordElement = [0, 0, 2, 0, 0, 2, 1, 0, 1, 1, 0, 1] := by
    simp [values, exampleSix, nodesAt, Node.ofVector, component, List.range_succ]
  rw [hv, make_square2 _ _ (by simp [exampleSix, Interpolation.triangleQuadratic, Interpolation.triangleQuadraticDeriv])
    (by simp [exampleSix, Interpolation.triangleQuadratic, Interpolation.triangleQuadraticDeriv])] at h
  rw [← Res.ok.inj h]
  simp [exampleSix] at hr
  rcases hr with ⟨h1, h2⟩ | ⟨h1, h2⟩ | ⟨h1, h2⟩ <;> rw [h1, h2] <;>
    simp [exampleSix, Interpolation.triangleQuadratic, Interpolation.triangleQuadraticDeriv, Jacobian.det2,
      Jacobian.calculate, List.range_succ] <;> norm_num

/-- The quadratic triangle meets the hypotheses of `C95_plane_kernel_quadratic`, `C95_plane_solvable_quadratic`. -/
example : ∃ m, Stiff 0 2 12 (fun _ _ => elasticTangent 2 1 0 .planeStress) [exampleSix] m ∧
    Definite 2 (fun _ _ => elasticTangent 2 1 0 .planeStress) ∧
    (∀ x ∈ [exampleSix], ∀ pts, x.1.Points pts → ∀ p ∈ pts, 0 < p.2.jacobian.det * p.1) ∧
    (∀ x ∈ [exampleSix], x.2.interp = x.1.coordElement.interp) ∧ (∀ x ∈ [exampleSix], PlaneElement2 x) ∧
    EdgeConnected [exampleSix] exampleSix ∧
    (∀ g < 12, ∃ x ∈ [exampleSix], ∃ i < x.2.nodes.length, ∃ a < 2, number x.2 i a = g) ∧
    NodesSupported 2 [exampleSix] fun g => g = 0 ∨ g = 1 ∨ g = 3 := by
  have hel := C95_elastic 2 (by norm_num) (by norm_num) 1 0 .planeStress (by norm_num) (by norm_num) (by norm_num)
  obtain ⟨_, m, _, _, _, _, h⟩ := C95_exists ⟨[(0, 12)], [(0, 0)]⟩ 0 2 12 (fun _ _ => elasticTangent 2 1 0 .planeStress)
    (fun e d he => by rw [he]; exact hel.1) [exampleSix] [[exampleSix]] (by simp) rfl
    (fun x hx => by rw [List.mem_singleton.1 hx]; exact exampleSix_ok)
  refine ⟨m, h, hel.2.2.1, fun x hx => by rw [List.mem_singleton.1 hx]; exact exampleSix_weights,
    fun x hx => by rw [List.mem_singleton.1 hx]; rfl, ?_, ⟨by simp, fun y hy => ?_⟩, ?_, ?_⟩
  · intro x hx
    rw [List.mem_singleton.1 hx]
    refine Or.inr ⟨rfl, ⟨fun _ => 0, fun b c => if b = c then 2 else 0, fun i hi b hb => ?_⟩,
      1 / 6, 1 / 6, 1 / 6, 1 / 6, 1 / 6, 2 / 3, 1 / 6, 1 / 6, 2 / 3, by simp [exampleSix], by simp [exampleSix],
      by simp [exampleSix], by norm_num⟩
    have hi : i < 6 := hi
    interval_cases i <;> interval_cases b <;> simp [exampleSix, component, nodesAt, Node.ofVector, sum_range_succ,
      Interpolation.triangleQuadratic, Interpolation.triangleQuadraticCoords]
  · rw [List.mem_singleton.1 hy]
  · intro g hg
    refine ⟨exampleSix, by simp, g / 2, by simp [exampleSix]; omega, g % 2, by omega, ?_⟩
    interval_cases g <;> simp [exampleSix, number]
  · intro t W hW h x hx i hi a ha
    have h0 := h exampleSix (by simp) 0 (by simp [exampleSix]) 0 (by norm_num) (by simp [exampleSix, number])
    have h1 := h exampleSix (by simp) 0 (by simp [exampleSix]) 1 (by norm_num) (by simp [exampleSix, number])
    have h2 := h exampleSix (by simp) 1 (by simp [exampleSix]) 1 (by norm_num) (by simp [exampleSix, number])
    simp [exampleSix, component, nodesAt, Node.ofVector, sum_range_succ] at h0 h1 h2
    have w00 : W 0 0 = 0 := by linarith [hW 0 0]
    have w11 : W 1 1 = 0 := by linarith [hW 1 1]
    have w10 : W 1 0 = 0 := by linarith
    have w01 : W 0 1 = 0 := by linarith [hW 0 1]
    interval_cases a <;> simp [sum_range_succ, w00, w11, w10, w01, h0, h1]

/-- A quadratic tetrahedron with four integration points. -/
noncomputable def exampleTen : Cell × FemElement ℝ :=
  (⟨0, ⟨nodesAt [[0, 0, 0], [2, 0, 0], [0, 2, 0], [0, 0, 2], [1, 0, 0], [1, 1, 0], [0, 1, 0], [0, 0, 1], [0, 1, 1],
      [1, 0, 1]], Interpolation.tetrahedronQuadratic⟩,
    [(1 / 24, [1 / 8, 1 / 8, 1 / 8]), (1 / 24, [5 / 8, 1 / 8, 1 / 8]), (1 / 24, [1 / 8, 5 / 8, 1 / 8]),
      (1 / 24, [1 / 8, 1 / 8, 5 / 8])]⟩,
   ⟨[⟨[[0, 0, 0]], [0, 1, 2]⟩, ⟨[[0, 0, 0]], [3, 4, 5]⟩, ⟨[[0, 0, 0]], [6, 7, 8]⟩, ⟨[[0, 0, 0]], [9, 10, 11]⟩,
     ⟨[[0, 0, 0]], [12, 13, 14]⟩, ⟨[[0, 0, 0]], [15, 16, 17]⟩, ⟨[[0, 0, 0]], [18, 19, 20]⟩, ⟨[[0, 0, 0]], [21, 22, 23]⟩,
     ⟨[[0, 0, 0]], [24, 25, 26]⟩, ⟨[[0, 0, 0]], [27, 28, 29]⟩], Interpolation.tetrahedronQuadratic⟩)

/-- The quadratic tetrahedron is an element of `C95_space_kernel_quadratic`. -/
example : Body 3 30 exampleTen ∧ SpaceElement2 exampleTen := by
  refine ⟨{
    dim1 := by norm_num
    dim3 := by norm_num
    dof := ⟨by simp [exampleTen], rfl, by simp [exampleTen, Node.WF]⟩
    coord := ⟨by simp [exampleTen, nodesAt], rfl, by simp [exampleTen, nodesAt, Node.ofVector, Node.WF]⟩
    dofDim := rfl
    coordDim := rfl
    dofUnity := C77_types _ (by simp [exactTypes, exampleTen])
    coordUnity := C77_types _ (by simp [exactTypes, exampleTen])
    numbered := by simp [exampleTen, Numbered] }, Or.inr ⟨rfl, ⟨fun _ => 0, fun b c => if b = c then 2 else 0,
    fun i hi b hb => ?_⟩, 1 / 24, 1 / 24, 1 / 24, 1 / 24, 1 / 8, 1 / 8, 1 / 8, 5 / 8, 1 / 8, 1 / 8, 1 / 8, 5 / 8, 1 / 8,
    1 / 8, 1 / 8, 5 / 8, by simp [exampleTen], by simp [exampleTen], by simp [exampleTen], by simp [exampleTen],
    by norm_num⟩⟩
  have hi : i < 10 := hi
  interval_cases i <;> interval_cases b <;> simp [exampleTen, component, nodesAt, Node.ofVector, sum_range_succ,
    Interpolation.tetrahedronQuadratic, Interpolation.tetrahedronQuadraticCoords]

end Balance

end NuTo
