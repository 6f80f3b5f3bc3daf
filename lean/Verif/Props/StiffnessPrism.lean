/-
C95, continued: the kernel of the stiffness matrix for linear prisms with parallel triangles.
-/
import Verif.Props.StiffnessAffine

namespace NuTo

open Assembly Finset

namespace Balance

/-! ### Specification -/

/-- The rule contains three points that are not on a line, in each of two planes of the reference prism. -/
def Wedge (rule : List (ℝ × List ℝ)) : Prop :=
  ∃ r₀ s₀ r₁ s₁ r₂ s₂ a b : ℝ, (r₁ - r₀) * (s₂ - s₀) - (r₂ - r₀) * (s₁ - s₀) ≠ 0 ∧ a ≠ b ∧
    ∀ t, (t = a ∨ t = b) → (∃ w, (w, [r₀, s₀, t]) ∈ rule) ∧ (∃ w, (w, [r₁, s₁, t]) ∈ rule) ∧ ∃ w, (w, [r₂, s₂, t]) ∈ rule

/-- An element of `C95_space_kernel_quadratic`, or a linear prism whose nodes are an affine image of the reference prism. -/
def SpaceElement3 (x : Cell × FemElement ℝ) : Prop :=
  SpaceElement2 x ∨
    (x.2.interp = Interpolation.prismLinear ∧ Straight 3 x.1.coordElement ∧ Wedge x.1.rule)

/-! ### One element -/

/-- C95: a vector without strains at six such points of a prism is a rigid motion of its nodes. -/
theorem C95_prism_rigid {n : Nat} {x : Cell × FemElement ℝ} (h : Body 3 n x)
    (hiso : x.2.interp = x.1.coordElement.interp) (hI : x.2.interp = Interpolation.prismLinear)
    (hbox : Straight 3 x.1.coordElement) (hG : Wedge x.1.rule) {pts : List (ℝ × IpData)} (hp : x.1.Points pts)
    (hdet : ∀ p ∈ pts, p.2.jacobian.det ≠ 0) (R : Nat → ℝ)
    (h0 : ∀ p ∈ pts, ∀ y ∈ strains 3 (gradients x.2 p.2) (restrict 3 x.2 R), y = 0) :
    ∃ (t : Nat → ℝ) (W : Nat → Nat → ℝ), (∀ a b, W a b = -W b a) ∧ RigidNodes 3 x t W R := by
  obtain ⟨r₀, s₀, r₁, s₁, r₂, s₂, a, b, hd, hab, hg⟩ := hG
  obtain ⟨p₀, m0, _⟩ := rule_point h hp (hg a (Or.inl rfl)).1.choose_spec
  have hN : x.2.interp.numNodes = 6 := by rw [hI]; rfl
  refine affine_rigid h hiso hbox hp (List.ne_nil_of_mem m0) hdet ?_ ?_ ?_ R h0
  · intro xi c hc
    rw [hN, hI]
    interval_cases c <;> simp only [sum_range_succ, sum_range_zero, slopeOf, Interpolation.prismLinear,
      Interpolation.prismLinearDeriv, List.getD_cons_zero, List.getD_cons_succ] <;> ring
  · intro xi c hc d hd
    rw [hN, hI]
    interval_cases c <;> interval_cases d <;> simp only [sum_range_succ, sum_range_zero, slopeOf, refNode,
      Interpolation.prismLinear, Interpolation.prismLinearDeriv, Interpolation.prismLinearCoords,
      List.getD_cons_zero, List.getD_cons_succ] <;> norm_num <;> ring
  · intro V hV
    rw [hN, hI] at hV
    rw [hN, hI]
    have key : ∀ c < 3, ∀ d < 3, ∀ F : ℝ → ℝ → ℝ → ℝ, (∀ r s t, F r s t =
        ∑ i ∈ range 6, V i c * slopeOf Interpolation.prismLinear [r, s, t] i d +
          ∑ i ∈ range 6, V i d * slopeOf Interpolation.prismLinear [r, s, t] i c) → ∀ r s t, F r s t = 0 := by
      intro c hc d hd' F hF
      have hrs : ∀ t r s, F r s t = F 0 0 t + (F 1 0 t - F 0 0 t) * r + (F 0 1 t - F 0 0 t) * s := by
        intro t r s
        simp only [hF]
        interval_cases c <;> interval_cases d <;> simp only [sum_range_succ, sum_range_zero, slopeOf,
          Interpolation.prismLinear, Interpolation.prismLinearDeriv, List.getD_cons_zero,
          List.getD_cons_succ] <;> ring
      have ht : ∀ r s t, F r s t = F r s 0 + (F r s 1 - F r s 0) * t := by
        intro r s t
        simp only [hF]
        interval_cases c <;> interval_cases d <;> simp only [sum_range_succ, sum_range_zero, slopeOf,
          Interpolation.prismLinear, Interpolation.prismLinearDeriv, List.getD_cons_zero,
          List.getD_cons_succ] <;> ring
      have hz : ∀ w r s t, (w, [r, s, t]) ∈ x.1.rule → F r s t = 0 := by
        intro w r s t hw
        obtain ⟨p, hm, hc'⟩ := rule_point h hp hw
        rw [hF, ← hc']
        exact hV p hm c hc d hd'
      have hplane : ∀ t, (t = a ∨ t = b) → ∀ r s, F r s t = 0 := by
        intro t ht' r s
        obtain ⟨⟨w₀, g0⟩, ⟨w₁, g1⟩, ⟨w₂, g2⟩⟩ := hg t ht'
        obtain ⟨e0, e1, e2⟩ := affine_zero2 hd (fun r s => F r s t) (hrs t) (hz _ _ _ _ g0) (hz _ _ _ _ g1) (hz _ _ _ _ g2)
        rw [hrs, e0, e1, e2]
        ring
      intro r s t
      have ea := hplane a (Or.inl rfl) r s
      have eb := hplane b (Or.inr rfl) r s
      rw [ht] at ea eb ⊢
      have e1 : F r s 1 - F r s 0 = 0 := (mul_eq_zero.1 (show (F r s 1 - F r s 0) * (a - b) = 0 by
        linear_combination ea - eb)).resolve_right (sub_ne_zero.2 hab)
      rw [e1] at ea ⊢
      linarith
    have k00 := key 0 (by norm_num) 0 (by norm_num) _ fun _ _ _ => rfl
    have k11 := key 1 (by norm_num) 1 (by norm_num) _ fun _ _ _ => rfl
    have k22 := key 2 (by norm_num) 2 (by norm_num) _ fun _ _ _ => rfl
    have k01 := key 0 (by norm_num) 1 (by norm_num) _ fun _ _ _ => rfl
    have k02 := key 0 (by norm_num) 2 (by norm_num) _ fun _ _ _ => rfl
    have k12 := key 1 (by norm_num) 2 (by norm_num) _ fun _ _ _ => rfl
    simp only [sum_range_succ, sum_range_zero, slopeOf, Interpolation.prismLinear,
      Interpolation.prismLinearDeriv, List.getD_cons_zero, List.getD_cons_succ] at k00 k11 k22 k01 k02 k12
    have u1 : V 1 0 = V 0 0 := by linarith only [k00 0 0 (-1)]
    have u4 : V 4 0 = V 3 0 := by linarith only [k00 0 0 1]
    have v2 : V 2 1 = V 0 1 := by linarith only [k11 0 0 (-1)]
    have v5 : V 5 1 = V 3 1 := by linarith only [k11 0 0 1]
    have w3 : V 3 2 = V 0 2 := by linarith only [k22 0 0 0]
    have w4 : V 4 2 = V 1 2 := by linarith only [k22 1 0 0]
    have w5 : V 5 2 = V 2 2 := by linarith only [k22 0 1 0]
    have v1 : V 1 1 = V 0 1 - (V 2 0 - V 0 0) := by linarith only [k01 0 0 (-1)]
    have w1 : V 1 2 = V 0 2 - (V 3 0 - V 0 0) / 2 := by linarith only [k02 0 0 0, w3, w4]
    have w2 : V 2 2 = V 0 2 - (V 3 1 - V 0 1) / 2 := by linarith only [k12 0 0 0, w3, w5]
    have u5 : V 5 0 = V 2 0 + V 3 0 - V 0 0 := by linarith only [k02 0 1 0, w1, w3, w4]
    have v4 : V 4 1 = V 1 1 + V 3 1 - V 0 1 := by linarith only [k12 1 0 0, w2, w3, w5]
    clear k00 k11 k22 k01 k02 k12 key hV
    obtain ⟨M, hM⟩ : ∃ M : Nat → Nat → ℝ, ∀ c d, M c d = if c = 0 ∧ d = 1 then V 2 0 - V 0 0 else
      if c = 0 ∧ d = 2 then (V 3 0 - V 0 0) / 2 else if c = 1 ∧ d = 2 then (V 3 1 - V 0 1) / 2 else 0 := ⟨_, fun _ _ => rfl⟩
    refine ⟨fun c => (V 0 c + V 3 c) / 2, fun c d => M c d - M d c, fun c d => by ring, ?_⟩
    intro i hi c hc
    have hi : i < 6 := hi
    interval_cases c <;> interval_cases i <;>
      simp only [sum_range_succ, sum_range_zero, hM, refNode, Interpolation.prismLinear, Interpolation.prismLinearCoords,
        List.getD_cons_zero, List.getD_cons_succ] <;> norm_num <;>
      linarith only [u1, u4, v2, v5, w3, w4, w5, v1, w1, w2, u5, v4]

/-! ### Meshes -/

variable {dof n : Nat} {T : List ℝ → IpData → DMat ℝ} {cells : List (Cell × FemElement ℝ)} {m : SpMat ℝ}

/-- C95: on such meshes in space a vector without strains is one rigid motion of the whole mesh. -/
theorem C95_space_unstrained_prism (hb : ∀ x ∈ cells, Body 3 n x)
    (hiso : ∀ x ∈ cells, x.2.interp = x.1.coordElement.interp) (hI : ∀ x ∈ cells, SpaceElement3 x)
    (hw : ∀ x ∈ cells, ∀ pts, x.1.Points pts → ∀ p ∈ pts, 0 < p.2.jacobian.det * p.1)
    (x₀ : Cell × FemElement ℝ) (hc : SpaceConnected cells x₀) (R : Nat → ℝ) (h0 : Unstrained 3 cells R) :
    ∃ (t : Nat → ℝ) (W : Nat → Nat → ℝ), (∀ a b, W a b = -W b a) ∧ ∀ x ∈ cells, RigidNodes 3 x t W R := by
  refine unstrained_connected R (fun x y hs t W hW hx t' W' hW' hy => space_extend R hs t W hW hx t' W' hW' hy) (fun x hx => ?_)
    x₀ hc.1 hc.2
  have hdet := points_det hw x hx
  rcases hI x hx with (hI | ⟨hI, hS, hG⟩) | ⟨hI, hS, hG⟩
  · exact C95_space_rigid (hb x hx) (hiso x hx) hI hdet R (h0 x hx)
  · obtain ⟨pts, hp⟩ := C77_points (hb x hx)
    exact C95_tetrahedronQuadratic_rigid (hb x hx) (hiso x hx) hI hS hG hp (hdet pts hp) R (h0 x hx pts hp)
  · obtain ⟨pts, hp⟩ := C77_points (hb x hx)
    exact C95_prism_rigid (hb x hx) (hiso x hx) hI hS hG hp (hdet pts hp) R (h0 x hx pts hp)

/-- C95 (kernel): on face-connected meshes of linear and quadratic tetrahedra, parallelepipeds and prisms with definite
tangents the stiffness matrix maps exactly the rigid motions to zero. -/
theorem C95_space_kernel_prism (k : Stiff dof 3 n T cells m) (hpd : Definite 3 T)
    (hw : ∀ x ∈ cells, ∀ pts, x.1.Points pts → ∀ p ∈ pts, 0 < p.2.jacobian.det * p.1)
    (hiso : ∀ x ∈ cells, x.2.interp = x.1.coordElement.interp) (hI : ∀ x ∈ cells, SpaceElement3 x)
    (x₀ : Cell × FemElement ℝ) (hc : SpaceConnected cells x₀) (R : Nat → ℝ) :
    (∀ i < n, ∑ j ∈ range n, m.entry i j * R j = 0) ↔
      ∃ (t : Nat → ℝ) (W : Nat → Nat → ℝ), (∀ a b, W a b = -W b a) ∧ ∀ x ∈ cells, RigidNodes 3 x t W R :=
  kernel_of_rigid k hpd hw hiso (fun R h => C95_space_unstrained_prism k.body hiso hI hw x₀ hc R h) R

/-- C95 (solvable): with supports that exclude rigid motions the equations have exactly one solution. -/
theorem C95_space_solvable_prism (k : Stiff dof 3 n T cells m) (hpd : Definite 3 T)
    (hw : ∀ x ∈ cells, ∀ pts, x.1.Points pts → ∀ p ∈ pts, 0 < p.2.jacobian.det * p.1)
    (hiso : ∀ x ∈ cells, x.2.interp = x.1.coordElement.interp) (hI : ∀ x ∈ cells, SpaceElement3 x)
    (x₀ : Cell × FemElement ℝ) (hc : SpaceConnected cells x₀)
    (hall : ∀ g < n, ∃ x ∈ cells, ∃ i < x.2.nodes.length, ∃ a < 3, number x.2 i a = g) (prescribed : Nat → Prop)
    (hsup : NodesSupported 3 cells prescribed) (value load : Nat → ℝ) :
    ∃! U : Fin n → ℝ, ∀ i : Fin n, (prescribed i → U i = value i) ∧
      (¬ prescribed i → ∑ j : Fin n, m.entry i j * U j = load i) :=
  solvable_of_rigid k hpd hw (fun R h => C95_space_unstrained_prism k.body hiso hI hw x₀ hc R h) hall prescribed hsup
    value load

/-! ### Example -/

/-- A prism with six integration points. -/
noncomputable def examplePrism : Cell × FemElement ℝ :=
  (⟨0, ⟨nodesAt [[0, 0, -1], [1, 0, -1], [0, 1, -1], [0, 0, 1], [1, 0, 1], [0, 1, 1]], Interpolation.prismLinear⟩,
    [(1, [1 / 6, 1 / 6, -1 / 2]), (1, [2 / 3, 1 / 6, -1 / 2]), (1, [1 / 6, 2 / 3, -1 / 2]), (1, [1 / 6, 1 / 6, 1 / 2]),
      (1, [2 / 3, 1 / 6, 1 / 2]), (1, [1 / 6, 2 / 3, 1 / 2])]⟩,
   ⟨[⟨[[0, 0, 0]], [0, 1, 2]⟩, ⟨[[0, 0, 0]], [3, 4, 5]⟩, ⟨[[0, 0, 0]], [6, 7, 8]⟩, ⟨[[0, 0, 0]], [9, 10, 11]⟩,
     ⟨[[0, 0, 0]], [12, 13, 14]⟩, ⟨[[0, 0, 0]], [15, 16, 17]⟩], Interpolation.prismLinear⟩)

/-- The prism is an element of `C95_space_kernel_prism`. -/
example : Body 3 18 examplePrism ∧ SpaceElement3 examplePrism ∧
    (∀ pts, examplePrism.1.Points pts → ∀ p ∈ pts, 0 < p.2.jacobian.det * p.1) := by
  have hok : Body 3 18 examplePrism := {
    dim1 := by norm_num
    dim3 := by norm_num
    dof := ⟨by simp [examplePrism], rfl, by simp [examplePrism, Node.WF]⟩
    coord := ⟨by simp [examplePrism, nodesAt], rfl, by simp [examplePrism, nodesAt, Node.ofVector, Node.WF]⟩
    dofDim := rfl
    coordDim := rfl
    dofUnity := C77_types _ (by simp [exactTypes, examplePrism])
    coordUnity := C77_types _ (by simp [exactTypes, examplePrism])
    numbered := by simp [examplePrism, Numbered] }
  refine ⟨hok, Or.inr ⟨rfl, ⟨fun _ => 0, fun b c => if b = c then 1 else 0, fun i hi b hb => ?_⟩,
    1 / 6, 1 / 6, 2 / 3, 1 / 6, 1 / 6, 2 / 3, -1 / 2, 1 / 2, by norm_num, by norm_num, fun t ht => ?_⟩, ?_⟩
  · have hi : i < 6 := hi
    interval_cases i <;> interval_cases b <;> simp [examplePrism, component, nodesAt, Node.ofVector, sum_range_succ,
      Interpolation.prismLinear, Interpolation.prismLinearCoords]
  · rcases ht with rfl | rfl <;> exact ⟨⟨1, by simp [examplePrism]⟩, ⟨1, by simp [examplePrism]⟩, ⟨1, by simp [examplePrism]⟩⟩
  · intro pts hp p hm
    obtain ⟨_, _, h⟩ := hok.point hp p hm
    have hr := point_rule hok hp p hm
    have hv : values 3 examplePrism.1.coordElement = [0, 0, -1, 1, 0, -1, 0, 1, -1, 0, 0, 1, 1, 0, 1, 0, 1, 1] := by
      simp [values, examplePrism, nodesAt, Node.ofVector, component, List.range_succ]
    rw [hv, make_square3 _ _ (by simp [examplePrism, Interpolation.prismLinear, Interpolation.prismLinearDeriv])
      (by simp [examplePrism, Interpolation.prismLinear, Interpolation.prismLinearDeriv])] at h
    rw [← Res.ok.inj h]
    simp only [examplePrism, List.mem_cons, Prod.mk.injEq, List.not_mem_nil, or_false] at hr
    rcases hr with ⟨h1, h2⟩ | ⟨h1, h2⟩ | ⟨h1, h2⟩ | ⟨h1, h2⟩ | ⟨h1, h2⟩ | ⟨h1, h2⟩ <;> rw [h1, h2] <;>
      simp [examplePrism, Interpolation.prismLinear, Interpolation.prismLinearDeriv, Jacobian.det3, Jacobian.brute3,
        Jacobian.calculate, List.range_succ] <;> norm_num

end Balance

end NuTo
