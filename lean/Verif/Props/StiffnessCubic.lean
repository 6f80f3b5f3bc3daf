/-
C95, continued: the kernel of the stiffness matrix for cubic triangles with straight edges.
-/
import Verif.Props.StiffnessSerendipity

namespace NuTo

open Assembly Finset

namespace Balance

/-! ### Specification -/

/-- No conic contains all points of the rule. -/
def NoConic (rule : List (ℝ × List ℝ)) : Prop :=
  ∀ α β γ δ ε ζ : ℝ, (∀ w r s : ℝ, (w, [r, s]) ∈ rule → α + β * r + γ * s + δ * r ^ 2 + ε * r * s + ζ * s ^ 2 = 0) →
    α = 0 ∧ β = 0 ∧ γ = 0 ∧ δ = 0 ∧ ε = 0 ∧ ζ = 0

/-- An element of `C95_plane_kernel_serendipity`, or a cubic triangle with straight edges and points that are not on a
conic. -/
def PlaneElement4 (x : Cell × FemElement ℝ) : Prop :=
  PlaneElement3 x ∨
    (x.2.interp = Interpolation.triangle3rdOrder ∧ Straight 2 x.1.coordElement ∧ NoConic x.1.rule)

/-! ### One element -/

/-- If the derivative of the first kind vanishes, the values along rows of nodes are equal. -/
theorem cubic_rows (a : Nat → ℝ) (h : ∀ r s, ∑ i ∈ range 10, a i * slopeOf Interpolation.triangle3rdOrder [r, s] i 0 = 0) :
    a 1 = a 0 ∧ a 2 = a 0 ∧ a 3 = a 0 ∧ a 5 = a 4 ∧ a 6 = a 4 ∧ a 8 = a 7 := by
  simp only [sum_range_succ, sum_range_zero, slopeOf, Interpolation.triangle3rdOrder,
    Interpolation.triangle3rdOrderDeriv, List.getD_cons_zero, List.getD_cons_succ] at h
  have a1 := h 0 0
  have a2 := h (1 / 2) 0
  have a3 := h 1 0
  have b1 := h 0 (1 / 3)
  have b2 := h (1 / 2) (1 / 3)
  have b3 := h 1 (1 / 3)
  have c1 := h 0 (2 / 3)
  clear h
  norm_num at a1 a2 a3 b1 b2 b3 c1
  have u1 : a 1 = a 0 := by linarith only [a1, a2, a3]
  have u2 : a 2 = a 0 := by linarith only [a1, a2, a3]
  have u3 : a 3 = a 0 := by linarith only [a1, a2, a3]
  rw [u1, u2, u3] at b2 b3
  rw [u1, u2, u3] at b1
  have u5 : a 5 = a 4 := by linarith only [b1, b2, b3]
  have u6 : a 6 = a 4 := by linarith only [b1, b2, b3]
  refine ⟨u1, u2, u3, u5, u6, ?_⟩
  linarith only [c1, u1, u2, u3, u5, u6]

/-- If the derivative of the second kind vanishes, the values along columns of nodes are equal. -/
theorem cubic_columns (a : Nat → ℝ) (h : ∀ r s, ∑ i ∈ range 10, a i * slopeOf Interpolation.triangle3rdOrder [r, s] i 1 = 0) :
    a 4 = a 0 ∧ a 7 = a 0 ∧ a 9 = a 0 ∧ a 5 = a 1 ∧ a 8 = a 1 ∧ a 6 = a 2 := by
  simp only [sum_range_succ, sum_range_zero, slopeOf, Interpolation.triangle3rdOrder,
    Interpolation.triangle3rdOrderDeriv, List.getD_cons_zero, List.getD_cons_succ] at h
  have a1 := h 0 0
  have a2 := h 0 (1 / 2)
  have a3 := h 0 1
  have b1 := h (1 / 3) 0
  have b2 := h (1 / 3) (1 / 2)
  have b3 := h (1 / 3) 1
  have c1 := h (2 / 3) 0
  clear h
  norm_num at a1 a2 a3 b1 b2 b3 c1
  have u1 : a 4 = a 0 := by linarith only [a1, a2, a3]
  have u2 : a 7 = a 0 := by linarith only [a1, a2, a3]
  have u3 : a 9 = a 0 := by linarith only [a1, a2, a3]
  rw [u1, u2, u3] at b2 b3
  rw [u1, u2, u3] at b1
  have u5 : a 5 = a 1 := by linarith only [b1, b2, b3]
  have u6 : a 8 = a 1 := by linarith only [b1, b2, b3]
  refine ⟨u1, u2, u3, u5, u6, ?_⟩
  linarith only [c1, u1, u2, u3, u5, u6]

/-- If the sum of the slopes of two cubic polynomials in different variables vanishes, both are affine. -/
theorem cubic_shear (p q y z a b c d : ℝ)
    (h : ∀ r s : ℝ, p * (-(11 / 2) + 18 * s - (27 / 2) * s ^ 2) + q * (9 - 45 * s + (81 / 2) * s ^ 2) +
        y * (-(9 / 2) + 36 * s - (81 / 2) * s ^ 2) + z * (1 - 9 * s + (27 / 2) * s ^ 2) +
      (a * (-(11 / 2) + 18 * r - (27 / 2) * r ^ 2) + b * (9 - 45 * r + (81 / 2) * r ^ 2) +
        c * (-(9 / 2) + 36 * r - (81 / 2) * r ^ 2) + d * (1 - 9 * r + (27 / 2) * r ^ 2)) = 0) :
    q = p + (z - p) / 3 ∧ y = p + 2 * (z - p) / 3 ∧ b = a - (z - p) / 3 ∧ c = a - 2 * (z - p) / 3 ∧ d = a - (z - p) := by
  have b1 := h 0 0
  have b2 := h 0 (1 / 2)
  have b3 := h 0 1
  have b4 := h (1 / 2) 0
  have b5 := h 1 0
  clear h
  norm_num at b1 b2 b3 b4 b5
  refine ⟨by linarith only [b1, b2, b3], by linarith only [b1, b2, b3], by linarith only [b1, b2, b3, b4, b5],
    by linarith only [b1, b2, b3, b4, b5], by linarith only [b1, b2, b3, b4, b5]⟩

/-- C95: a vector without strains at points of a cubic triangle with straight edges that are not on a conic is a rigid motion
of its nodes. -/
theorem C95_triangleCubic_rigid {n : Nat} {x : Cell × FemElement ℝ} (h : Body 2 n x)
    (hiso : x.2.interp = x.1.coordElement.interp) (hI : x.2.interp = Interpolation.triangle3rdOrder)
    (hbox : Straight 2 x.1.coordElement) (hG : NoConic x.1.rule) {pts : List (ℝ × IpData)} (hp : x.1.Points pts)
    (hdet : ∀ p ∈ pts, p.2.jacobian.det ≠ 0) (R : Nat → ℝ)
    (h0 : ∀ p ∈ pts, ∀ y ∈ strains 2 (gradients x.2 p.2) (restrict 2 x.2 R), y = 0) :
    ∃ (t : Nat → ℝ) (W : Nat → Nat → ℝ), (∀ a b, W a b = -W b a) ∧ RigidNodes 2 x t W R := by
  have hne : pts ≠ [] := by
    rintro rfl
    have hl := hp.length_eq
    rw [List.length_zipIdx, List.length_nil] at hl
    have := hG 1 0 0 0 0 0 (fun w r s hm => by rw [List.eq_nil_of_length_eq_zero hl] at hm; simp at hm)
    exact one_ne_zero this.1
  have hN : x.2.interp.numNodes = 10 := by rw [hI]; rfl
  refine affine_rigid h hiso hbox hp hne hdet ?_ ?_ ?_ R h0
  · intro xi c hc
    rw [hN, hI]
    interval_cases c <;> simp only [sum_range_succ, sum_range_zero, slopeOf, Interpolation.triangle3rdOrder,
      Interpolation.triangle3rdOrderDeriv, List.getD_cons_zero, List.getD_cons_succ] <;> ring
  · intro xi c hc d hd
    rw [hN, hI]
    interval_cases c <;> interval_cases d <;> simp only [sum_range_succ, sum_range_zero, slopeOf, refNode,
      Interpolation.triangle3rdOrder, Interpolation.triangle3rdOrderDeriv, Interpolation.triangle3rdOrderCoords,
      List.getD_cons_zero, List.getD_cons_succ] <;> norm_num <;> ring
  · intro V hV
    rw [hN, hI] at hV
    rw [hN, hI]
    have key : ∀ c < 2, ∀ d < 2, ∀ F : ℝ → ℝ → ℝ, (∀ r s, F r s =
        ∑ i ∈ range 10, V i c * slopeOf Interpolation.triangle3rdOrder [r, s] i d +
          ∑ i ∈ range 10, V i d * slopeOf Interpolation.triangle3rdOrder [r, s] i c) → ∀ r s, F r s = 0 := by
      intro c hc d hd F hF
      have hq : ∀ r s, F r s = F 0 0 + (4 * F (1 / 2) 0 - 3 * F 0 0 - F 1 0) * r + (4 * F 0 (1 / 2) - 3 * F 0 0 - F 0 1) * s +
          (2 * F 0 0 + 2 * F 1 0 - 4 * F (1 / 2) 0) * r ^ 2 +
          (4 * (F (1 / 2) (1 / 2) - F (1 / 2) 0 - F 0 (1 / 2) + F 0 0)) * r * s +
          (2 * F 0 0 + 2 * F 0 1 - 4 * F 0 (1 / 2)) * s ^ 2 := by
        intro r s
        simp only [hF]
        interval_cases c <;> interval_cases d <;> simp only [sum_range_succ, sum_range_zero, slopeOf,
          Interpolation.triangle3rdOrder, Interpolation.triangle3rdOrderDeriv, List.getD_cons_zero,
          List.getD_cons_succ] <;> ring
      obtain ⟨e1, e2, e3, e4, e5, e6⟩ := hG _ _ _ _ _ _ (fun w r s hm => by
        rw [← hq r s]
        obtain ⟨p, hm, hc'⟩ := rule_point h hp hm
        rw [hF, ← hc']
        exact hV p hm c hc d hd)
      intro r s
      rw [hq, e2, e3, e4, e5, e6, e1]
      ring
    have k00 := key 0 (by norm_num) 0 (by norm_num) _ fun _ _ => rfl
    have k01 := key 0 (by norm_num) 1 (by norm_num) _ fun _ _ => rfl
    have k11 := key 1 (by norm_num) 1 (by norm_num) _ fun _ _ => rfl
    obtain ⟨u1, u2, u3, u5, u6, u8⟩ := cubic_rows (fun i => V i 0) fun r s => by linarith only [k00 r s]
    obtain ⟨v4, v7, v9, v5, v8, v6⟩ := cubic_columns (fun i => V i 1) fun r s => by linarith only [k11 r s]
    clear k00 k11 key hV
    simp only [sum_range_succ, sum_range_zero, u1, u2, u3, u5, u6, u8, v4, v5, v6, v7, v8, v9] at k01
    obtain ⟨u4, u7, v1, v2, v3⟩ := cubic_shear (V 0 0) (V 4 0) (V 7 0) (V 9 0) (V 0 1) (V 1 1) (V 2 1) (V 3 1)
      fun r s => by
        rw [← k01 r s]
        simp only [slopeOf, Interpolation.triangle3rdOrder, Interpolation.triangle3rdOrderDeriv, List.getD_cons_zero,
          List.getD_cons_succ]
        ring
    clear k01
    obtain ⟨M, hM⟩ : ∃ M : Nat → Nat → ℝ, ∀ c d, M c d = if c = 0 ∧ d = 1 then V 9 0 - V 0 0 else 0 := ⟨_, fun _ _ => rfl⟩
    refine ⟨fun c => V 0 c, fun c d => M c d - M d c, fun c d => by ring, ?_⟩
    intro i hi c hc
    have hi : i < 10 := hi
    interval_cases c <;> interval_cases i <;>
      simp only [sum_range_succ, sum_range_zero, hM, refNode, Interpolation.triangle3rdOrder,
        Interpolation.triangle3rdOrderCoords, List.getD_cons_zero, List.getD_cons_succ] <;> norm_num <;>
      linarith only [u1, u2, u3, u4, u5, u6, u7, u8, v1, v2, v3, v4, v5, v6, v7, v8, v9]

/-! ### Meshes -/

variable {dof n : Nat} {T : List ℝ → IpData → DMat ℝ} {cells : List (Cell × FemElement ℝ)} {m : SpMat ℝ}

/-- C95: on such plane meshes a vector without strains is one rigid motion of the whole mesh. -/
theorem C95_plane_unstrained_cubic (hb : ∀ x ∈ cells, Body 2 n x)
    (hiso : ∀ x ∈ cells, x.2.interp = x.1.coordElement.interp) (hI : ∀ x ∈ cells, PlaneElement4 x)
    (hw : ∀ x ∈ cells, ∀ pts, x.1.Points pts → ∀ p ∈ pts, 0 < p.2.jacobian.det * p.1)
    (x₀ : Cell × FemElement ℝ) (hc : EdgeConnected cells x₀) (R : Nat → ℝ) (h0 : Unstrained 2 cells R) :
    ∃ (t : Nat → ℝ) (W : Nat → Nat → ℝ), (∀ a b, W a b = -W b a) ∧ ∀ x ∈ cells, RigidNodes 2 x t W R := by
  refine unstrained_connected R (fun x y hs t W hW hx t' W' hW' hy => plane_extend R hs t W hW hx t' W' hW' hy) (fun x hx => ?_)
    x₀ hc.1 hc.2
  have hdet := points_det hw x hx
  rcases hI x hx with ((hI | ⟨hI, hS, hG⟩) | ⟨hI, hS, hG⟩) | ⟨hI, hS, hG⟩
  · exact C95_plane_rigid (hb x hx) (hiso x hx) hI hdet R (h0 x hx)
  · obtain ⟨pts, hp⟩ := C77_points (hb x hx)
    exact C95_triangleQuadratic_rigid (hb x hx) (hiso x hx) hI hS hG hp (hdet pts hp) R (h0 x hx pts hp)
  · obtain ⟨pts, hp⟩ := C77_points (hb x hx)
    exact C95_serendipity_rigid (hb x hx) (hiso x hx) hI hS hG hp (hdet pts hp) R (h0 x hx pts hp)
  · obtain ⟨pts, hp⟩ := C77_points (hb x hx)
    exact C95_triangleCubic_rigid (hb x hx) (hiso x hx) hI hS hG hp (hdet pts hp) R (h0 x hx pts hp)

/-- C95 (kernel): on edge-connected plane meshes of linear, quadratic and cubic triangles, bilinear quadrilaterals and
eight-node parallelograms with definite tangents the stiffness matrix maps exactly the rigid motions to zero. -/
theorem C95_plane_kernel_cubic (k : Stiff dof 2 n T cells m) (hpd : Definite 2 T)
    (hw : ∀ x ∈ cells, ∀ pts, x.1.Points pts → ∀ p ∈ pts, 0 < p.2.jacobian.det * p.1)
    (hiso : ∀ x ∈ cells, x.2.interp = x.1.coordElement.interp) (hI : ∀ x ∈ cells, PlaneElement4 x)
    (x₀ : Cell × FemElement ℝ) (hc : EdgeConnected cells x₀) (R : Nat → ℝ) :
    (∀ i < n, ∑ j ∈ range n, m.entry i j * R j = 0) ↔
      ∃ (t : Nat → ℝ) (W : Nat → Nat → ℝ), (∀ a b, W a b = -W b a) ∧ ∀ x ∈ cells, RigidNodes 2 x t W R :=
  kernel_of_rigid k hpd hw hiso (fun R h => C95_plane_unstrained_cubic k.body hiso hI hw x₀ hc R h) R

/-- C95 (solvable): with supports that exclude rigid motions the equations have exactly one solution. -/
theorem C95_plane_solvable_cubic (k : Stiff dof 2 n T cells m) (hpd : Definite 2 T)
    (hw : ∀ x ∈ cells, ∀ pts, x.1.Points pts → ∀ p ∈ pts, 0 < p.2.jacobian.det * p.1)
    (hiso : ∀ x ∈ cells, x.2.interp = x.1.coordElement.interp) (hI : ∀ x ∈ cells, PlaneElement4 x)
    (x₀ : Cell × FemElement ℝ) (hc : EdgeConnected cells x₀)
    (hall : ∀ g < n, ∃ x ∈ cells, ∃ i < x.2.nodes.length, ∃ a < 2, number x.2 i a = g) (prescribed : Nat → Prop)
    (hsup : NodesSupported 2 cells prescribed) (value load : Nat → ℝ) :
    ∃! U : Fin n → ℝ, ∀ i : Fin n, (prescribed i → U i = value i) ∧
      (¬ prescribed i → ∑ j : Fin n, m.entry i j * U j = load i) :=
  solvable_of_rigid k hpd hw (fun R h => C95_plane_unstrained_cubic k.body hiso hI hw x₀ hc R h) hall prescribed hsup
    value load

/-! ### Example -/

/-- A cubic triangle with six integration points. -/
noncomputable def exampleCubic : Cell × FemElement ℝ :=
  (⟨0, ⟨nodesAt [[0, 0], [1, 0], [2, 0], [3, 0], [0, 1], [1, 1], [2, 1], [0, 2], [1, 2], [0, 3]],
      Interpolation.triangle3rdOrder⟩,
    [(1 / 12, [0, 0]), (1 / 12, [1 / 2, 0]), (1 / 12, [1, 0]), (1 / 12, [0, 1 / 2]), (1 / 12, [1 / 2, 1 / 2]),
      (1 / 12, [0, 1])]⟩,
   ⟨[⟨[[0, 0]], [0, 1]⟩, ⟨[[0, 0]], [2, 3]⟩, ⟨[[0, 0]], [4, 5]⟩, ⟨[[0, 0]], [6, 7]⟩, ⟨[[0, 0]], [8, 9]⟩,
     ⟨[[0, 0]], [10, 11]⟩, ⟨[[0, 0]], [12, 13]⟩, ⟨[[0, 0]], [14, 15]⟩, ⟨[[0, 0]], [16, 17]⟩, ⟨[[0, 0]], [18, 19]⟩],
     Interpolation.triangle3rdOrder⟩)

/-- The cubic triangle is an element of `C95_plane_kernel_cubic`. -/
example : Body 2 20 exampleCubic ∧ PlaneElement4 exampleCubic ∧
    (∀ pts, exampleCubic.1.Points pts → ∀ p ∈ pts, 0 < p.2.jacobian.det * p.1) := by
  have hok : Body 2 20 exampleCubic := {
    dim1 := by norm_num
    dim3 := by norm_num
    dof := ⟨by simp [exampleCubic], rfl, by simp [exampleCubic, Node.WF]⟩
    coord := ⟨by simp [exampleCubic, nodesAt], rfl, by simp [exampleCubic, nodesAt, Node.ofVector, Node.WF]⟩
    dofDim := rfl
    coordDim := rfl
    dofUnity := C77_types _ (by simp [exactTypes, exampleCubic])
    coordUnity := C77_types _ (by simp [exactTypes, exampleCubic])
    numbered := by simp [exampleCubic, Numbered] }
  refine ⟨hok, Or.inr ⟨rfl, ⟨fun _ => 0, fun b c => if b = c then 3 else 0, fun i hi b hb => ?_⟩, ?_⟩, ?_⟩
  · have hi : i < 10 := hi
    interval_cases i <;> interval_cases b <;> simp [exampleCubic, component, nodesAt, Node.ofVector, sum_range_succ,
      Interpolation.triangle3rdOrder, Interpolation.triangle3rdOrderCoords] <;> norm_num
  · intro α β γ δ ε ζ hz
    have z1 := hz (1 / 12) 0 0 (by simp [exampleCubic])
    have z2 := hz (1 / 12) (1 / 2) 0 (by simp [exampleCubic])
    have z3 := hz (1 / 12) 1 0 (by simp [exampleCubic])
    have z4 := hz (1 / 12) 0 (1 / 2) (by simp [exampleCubic])
    have z5 := hz (1 / 12) (1 / 2) (1 / 2) (by simp [exampleCubic])
    have z6 := hz (1 / 12) 0 1 (by simp [exampleCubic])
    refine ⟨by linarith, by linarith, by linarith, by linarith, by linarith, by linarith⟩
  · intro pts hp p hm
    obtain ⟨_, _, h⟩ := hok.point hp p hm
    have hr := point_rule hok hp p hm
    have hv : values 2 exampleCubic.1.coordElement =
        [0, 0, 1, 0, 2, 0, 3, 0, 0, 1, 1, 1, 2, 1, 0, 2, 1, 2, 0, 3] := by
      simp [values, exampleCubic, nodesAt, Node.ofVector, component, List.range_succ]
    rw [hv, make_square2 _ _ (by simp [exampleCubic, Interpolation.triangle3rdOrder, Interpolation.triangle3rdOrderDeriv])
      (by simp [exampleCubic, Interpolation.triangle3rdOrder, Interpolation.triangle3rdOrderDeriv])] at h
    rw [← Res.ok.inj h]
    simp only [exampleCubic, List.mem_cons, Prod.mk.injEq, List.not_mem_nil, or_false] at hr
    rcases hr with ⟨h1, h2⟩ | ⟨h1, h2⟩ | ⟨h1, h2⟩ | ⟨h1, h2⟩ | ⟨h1, h2⟩ | ⟨h1, h2⟩ <;> rw [h1, h2] <;>
      simp [exampleCubic, Interpolation.triangle3rdOrder, Interpolation.triangle3rdOrderDeriv, Jacobian.det2,
        Jacobian.calculate, List.range_succ] <;> norm_num

end Balance

end NuTo
