/-
C95, continued: the kernel of the stiffness matrix for eight-node quadrilaterals that are parallelograms.
-/
import Verif.Props.StiffnessAffine

namespace NuTo

open Assembly Finset

namespace Balance

/-! ### Specification -/

/-- The rule contains all points of a grid with three different coordinates in each direction. -/
def Grid9 (rule : List (ℝ × List ℝ)) : Prop :=
  ∃ a b c : ℝ, a ≠ b ∧ a ≠ c ∧ b ≠ c ∧
    ∀ r s : ℝ, (r = a ∨ r = b ∨ r = c) → (s = a ∨ s = b ∨ s = c) → ∃ w, (w, [r, s]) ∈ rule

/-- An element of `C95_plane_kernel_quadratic`, or an eight-node quadrilateral that is a parallelogram with nodes in the
middle of its edges and nine points on a grid. -/
def PlaneElement3 (x : Cell × FemElement ℝ) : Prop :=
  PlaneElement2 x ∨
    (x.2.interp = Interpolation.quadSerendipity ∧ Straight 2 x.1.coordElement ∧ Grid9 x.1.rule)

/-- Tensor product rules with three different points lie on such a grid. -/
theorem grid9_tensor (n : Nat) (w p : List ℝ) (i j k : Nat) (hi : i < n) (hj : j < n) (hk : k < n)
    (hij : p.getD i 0 ≠ p.getD j 0) (hik : p.getD i 0 ≠ p.getD k 0) (hjk : p.getD j 0 ≠ p.getD k 0) :
    Grid9 (Quadrature.tensor 2 n w p) := by
  have hmem : ∀ a < n, ∀ b < n, ∃ v, (v, [p.getD a 0, p.getD b 0]) ∈ Quadrature.tensor 2 n w p := by
    intro a ha b hb
    have hlt : a + b * n < n ^ 2 := by nlinarith
    refine ⟨w.getD a 0 * w.getD b 0, List.mem_map.2 ⟨a + b * n, List.mem_range.2 hlt, ?_⟩⟩
    have h1 : (a + b * n) % n = a := by rw [Nat.add_mul_mod_self_right, Nat.mod_eq_of_lt ha]
    have h2 : (a + b * n) / n % n = b := by
      rw [Nat.add_mul_div_right _ _ (by omega), Nat.div_eq_of_lt ha, zero_add, Nat.mod_eq_of_lt hb]
    simp [List.range_succ, Quadrature.tensorStep, h1, h2]
  refine ⟨_, _, _, hij, hik, hjk, fun r s hr hs => ?_⟩
  rcases hr with rfl | rfl | rfl <;> rcases hs with rfl | rfl | rfl <;> exact hmem _ (by assumption) _ (by assumption)

/-! ### One element -/

/-- A polynomial of degree two that vanishes at three points vanishes. -/
theorem quadratic_zero {a b c : ℝ} (hab : a ≠ b) (hac : a ≠ c) (hbc : b ≠ c) (f : ℝ → ℝ)
    (hf : ∀ r, f r = f 0 + (f 1 - f (-1)) / 2 * r + (f 1 + f (-1) - 2 * f 0) / 2 * r ^ 2)
    (ha : f a = 0) (hb : f b = 0) (hc : f c = 0) (r : ℝ) : f r = 0 := by
  rw [hf] at ha hb hc ⊢
  generalize (f 1 + f (-1) - 2 * f 0) / 2 = γ at *
  generalize f 0 = α, (f 1 - f (-1)) / 2 = β at *
  have e1 : β + γ * (a + b) = 0 := (mul_eq_zero.1 (show (β + γ * (a + b)) * (a - b) = 0 by
    linear_combination ha - hb)).resolve_right (sub_ne_zero.2 hab)
  have e2 : β + γ * (a + c) = 0 := (mul_eq_zero.1 (show (β + γ * (a + c)) * (a - c) = 0 by
    linear_combination ha - hc)).resolve_right (sub_ne_zero.2 hac)
  have e3 : γ = 0 := (mul_eq_zero.1 (show γ * (b - c) = 0 by linear_combination e1 - e2)).resolve_right (sub_ne_zero.2 hbc)
  rw [e3] at e1 ha ⊢
  have e4 : β = 0 := by linarith
  rw [e4] at ha ⊢
  linarith

/-- C95: a vector without strains at nine points on a grid of an eight-node parallelogram is a rigid motion of its nodes. -/
theorem C95_serendipity_rigid {n : Nat} {x : Cell × FemElement ℝ} (h : Body 2 n x)
    (hiso : x.2.interp = x.1.coordElement.interp) (hI : x.2.interp = Interpolation.quadSerendipity)
    (hbox : Straight 2 x.1.coordElement) (hG : Grid9 x.1.rule) {pts : List (ℝ × IpData)} (hp : x.1.Points pts)
    (hdet : ∀ p ∈ pts, p.2.jacobian.det ≠ 0) (R : Nat → ℝ)
    (h0 : ∀ p ∈ pts, ∀ y ∈ strains 2 (gradients x.2 p.2) (restrict 2 x.2 R), y = 0) :
    ∃ (t : Nat → ℝ) (W : Nat → Nat → ℝ), (∀ a b, W a b = -W b a) ∧ RigidNodes 2 x t W R := by
  obtain ⟨a, b, e, hab, hae, hbe, hg⟩ := hG
  have hpt : ∀ r s : ℝ, (r = a ∨ r = b ∨ r = e) → (s = a ∨ s = b ∨ s = e) → ∃ p ∈ pts, p.2.coords = [r, s] := by
    intro r s hr hs
    obtain ⟨w, hw⟩ := hg r s hr hs
    exact rule_point h hp hw
  obtain ⟨p₀, m0, _⟩ := hpt a a (by simp) (by simp)
  have hN : x.2.interp.numNodes = 8 := by rw [hI]; rfl
  refine affine_rigid h hiso hbox hp (List.ne_nil_of_mem m0) hdet ?_ ?_ ?_ R h0
  · intro xi c hc
    rw [hN, hI]
    interval_cases c <;> simp only [sum_range_succ, sum_range_zero, slopeOf, Interpolation.quadSerendipity,
      Interpolation.quadSerendipityDeriv, List.getD_cons_zero, List.getD_cons_succ] <;> ring
  · intro xi c hc d hd
    rw [hN, hI]
    interval_cases c <;> interval_cases d <;> simp only [sum_range_succ, sum_range_zero, slopeOf, refNode,
      Interpolation.quadSerendipity, Interpolation.quadSerendipityDeriv, Interpolation.quadSerendipityCoords,
      List.getD_cons_zero, List.getD_cons_succ] <;> norm_num <;> ring
  · intro V hV
    rw [hN, hI] at hV
    rw [hN, hI]
    have key : ∀ c < 2, ∀ d < 2, ∀ F : ℝ → ℝ → ℝ, (∀ r s, F r s =
        ∑ i ∈ range 8, V i c * slopeOf Interpolation.quadSerendipity [r, s] i d +
          ∑ i ∈ range 8, V i d * slopeOf Interpolation.quadSerendipity [r, s] i c) → ∀ r s, F r s = 0 := by
      intro c hc d hd F hF
      have hr : ∀ s r, F r s = F 0 s + (F 1 s - F (-1) s) / 2 * r + (F 1 s + F (-1) s - 2 * F 0 s) / 2 * r ^ 2 := by
        intro s r
        simp only [hF]
        interval_cases c <;> interval_cases d <;> simp only [sum_range_succ, sum_range_zero, slopeOf,
          Interpolation.quadSerendipity, Interpolation.quadSerendipityDeriv, List.getD_cons_zero,
          List.getD_cons_succ] <;> ring
      have hs : ∀ r s, F r s = F r 0 + (F r 1 - F r (-1)) / 2 * s + (F r 1 + F r (-1) - 2 * F r 0) / 2 * s ^ 2 := by
        intro r s
        simp only [hF]
        interval_cases c <;> interval_cases d <;> simp only [sum_range_succ, sum_range_zero, slopeOf,
          Interpolation.quadSerendipity, Interpolation.quadSerendipityDeriv, List.getD_cons_zero,
          List.getD_cons_succ] <;> ring
      have hz : ∀ r s : ℝ, (r = a ∨ r = b ∨ r = e) → (s = a ∨ s = b ∨ s = e) → F r s = 0 := by
        intro r s h1 h2
        obtain ⟨p, hm, hc'⟩ := hpt r s h1 h2
        rw [hF, ← hc']
        exact hV p hm c hc d hd
      have hline : ∀ s : ℝ, (s = a ∨ s = b ∨ s = e) → ∀ r, F r s = 0 := fun s h1 r =>
        quadratic_zero hab hae hbe (fun r => F r s) (hr s) (hz a s (by simp) h1) (hz b s (by simp) h1)
          (hz e s (by simp) h1) r
      exact fun r s => quadratic_zero hab hae hbe (fun s => F r s) (hs r) (hline a (by simp) r) (hline b (by simp) r)
        (hline e (by simp) r) s
    have k00 := key 0 (by norm_num) 0 (by norm_num) _ fun _ _ => rfl
    have k01 := key 0 (by norm_num) 1 (by norm_num) _ fun _ _ => rfl
    have k11 := key 1 (by norm_num) 1 (by norm_num) _ fun _ _ => rfl
    simp only [sum_range_succ, sum_range_zero, slopeOf, Interpolation.quadSerendipity,
      Interpolation.quadSerendipityDeriv, List.getD_cons_zero, List.getD_cons_succ] at k00 k01 k11
    have a1 := k00 0 (-1)
    have a2 := k00 1 (-1)
    have a3 := k00 0 1
    have a4 := k00 1 1
    have a5 := k00 0 0
    have d1 := k11 (-1) 0
    have d2 := k11 (-1) 1
    have d3 := k11 1 0
    have d4 := k11 1 1
    have d5 := k11 0 0
    have b1 := k01 0 0
    have b2 := k01 1 0
    have b3 := k01 0 1
    clear k00 k01 k11 key hV
    norm_num at a1 a2 a3 a4 a5 b1 b2 b3 d1 d2 d3 d4 d5
    have u1 : V 1 0 = V 0 0 := by linarith only [a1, a2]
    have u4 : V 4 0 = V 0 0 := by linarith only [a1, a2]
    have u2 : V 2 0 = V 3 0 := by linarith only [a3, a4]
    have u6 : V 6 0 = V 3 0 := by linarith only [a3, a4]
    have u5 : V 5 0 = V 7 0 := by linarith only [a5]
    have v3 : V 3 1 = V 0 1 := by linarith only [d1, d2]
    have v7 : V 7 1 = V 0 1 := by linarith only [d1, d2]
    have v2 : V 2 1 = V 1 1 := by linarith only [d3, d4]
    have v5 : V 5 1 = V 1 1 := by linarith only [d3, d4]
    have v4 : V 4 1 = V 6 1 := by linarith only [d5]
    simp only [u1, u2, u4, u5, u6, v2, v3, v4, v5, v7] at b1 b2 b3
    have u7 : V 7 0 = (V 0 0 + V 3 0) / 2 := by linarith only [b1, b2, b3]
    have v6 : V 6 1 = (V 0 1 + V 1 1) / 2 := by linarith only [b1, b2, b3]
    have v1 : V 1 1 = V 0 1 - (V 3 0 - V 0 0) := by linarith only [b1, b2, b3]
    clear a1 a2 a3 a4 a5 b1 b2 b3 d1 d2 d3 d4 d5
    refine ⟨fun c => (V 0 c + V 2 c) / 2, fun c d => if c = 0 ∧ d = 1 then (V 3 0 - V 0 0) / 2 else
      if c = 1 ∧ d = 0 then -((V 3 0 - V 0 0) / 2) else 0, ?_, ?_⟩
    · intro c d
      by_cases hc : c = 0
      · subst hc
        by_cases hd : d = 1 <;> simp [hd]
      · by_cases hc' : c = 1
        · subst hc'
          by_cases hd : d = 0 <;> simp [hd]
        · simp [hc, hc']
    · intro i hi c hc
      have hi : i < 8 := hi
      interval_cases c <;> interval_cases i <;>
        simp [sum_range_succ, refNode, Interpolation.quadSerendipity, Interpolation.quadSerendipityCoords, u1, u2, u4, u5,
          u6, u7, v1, v2, v3, v4, v5, v6, v7] <;> ring

/-! ### Meshes -/

variable {dof n : Nat} {T : List ℝ → IpData → DMat ℝ} {cells : List (Cell × FemElement ℝ)} {m : SpMat ℝ}

/-- C95: on such plane meshes a vector without strains is one rigid motion of the whole mesh. -/
theorem C95_plane_unstrained_serendipity (hb : ∀ x ∈ cells, Body 2 n x)
    (hiso : ∀ x ∈ cells, x.2.interp = x.1.coordElement.interp) (hI : ∀ x ∈ cells, PlaneElement3 x)
    (hw : ∀ x ∈ cells, ∀ pts, x.1.Points pts → ∀ p ∈ pts, 0 < p.2.jacobian.det * p.1)
    (x₀ : Cell × FemElement ℝ) (hc : EdgeConnected cells x₀) (R : Nat → ℝ) (h0 : Unstrained 2 cells R) :
    ∃ (t : Nat → ℝ) (W : Nat → Nat → ℝ), (∀ a b, W a b = -W b a) ∧ ∀ x ∈ cells, RigidNodes 2 x t W R := by
  refine unstrained_connected R (fun x y hs t W hW hx t' W' hW' hy => plane_extend R hs t W hW hx t' W' hW' hy) (fun x hx => ?_)
    x₀ hc.1 hc.2
  have hdet := points_det hw x hx
  rcases hI x hx with (hI | ⟨hI, hS, hG⟩) | ⟨hI, hS, hG⟩
  · exact C95_plane_rigid (hb x hx) (hiso x hx) hI hdet R (h0 x hx)
  · obtain ⟨pts, hp⟩ := C77_points (hb x hx)
    exact C95_triangleQuadratic_rigid (hb x hx) (hiso x hx) hI hS hG hp (hdet pts hp) R (h0 x hx pts hp)
  · obtain ⟨pts, hp⟩ := C77_points (hb x hx)
    exact C95_serendipity_rigid (hb x hx) (hiso x hx) hI hS hG hp (hdet pts hp) R (h0 x hx pts hp)

/-- C95 (kernel): on edge-connected plane meshes of linear and quadratic triangles, bilinear quadrilaterals and eight-node
parallelograms with definite tangents the stiffness matrix maps exactly the rigid motions to zero. -/
theorem C95_plane_kernel_serendipity (k : Stiff dof 2 n T cells m) (hpd : Definite 2 T)
    (hw : ∀ x ∈ cells, ∀ pts, x.1.Points pts → ∀ p ∈ pts, 0 < p.2.jacobian.det * p.1)
    (hiso : ∀ x ∈ cells, x.2.interp = x.1.coordElement.interp) (hI : ∀ x ∈ cells, PlaneElement3 x)
    (x₀ : Cell × FemElement ℝ) (hc : EdgeConnected cells x₀) (R : Nat → ℝ) :
    (∀ i < n, ∑ j ∈ range n, m.entry i j * R j = 0) ↔
      ∃ (t : Nat → ℝ) (W : Nat → Nat → ℝ), (∀ a b, W a b = -W b a) ∧ ∀ x ∈ cells, RigidNodes 2 x t W R :=
  kernel_of_rigid k hpd hw hiso (fun R h => C95_plane_unstrained_serendipity k.body hiso hI hw x₀ hc R h) R

/-- C95 (solvable): with supports that exclude rigid motions the equations have exactly one solution. -/
theorem C95_plane_solvable_serendipity (k : Stiff dof 2 n T cells m) (hpd : Definite 2 T)
    (hw : ∀ x ∈ cells, ∀ pts, x.1.Points pts → ∀ p ∈ pts, 0 < p.2.jacobian.det * p.1)
    (hiso : ∀ x ∈ cells, x.2.interp = x.1.coordElement.interp) (hI : ∀ x ∈ cells, PlaneElement3 x)
    (x₀ : Cell × FemElement ℝ) (hc : EdgeConnected cells x₀)
    (hall : ∀ g < n, ∃ x ∈ cells, ∃ i < x.2.nodes.length, ∃ a < 2, number x.2 i a = g) (prescribed : Nat → Prop)
    (hsup : NodesSupported 2 cells prescribed) (value load : Nat → ℝ) :
    ∃! U : Fin n → ℝ, ∀ i : Fin n, (prescribed i → U i = value i) ∧
      (¬ prescribed i → ∑ j : Fin n, m.entry i j * U j = load i) :=
  solvable_of_rigid k hpd hw (fun R h => C95_plane_unstrained_serendipity k.body hiso hI hw x₀ hc R h) hall prescribed hsup
    value load

/-- C101: on such plane meshes the constraints leave no motion without strains if they leave no rigid motion. -/
theorem C101_plane_held_serendipity {c : Constraints ℝ} {num : Term ℝ → Nat} (hb : ∀ x ∈ cells, Body 2 n x)
    (hw : ∀ x ∈ cells, ∀ pts, x.1.Points pts → ∀ p ∈ pts, 0 < p.2.jacobian.det * p.1)
    (hiso : ∀ x ∈ cells, x.2.interp = x.1.coordElement.interp) (hI : ∀ x ∈ cells, PlaneElement3 x)
    (x₀ : Cell × FemElement ℝ) (hc : EdgeConnected cells x₀)
    (hrigid : ∀ w : List ℝ, w.length = n → (∃ (t : Nat → ℝ) (W : Nat → Nat → ℝ), (∀ a b, W a b = -W b a) ∧
      ∀ x ∈ cells, RigidNodes 2 x t W fun i => w.getD i 0) →
      Statics.Satisfies c dof num (fun _ => 0) w → ∀ i < n, w.getD i 0 = 0) :
    Statics.Held 2 dof n cells c num :=
  fun w hwl hs hu => hrigid w hwl (C95_plane_unstrained_serendipity hb hiso hI hw x₀ hc _ hu) hs

/-! ### Examples -/

/-- An eight-node square with nine integration points. -/
noncomputable def exampleEight : Cell × FemElement ℝ :=
  (⟨0, ⟨nodesAt [[0, 0], [2, 0], [2, 2], [0, 2], [1, 0], [2, 1], [1, 2], [0, 1]], Interpolation.quadSerendipity⟩,
    [(1, [-1 / 2, -1 / 2]), (1, [0, -1 / 2]), (1, [1 / 2, -1 / 2]), (1, [-1 / 2, 0]), (1, [0, 0]), (1, [1 / 2, 0]),
      (1, [-1 / 2, 1 / 2]), (1, [0, 1 / 2]), (1, [1 / 2, 1 / 2])]⟩,
   ⟨[⟨[[0, 0]], [0, 1]⟩, ⟨[[0, 0]], [2, 3]⟩, ⟨[[0, 0]], [4, 5]⟩, ⟨[[0, 0]], [6, 7]⟩, ⟨[[0, 0]], [8, 9]⟩,
     ⟨[[0, 0]], [10, 11]⟩, ⟨[[0, 0]], [12, 13]⟩, ⟨[[0, 0]], [14, 15]⟩], Interpolation.quadSerendipity⟩)

theorem exampleEight_ok : Body 2 16 exampleEight where
  dim1 := by norm_num
  dim3 := by norm_num
  dof := ⟨by simp [exampleEight], rfl, by simp [exampleEight, Node.WF]⟩
  coord := ⟨by simp [exampleEight, nodesAt], rfl, by simp [exampleEight, nodesAt, Node.ofVector, Node.WF]⟩
  dofDim := rfl
  coordDim := rfl
  dofUnity := C77_types _ (by simp [exactTypes, exampleEight])
  coordUnity := C77_types _ (by simp [exactTypes, exampleEight])
  numbered := by simp [exampleEight, Numbered]

theorem exampleEight_weights : ∀ pts, exampleEight.1.Points pts → ∀ p ∈ pts, 0 < p.2.jacobian.det * p.1 := by
  intro pts hp p hm
  obtain ⟨_, _, h⟩ := exampleEight_ok.point hp p hm
  have hr := point_rule exampleEight_ok hp p hm
  have hv : values 2 exampleEight.1.coordElement = [0, 0, 2, 0, 2, 2, 0, 2, 1, 0, 2, 1, 1, 2, 0, 1] := by
    simp [values, exampleEight, nodesAt, Node.ofVector, component, List.range_succ]
  rw [hv, make_square2 _ _ (by simp [exampleEight, Interpolation.quadSerendipity, Interpolation.quadSerendipityDeriv])
    (by simp [exampleEight, Interpolation.quadSerendipity, Interpolation.quadSerendipityDeriv])] at h
  rw [← Res.ok.inj h]
  simp [exampleEight] at hr
  rcases hr with ⟨h1, h2⟩ | ⟨h1, h2⟩ | ⟨h1, h2⟩ | ⟨h1, h2⟩ | ⟨h1, h2⟩ | ⟨h1, h2⟩ | ⟨h1, h2⟩ | ⟨h1, h2⟩ | ⟨h1, h2⟩ <;>
    rw [h1, h2] <;>
    simp [exampleEight, Interpolation.quadSerendipity, Interpolation.quadSerendipityDeriv, Jacobian.det2,
      Jacobian.calculate, List.range_succ] <;> norm_num

/-- The square meets the hypotheses of `C95_plane_kernel_serendipity`, `C95_plane_solvable_serendipity`. -/
example : ∃ m, Stiff 0 2 16 (fun _ _ => elasticTangent 2 1 0 .planeStress) [exampleEight] m ∧
    Definite 2 (fun _ _ => elasticTangent 2 1 0 .planeStress) ∧
    (∀ x ∈ [exampleEight], ∀ pts, x.1.Points pts → ∀ p ∈ pts, 0 < p.2.jacobian.det * p.1) ∧
    (∀ x ∈ [exampleEight], x.2.interp = x.1.coordElement.interp) ∧ (∀ x ∈ [exampleEight], PlaneElement3 x) ∧
    EdgeConnected [exampleEight] exampleEight ∧
    (∀ g < 16, ∃ x ∈ [exampleEight], ∃ i < x.2.nodes.length, ∃ a < 2, number x.2 i a = g) ∧
    NodesSupported 2 [exampleEight] fun g => g = 0 ∨ g = 1 ∨ g = 3 := by
  have hel := C95_elastic 2 (by norm_num) (by norm_num) 1 0 .planeStress (by norm_num) (by norm_num) (by norm_num)
  obtain ⟨_, m, _, _, _, _, h⟩ := C95_exists ⟨[(0, 16)], [(0, 0)]⟩ 0 2 16 (fun _ _ => elasticTangent 2 1 0 .planeStress)
    (fun e d he => by rw [he]; exact hel.1) [exampleEight] [[exampleEight]] (by simp) rfl
    (fun x hx => by rw [List.mem_singleton.1 hx]; exact exampleEight_ok)
  refine ⟨m, h, hel.2.2.1, fun x hx => by rw [List.mem_singleton.1 hx]; exact exampleEight_weights,
    fun x hx => by rw [List.mem_singleton.1 hx]; rfl, ?_, ⟨by simp, fun y hy => ?_⟩, ?_, ?_⟩
  · intro x hx
    rw [List.mem_singleton.1 hx]
    refine Or.inr ⟨rfl, ⟨fun _ => 1, fun b c => if b = c then 1 else 0, fun i hi b hb => ?_⟩,
      -1 / 2, 0, 1 / 2, by norm_num, by norm_num, by norm_num, fun r s hr hs => ⟨1, ?_⟩⟩
    · have hi : i < 8 := hi
      interval_cases i <;> interval_cases b <;> simp [exampleEight, component, nodesAt, Node.ofVector, sum_range_succ,
        Interpolation.quadSerendipity, Interpolation.quadSerendipityCoords] <;> norm_num
    · rcases hr with rfl | rfl | rfl <;> rcases hs with rfl | rfl | rfl <;> simp [exampleEight]
  · rw [List.mem_singleton.1 hy]
  · intro g hg
    refine ⟨exampleEight, by simp, g / 2, by simp [exampleEight]; omega, g % 2, by omega, ?_⟩
    interval_cases g <;> simp [exampleEight, number]
  · intro t W hW h x hx i hi a ha
    have h0 := h exampleEight (by simp) 0 (by simp [exampleEight]) 0 (by norm_num) (by simp [exampleEight, number])
    have h1 := h exampleEight (by simp) 0 (by simp [exampleEight]) 1 (by norm_num) (by simp [exampleEight, number])
    have h2 := h exampleEight (by simp) 1 (by simp [exampleEight]) 1 (by norm_num) (by simp [exampleEight, number])
    simp [exampleEight, component, nodesAt, Node.ofVector, sum_range_succ] at h0 h1 h2
    have w00 : W 0 0 = 0 := by linarith [hW 0 0]
    have w11 : W 1 1 = 0 := by linarith [hW 1 1]
    have w10 : W 1 0 = 0 := by linarith
    have w01 : W 0 1 = 0 := by linarith [hW 0 1]
    interval_cases a <;> simp [sum_range_succ, w00, w11, w10, w01, h0, h1]

end Balance

end NuTo
