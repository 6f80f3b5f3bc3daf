/-
C95, continued: the kernel of the stiffness matrix of quadratic and cubic trusses on a line, with inner nodes at any place.
-/
import Verif.Props.StiffnessLine
import Verif.Props.StiffnessSerendipity

namespace NuTo

open Assembly Finset

namespace Balance

/-! ### Specification -/

/-- A truss with as many different integration points as its order. -/
def LineElement (x : Cell × FemElement ℝ) : Prop :=
  (x.2.interp = Interpolation.trussLinear ∧ x.1.rule ≠ []) ∨
  (x.2.interp = Interpolation.trussQuadratic ∧ ∃ v w a b : ℝ, a ≠ b ∧ (v, [a]) ∈ x.1.rule ∧ (w, [b]) ∈ x.1.rule) ∨
  (x.2.interp = Interpolation.truss3rdOrder ∧ ∃ u v w a b c : ℝ, a ≠ b ∧ a ≠ c ∧ b ≠ c ∧ (u, [a]) ∈ x.1.rule ∧
    (v, [b]) ∈ x.1.rule ∧ (w, [c]) ∈ x.1.rule)

/-! ### One element -/

/-- On a line the derivative along the reference element vanishes where the strain vanishes. -/
theorem line_slope {n : Nat} {x : Cell × FemElement ℝ} (h : Body 1 n x) (hiso : x.2.interp = x.1.coordElement.interp)
    {pts : List (ℝ × IpData)} (hp : x.1.Points pts) (hdet : ∀ p ∈ pts, p.2.jacobian.det ≠ 0) (R : Nat → ℝ)
    (h0 : ∀ p ∈ pts, ∀ y ∈ strains 1 (gradients x.2 p.2) (restrict 1 x.2 R), y = 0) {w r : ℝ} (hr : (w, [r]) ∈ x.1.rule) :
    ∑ i ∈ range x.2.interp.numNodes, R (number x.2 i 0) * slopeOf x.2.interp [r] i 0 = 0 := by
  obtain ⟨p, hm, hc⟩ := rule_point h hp hr
  have := (iso_point h hiso hp p hm (hdet p hm)).2 R 0 (by norm_num) 0 (by norm_num)
  rw [hc] at this
  rw [show ∑ i ∈ range x.2.interp.numNodes, R (number x.2 i 0) * slopeOf x.2.interp [r] i 0 = _ from this.symm]
  have hz := h0 p hm (displacementGradient 1 (gradients x.2 p.2) (restrict 1 x.2 R) 0 0) (by simp [strains])
  simp [hz]

/-- C95: a vector without strains at as many points of a truss as its order is a translation of its nodes. -/
theorem C95_line_rigid {n : Nat} {x : Cell × FemElement ℝ} (h : Body 1 n x)
    (hiso : x.2.interp = x.1.coordElement.interp) (hI : LineElement x)
    {pts : List (ℝ × IpData)} (hp : x.1.Points pts) (hdet : ∀ p ∈ pts, p.2.jacobian.det ≠ 0) (R : Nat → ℝ)
    (h0 : ∀ p ∈ pts, ∀ y ∈ strains 1 (gradients x.2 p.2) (restrict 1 x.2 R), y = 0) :
    ∃ (t : Nat → ℝ) (W : Nat → Nat → ℝ), (∀ a b, W a b = -W b a) ∧ RigidNodes 1 x t W R := by
  rcases hI with ⟨hI, hne⟩ | ⟨hI, v, w, a, b, hab, ha, hb⟩ | ⟨hI, u, v, w, a, b, c, hab, hac, hbc, ha, hb, hc⟩
  · exact C95_truss_rigid h hiso hI hne hp hdet R h0
  · have ea := line_slope h hiso hp hdet R h0 ha
    have eb := line_slope h hiso hp hdet R h0 hb
    have hN : x.2.interp.numNodes = 3 := by rw [hI]; rfl
    refine ⟨fun _ => R (number x.2 0 0), fun _ _ => 0, fun _ _ => by simp, (rigid_line fun _ _ => by simp).2 ?_⟩
    intro i hi
    rw [h.dof.count, hN] at hi
    rw [hN, hI] at ea eb
    simp only [sum_range_succ, sum_range_zero, slopeOf, Interpolation.trussQuadratic, Interpolation.trussQuadraticDeriv,
      List.getD_cons_zero, List.getD_cons_succ] at ea eb
    generalize h00 : R (number x.2 0 0) = y₀, h1 : R (number x.2 1 0) = y₁, h2 : R (number x.2 2 0) = y₂ at *
    have e1 : y₀ - 2 * y₁ + y₂ = 0 := (mul_eq_zero.1 (show (y₀ - 2 * y₁ + y₂) * (a - b) = 0 by
      linear_combination ea - eb)).resolve_right (sub_ne_zero.2 hab)
    have e2 : y₂ = y₀ := by linear_combination 2 * ea - 2 * a * e1
    interval_cases i
    · exact h00
    · rw [h1]; linarith
    · rw [h2]; linarith
  · have ea := line_slope h hiso hp hdet R h0 ha
    have eb := line_slope h hiso hp hdet R h0 hb
    have ec := line_slope h hiso hp hdet R h0 hc
    have hN : x.2.interp.numNodes = 4 := by rw [hI]; rfl
    refine ⟨fun _ => R (number x.2 0 0), fun _ _ => 0, fun _ _ => by simp, (rigid_line fun _ _ => by simp).2 ?_⟩
    have key := quadratic_zero hab hac hbc (fun r => ∑ i ∈ range x.2.interp.numNodes,
      R (number x.2 i 0) * slopeOf x.2.interp [r] i 0) (by
        intro r
        rw [hN, hI]
        simp only [sum_range_succ, sum_range_zero, slopeOf, Interpolation.truss3rdOrder, Interpolation.truss3rdOrderDeriv,
          List.getD_cons_zero, List.getD_cons_succ]
        ring) ea eb ec
    have k0 := key 0
    have k1 := key 1
    have k2 := key (-1)
    intro i hi
    rw [h.dof.count, hN] at hi
    rw [hN, hI] at k0 k1 k2
    simp only [sum_range_succ, sum_range_zero, slopeOf, Interpolation.truss3rdOrder, Interpolation.truss3rdOrderDeriv,
      List.getD_cons_zero, List.getD_cons_succ] at k0 k1 k2
    generalize h00 : R (number x.2 0 0) = y₀, h1 : R (number x.2 1 0) = y₁, h2 : R (number x.2 2 0) = y₂,
      h3 : R (number x.2 3 0) = y₃ at *
    interval_cases i
    · exact h00
    · rw [h1]; linarith
    · rw [h2]; linarith
    · rw [h3]; linarith

/-! ### Meshes -/

variable {dof n : Nat} {T : List ℝ → IpData → DMat ℝ} {cells : List (Cell × FemElement ℝ)} {m : SpMat ℝ}

/-- C95: on a connected mesh of such trusses a vector without strains is one translation. -/
theorem C95_trusses_unstrained (hb : ∀ x ∈ cells, Body 1 n x) (hiso : ∀ x ∈ cells, x.2.interp = x.1.coordElement.interp)
    (hI : ∀ x ∈ cells, LineElement x)
    (hw : ∀ x ∈ cells, ∀ pts, x.1.Points pts → ∀ p ∈ pts, 0 < p.2.jacobian.det * p.1)
    (x₀ : Cell × FemElement ℝ) (hc : LineConnected cells x₀) (R : Nat → ℝ) (h0 : Unstrained 1 cells R) :
    ∃ (t : Nat → ℝ) (W : Nat → Nat → ℝ), (∀ a b, W a b = -W b a) ∧ ∀ x ∈ cells, RigidNodes 1 x t W R := by
  refine unstrained_connected R ?_ (fun x hx => ?_) x₀ hc.1 hc.2
  · rintro x y ⟨i, hi, j, hj, hs⟩ t W hW hx t' W' hW' hy
    rw [rigid_line hW] at hx ⊢
    rw [rigid_line hW'] at hy
    have : t' 0 = t 0 := by rw [← hx i hi, ← hy j hj, hs]
    rw [← this]
    exact hy
  · obtain ⟨pts, hp⟩ := C77_points (hb x hx)
    exact C95_line_rigid (hb x hx) (hiso x hx) (hI x hx) hp (points_det hw x hx pts hp) R (h0 x hx pts hp)

/-- C95 (kernel on a line): on a connected mesh of linear, quadratic and cubic trusses with definite tangents the stiffness
matrix maps exactly the translations to zero. -/
theorem C95_trusses_kernel (k : Stiff dof 1 n T cells m) (hpd : Definite 1 T)
    (hw : ∀ x ∈ cells, ∀ pts, x.1.Points pts → ∀ p ∈ pts, 0 < p.2.jacobian.det * p.1)
    (hiso : ∀ x ∈ cells, x.2.interp = x.1.coordElement.interp) (hI : ∀ x ∈ cells, LineElement x)
    (x₀ : Cell × FemElement ℝ) (hc : LineConnected cells x₀) (R : Nat → ℝ) :
    (∀ i < n, ∑ j ∈ range n, m.entry i j * R j = 0) ↔ Shifted cells R := by
  rw [kernel_of_rigid k hpd hw hiso (fun R h => C95_trusses_unstrained k.body hiso hI hw x₀ hc R h) R]
  constructor
  · rintro ⟨t, W, hW, h⟩
    exact ⟨t 0, fun x hx => (rigid_line hW).1 (h x hx)⟩
  · rintro ⟨t, h⟩
    exact ⟨fun _ => t, fun _ _ => 0, fun _ _ => by simp, fun x hx => (rigid_line fun _ _ => by simp).2 (h x hx)⟩

/-- C95 (solvable on a line): if at least one dof is prescribed the equations have exactly one solution, for all prescribed
values and all loads. -/
theorem C95_trusses_solvable (k : Stiff dof 1 n T cells m) (hpd : Definite 1 T)
    (hw : ∀ x ∈ cells, ∀ pts, x.1.Points pts → ∀ p ∈ pts, 0 < p.2.jacobian.det * p.1)
    (hiso : ∀ x ∈ cells, x.2.interp = x.1.coordElement.interp) (hI : ∀ x ∈ cells, LineElement x)
    (x₀ : Cell × FemElement ℝ) (hc : LineConnected cells x₀)
    (hall : ∀ g < n, ∃ x ∈ cells, ∃ i < x.2.nodes.length, number x.2 i 0 = g) (prescribed : Nat → Prop)
    (hsup : ∃ g < n, prescribed g) (value load : Nat → ℝ) :
    ∃! U : Fin n → ℝ, ∀ i : Fin n, (prescribed i → U i = value i) ∧
      (¬ prescribed i → ∑ j : Fin n, m.entry i j * U j = load i) := by
  refine solvable_of_rigid k hpd hw (fun R h => C95_trusses_unstrained k.body hiso hI hw x₀ hc R h)
    (fun g hg => ?_) prescribed ?_ value load
  · obtain ⟨x, hx, i, hi, h⟩ := hall g hg
    exact ⟨x, hx, i, hi, 0, by norm_num, h⟩
  · intro t W hW h x hx i hi a ha
    have w : W 0 0 = 0 := by linarith [hW 0 0]
    obtain ⟨g, hg, hpg⟩ := hsup
    obtain ⟨y, hy, j, hj, hyj⟩ := hall g hg
    have := h y hy j hj 0 (by norm_num) (by rw [hyj]; exact hpg)
    obtain rfl : a = 0 := by omega
    simp [w] at this ⊢
    exact this

/-! ### Example -/

/-- A quadratic truss whose inner node is not in its middle. -/
noncomputable def exampleBar : Cell × FemElement ℝ :=
  (⟨0, ⟨nodesAt [[0], [9 / 10], [2]], Interpolation.trussQuadratic⟩, [(1, [-1 / 2]), (1, [1 / 2])]⟩,
   ⟨[⟨[[0]], [0]⟩, ⟨[[0]], [1]⟩, ⟨[[0]], [2]⟩], Interpolation.trussQuadratic⟩)

theorem exampleBar_ok : Body 1 3 exampleBar where
  dim1 := by norm_num
  dim3 := by norm_num
  dof := ⟨by simp [exampleBar], rfl, by simp [exampleBar, Node.WF]⟩
  coord := ⟨by simp [exampleBar, nodesAt], rfl, by simp [exampleBar, nodesAt, Node.ofVector, Node.WF]⟩
  dofDim := rfl
  coordDim := rfl
  dofUnity := C77_types _ (by simp [exactTypes, exampleBar])
  coordUnity := C77_types _ (by simp [exactTypes, exampleBar])
  numbered := by simp [exampleBar, Numbered]

/-- The truss meets the hypotheses of `C95_trusses_kernel` and `C95_trusses_solvable`. -/
example : ∃ m, Stiff 0 1 3 (fun _ _ => elasticTangent 1 1 0 .planeStress) [exampleBar] m ∧
    Definite 1 (fun _ _ => elasticTangent 1 1 0 .planeStress) ∧
    (∀ x ∈ [exampleBar], ∀ pts, x.1.Points pts → ∀ p ∈ pts, 0 < p.2.jacobian.det * p.1) ∧
    (∀ x ∈ [exampleBar], x.2.interp = x.1.coordElement.interp) ∧ (∀ x ∈ [exampleBar], LineElement x) ∧
    LineConnected [exampleBar] exampleBar ∧
    (∀ g < 3, ∃ x ∈ [exampleBar], ∃ i < x.2.nodes.length, number x.2 i 0 = g) := by
  have hel := C95_elastic 1 (by norm_num) (by norm_num) 1 0 .planeStress (by norm_num) (by norm_num) (by norm_num)
  obtain ⟨_, m, _, _, _, _, h⟩ := C95_exists ⟨[(0, 3)], [(0, 0)]⟩ 0 1 3 (fun _ _ => elasticTangent 1 1 0 .planeStress)
    (fun e d he => by rw [he]; exact hel.1) [exampleBar] [[exampleBar]] (by simp) rfl
    (fun x hx => by rw [List.mem_singleton.1 hx]; exact exampleBar_ok)
  refine ⟨m, h, hel.2.2.1, ?_, fun x hx => by rw [List.mem_singleton.1 hx]; rfl, ?_, ⟨by simp, fun y hy => ?_⟩, ?_⟩
  · intro x hx pts hp p hm
    obtain rfl := List.mem_singleton.1 hx
    obtain ⟨j1, j2, j3⟩ := exampleBar_ok.point hp p hm
    have hr := point_rule exampleBar_ok hp p hm
    have hd := (Jacobian.C40_square j3 (by rw [j1, j2])).1
    rw [j1, Matrix.det_fin_one] at hd
    have he := Jacobian.C40_entries j3 0 0
    have hv : values 1 exampleBar.1.coordElement = [0, 9 / 10, 2] := by
      simp [values, exampleBar, nodesAt, Node.ofVector, component, List.range_succ]
    rw [hv] at he
    rw [hd]
    simp only [Jacobian.toMat, Matrix.of_apply]
    simp only [Fin.isValue, Fin.val_zero, he]
    simp only [exampleBar, List.mem_cons, Prod.mk.injEq, List.not_mem_nil, or_false] at hr
    rcases hr with ⟨h1, h2⟩ | ⟨h1, h2⟩ <;> rw [h1, h2] <;>
      simp [exampleBar, Interpolation.trussQuadratic, Interpolation.trussQuadraticDeriv, sum_range_succ, j1] <;> norm_num
  · intro x hx
    rw [List.mem_singleton.1 hx]
    exact Or.inr (Or.inl ⟨rfl, 1, 1, -1 / 2, 1 / 2, by norm_num, by simp [exampleBar], by simp [exampleBar]⟩)
  · rw [List.mem_singleton.1 hy]
  · intro g hg
    exact ⟨exampleBar, by simp, g, by simp [exampleBar]; omega, by interval_cases g <;> simp [exampleBar, number]⟩

end Balance

end NuTo
