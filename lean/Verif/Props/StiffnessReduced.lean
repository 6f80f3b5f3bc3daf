/-
C95, continued: an eight-node quadrilateral with four integration points has a motion without strains that is not rigid.
-/
import Verif.Props.StiffnessSerendipity

namespace NuTo

open Assembly Finset

namespace Balance

/-- A square eight-node element with the four integration points of a Gauss rule, `q * q = 1 / 3`. -/
noncomputable def exampleReduced (q : ℝ) : Cell × FemElement ℝ :=
  (⟨0, ⟨nodesAt [[-1, -1], [1, -1], [1, 1], [-1, 1], [0, -1], [1, 0], [0, 1], [-1, 0]], Interpolation.quadSerendipity⟩,
    [(1, [-q, -q]), (1, [q, -q]), (1, [-q, q]), (1, [q, q])]⟩,
   ⟨[⟨[[0, 0]], [0, 1]⟩, ⟨[[0, 0]], [2, 3]⟩, ⟨[[0, 0]], [4, 5]⟩, ⟨[[0, 0]], [6, 7]⟩, ⟨[[0, 0]], [8, 9]⟩,
     ⟨[[0, 0]], [10, 11]⟩, ⟨[[0, 0]], [12, 13]⟩, ⟨[[0, 0]], [14, 15]⟩], Interpolation.quadSerendipity⟩)

theorem exampleReduced_ok (q : ℝ) : Body 2 16 (exampleReduced q) where
  dim1 := by norm_num
  dim3 := by norm_num
  dof := ⟨by simp [exampleReduced], rfl, by simp [exampleReduced, Node.WF]⟩
  coord := ⟨by simp [exampleReduced, nodesAt], rfl, by simp [exampleReduced, nodesAt, Node.ofVector, Node.WF]⟩
  dofDim := rfl
  coordDim := rfl
  dofUnity := C77_types _ (by simp [exactTypes, exampleReduced])
  coordUnity := C77_types _ (by simp [exactTypes, exampleReduced])
  numbered := by simp [exampleReduced, Numbered]

/-- The displacements `(r (3 s² - 1), -s (3 r² - 1))` of the nodes. -/
def reducedMode (g : Nat) : ℝ := [-2, 2, 2, 2, 2, -2, -2, -2, 0, -1, -1, 0, 0, 1, 1, 0].getD g 0

theorem reduced_jacobian (r s : ℝ) (b c : Nat) (hb : b < 2) (hc : c < 2) :
    Jacobian.calculate 2 [-1, -1, 1, -1, 1, 1, -1, 1, 0, -1, 1, 0, 0, 1, -1, 0]
      (Interpolation.quadSerendipityDeriv fun k => [r, s].getD k 0) b c = if b = c then 1 else 0 := by
  interval_cases b <;> interval_cases c <;>
    simp [Interpolation.quadSerendipityDeriv, Jacobian.calculate, List.range_succ] <;> ring

/-- C95 (counterexample): for an eight-node element with the Gauss rule of four points the kernel of the stiffness matrix
contains more than the rigid motions, whatever the law. -/
theorem C95_reduced_counterexample (q : ℝ) (hq : q * q = 1 / 3) (T : List ℝ → IpData → DMat ℝ) (m : SpMat ℝ) (dof : Nat)
    (k : Stiff dof 2 16 T [exampleReduced q] m) :
    (∀ i < 16, ∑ j ∈ range 16, m.entry i j * reducedMode j = 0) ∧
      ¬ ∃ (t : Nat → ℝ) (W : Nat → Nat → ℝ), (∀ a b, W a b = -W b a) ∧ ∀ i < 8, ∀ a < 2,
        reducedMode (number (exampleReduced q).2 i a) =
          t a + ∑ c ∈ range 2, W a c * component (exampleReduced q).1.coordElement i c := by
  constructor
  · refine C95_unstrained k _ ?_
    intro x hx pts hp p hm
    obtain rfl := List.mem_singleton.1 hx
    obtain ⟨_, _, h⟩ := (exampleReduced_ok q).point hp p hm
    obtain ⟨r, s, hc, hr, hs⟩ : ∃ r s : ℝ, p.2.coords = [r, s] ∧ r * r = 1 / 3 ∧ s * s = 1 / 3 := by
      have hr := point_rule (exampleReduced_ok q) hp p hm
      simp only [exampleReduced, List.mem_cons, Prod.mk.injEq, List.not_mem_nil, or_false] at hr
      rcases hr with ⟨-, h2⟩ | ⟨-, h2⟩ | ⟨-, h2⟩ | ⟨-, h2⟩ <;> exact ⟨_, _, h2, by linarith, by linarith⟩
    have hv : values 2 (exampleReduced q).1.coordElement = [-1, -1, 1, -1, 1, 1, -1, 1, 0, -1, 1, 0, 0, 1, -1, 0] := by
      simp [values, exampleReduced, nodesAt, Node.ofVector, component, List.range_succ]
    rw [hv, hc, make_square2 _ _ (by simp [exampleReduced, Interpolation.quadSerendipity, Interpolation.quadSerendipityDeriv])
      (by simp [exampleReduced, Interpolation.quadSerendipity, Interpolation.quadSerendipityDeriv])] at h
    have hres : restrict 2 (exampleReduced q).2 reducedMode = [-2, 2, 2, 2, 2, -2, -2, -2, 0, -1, -1, 0, 0, 1, 1, 0] := by
      simp [restrict, exampleReduced, number, reducedMode, List.range_succ]
    have hJ := (Res.ok.inj h).symm
    have hinv : ∀ b < 2, ∀ c < 2, p.2.jacobian.inv b c = if b = c then 1 else 0 := by
      intro b hb c hc'
      have e : ∀ b c : Nat, b < 2 → c < 2 → Jacobian.calculate 2 [-1, -1, 1, -1, 1, 1, -1, 1, 0, -1, 1, 0, 0, 1, -1, 0]
        ((exampleReduced q).1.coordElement.interp.deriv fun k => [r, s].getD k 0) b c = if b = c then 1 else 0 :=
          fun b c hb hc => reduced_jacobian r s b c hb hc
      have e00 := e 0 0 (by norm_num) (by norm_num)
      have e01 := e 0 1 (by norm_num) (by norm_num)
      have e10 := e 1 0 (by norm_num) (by norm_num)
      have e11 := e 1 1 (by norm_num) (by norm_num)
      rw [hJ]
      interval_cases b <;> interval_cases c <;> simp only [Jacobian.inv2, Jacobian.det2, e00, e01, e10, e11] <;> norm_num
    have hcols : p.2.jacobian.cols = 2 := by rw [hJ]
    rw [hres]
    have hG : ∀ i, ∀ d < 2, (gradients (exampleReduced q).2 p.2).coef i d =
        ((Interpolation.quadSerendipityDeriv fun k => [r, s].getD k 0).getD i []).getD d 0 := by
      intro i d hd
      simp only [gradients, Jacobian.transform, hcols, hc]
      interval_cases d <;> simp [List.range_succ, hinv, exampleReduced, Interpolation.quadSerendipity]
    have hrows : (gradients (exampleReduced q).2 p.2).rows = 8 := rfl
    simp only [strains, displacementGradient, hrows, sum_range_succ, sum_range_zero, hG _ 0 (by norm_num),
      hG _ 1 (by norm_num), Interpolation.quadSerendipityDeriv]
    simp only [List.mem_cons, List.not_mem_nil, or_false]
    rintro y (rfl | rfl | rfl)
    · simp
      linear_combination 3 * hs
    · simp
      linear_combination -3 * hr
    · simp
      ring
  · rintro ⟨t, W, hW, h⟩
    have h0 := h 0 (by norm_num) 0 (by norm_num)
    have h1 := h 1 (by norm_num) 0 (by norm_num)
    have e00 := hW 0 0
    simp [exampleReduced, number, component, nodesAt, Node.ofVector, sum_range_succ, reducedMode] at h0 h1
    linarith

/-- The element can be assembled. -/
example : ∃ q m, q * q = 1 / 3 ∧ Stiff 0 2 16 (fun _ _ => elasticTangent 2 1 0 .planeStress) [exampleReduced q] m := by
  have hel := C95_elastic 2 (by norm_num) (by norm_num) 1 0 .planeStress (by norm_num) (by norm_num) (by norm_num)
  obtain ⟨_, m, _, _, _, _, h⟩ := C95_exists ⟨[(0, 16)], [(0, 0)]⟩ 0 2 16 (fun _ _ => elasticTangent 2 1 0 .planeStress)
    (fun e d he => by rw [he]; exact hel.1) [exampleReduced (√(1 / 3))] [[exampleReduced (√(1 / 3))]] (by simp) rfl
    (fun x hx => by rw [List.mem_singleton.1 hx]; exact exampleReduced_ok _)
  exact ⟨_, m, Real.mul_self_sqrt (by norm_num), h⟩

end Balance

end NuTo
