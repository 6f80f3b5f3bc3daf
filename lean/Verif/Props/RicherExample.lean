/-
C119: a bar that meets the hypotheses.
-/
import Verif.Props.RicherTypes

namespace NuTo

open Assembly Finset Balance Solve Statics Quasistatic ElasticStep Reactions Interpolation

namespace BestApproximation

/-! ### Example -/

/-- A bar of length 2 with two points of integration, displacements linear or quadratic. -/
noncomputable def exBar : Cell × FemElement ℝ × FemElement ℝ :=
  (⟨0, ⟨nodesAt [[0], [2]], trussLinear⟩, [(1, [-1 / 2]), (1, [1 / 2])]⟩,
   ⟨[⟨[[0]], [0]⟩, ⟨[[0]], [1]⟩], trussLinear⟩, ⟨[⟨[[0]], [0]⟩, ⟨[[0]], [2]⟩, ⟨[[0]], [1]⟩], trussQuadratic⟩)

theorem exBar_coarse : Body 1 2 (exBar.1, exBar.2.1) where
  dim1 := by norm_num
  dim3 := by norm_num
  dof := ⟨by simp [exBar], rfl, by simp [exBar, Node.WF]⟩
  coord := ⟨by simp [exBar, nodesAt], rfl, by simp [exBar, nodesAt, Node.ofVector, Node.WF]⟩
  dofDim := rfl
  coordDim := rfl
  dofUnity := C77_types _ (by simp [exactTypes, exBar])
  coordUnity := C77_types _ (by simp [exactTypes, exBar])
  numbered := by simp [exBar, Numbered]

theorem exBar_fine : Body 1 3 (exBar.1, exBar.2.2) where
  dim1 := by norm_num
  dim3 := by norm_num
  dof := ⟨by simp [exBar], rfl, by simp [exBar, Node.WF]⟩
  coord := ⟨by simp [exBar, nodesAt], rfl, by simp [exBar, nodesAt, Node.ofVector, Node.WF]⟩
  dofDim := rfl
  coordDim := rfl
  dofUnity := C77_types _ (by simp [exactTypes, exBar])
  coordUnity := C77_types _ (by simp [exactTypes, exBar])
  numbered := by simp [exBar, Numbered]

/-- The first node is held. -/
noncomputable def exBarHeld : Constraints ℝ := ⟨[(0, [⟨⟨1, 0, 1⟩, [], fun _ => 0⟩])], [(1, 0)], []⟩

theorem exBarHeld_eqs : exBarHeld.equations 0 = [⟨⟨1, 0, 1⟩, [], fun _ => 0⟩] := by
  simp [exBarHeld, Constraints.equations, OMap.find?]

/-- the dofs are the components of one node -/
noncomputable def exBarStore : NodeStore ℝ := fun _ => ⟨[[0, 0, 0]], [0, 1, 2]⟩

/-- What is known about the points of integration. -/
theorem exBar_points : ∃ d0 d1 : IpData, exBar.1.Points [(1, d0), (1, d1)] ∧ d0.coords = [-1 / 2] ∧ d1.coords = [1 / 2] ∧
    ∀ d, d = d0 ∨ d = d1 → d.jacobian.rows = 1 ∧ d.jacobian.cols = 1 ∧ d.jacobian.det = 1 ∧ d.jacobian.inv 0 0 = 1 := by
  obtain ⟨d0, a1, a2, a3, a4, a5⟩ := exBar_coarse.jacobian 0 [-1 / 2]
  obtain ⟨d1, b1, b2, b3, b4, b5⟩ := exBar_coarse.jacobian 1 [1 / 2]
  have hp : exBar.1.Points [(1, d0), (1, d1)] := List.Forall₂.cons ⟨rfl, a1⟩ (List.Forall₂.cons ⟨rfl, b1⟩ List.Forall₂.nil)
  refine ⟨d0, d1, hp, ?_, ?_, ?_⟩
  · exact a2
  · exact b2
  · intro d hd
    obtain ⟨r, c, h⟩ := exBar_coarse.point hp (1, d) (by rcases hd with rfl | rfl <;> simp)
    have hv : values 1 exBar.1.coordElement = [0, 2] := by
      simp [values, exBar, nodesAt, Node.ofVector, component, List.range_succ]
    rw [hv, make_square1 _ _ (by simp [exBar, trussLinear, trussLinearDeriv]) (by simp [exBar, trussLinear, trussLinearDeriv])] at h
    refine ⟨r, c, ?_⟩
    have h' := Res.ok.inj h
    dsimp only at h'
    rw [← h']
    simp [exBar, trussLinear, trussLinearDeriv, Jacobian.det1, Jacobian.inv1, Jacobian.calculate, List.range_succ]

theorem exBar_problem {e : FemElement ℝ} (n : Nat) (hn : 0 < n) (hb : Body 1 n (exBar.1, e)) :
    Problem 0 1 n 1 0 ⟨[(0, n)], [(0, 0)]⟩ [(exBar.1, e)] [[(exBar.1, e)]] exBarStore exBarHeld
      (fun t => t.comp.toNat) where
  dim1 := by norm_num
  dim3 := by norm_num
  stiff := by norm_num
  poisson := by norm_num
  body := by simpa using hb
  positive := by
    intro x hx pts hp p hm
    obtain rfl := List.mem_singleton.1 hx
    obtain ⟨d0, d1, h1, _, _, h4⟩ := exBar_points
    rw [points_unique h1 hp] at hm
    simp only [List.mem_cons, List.not_mem_nil, or_false] at hm
    rcases hm with rfl | rfl
    · rw [(h4 d0 (Or.inl rfl)).2.2.1]
      norm_num
    · rw [(h4 d1 (Or.inr rfl)).2.2.1]
      norm_num
  size := rfl
  schedule := by simp
  valid := by
    rw [exBarHeld_eqs]
    refine ⟨?_, by simp, ?_⟩
    · intro e he t ht
      obtain rfl := List.mem_singleton.1 he
      simp only [List.mem_cons, List.not_mem_nil, or_false] at ht
      subst ht
      simp [Term.dofNumber, Node.getDofNumber, exBarStore, hn]
    · intro e _ f hf t ht
      obtain rfl := List.mem_singleton.1 hf
      simp at ht
  unit := by
    rw [exBarHeld_eqs]
    simp
  tiny := by
    rw [exBarHeld_eqs]
    intro e he t ht
    obtain rfl := List.mem_singleton.1 he
    simp at ht

theorem exBar_tangent (a b : ℝ) : bilinear (elasticTangent 1 1 0 .planeStress) [a] [b] = a * b := by
  simp [bilinear, elasticTangent, ofMatrix, LinearElastic.calculateC1]

theorem exBar_coarse_strains (d : IpData) (h : d.jacobian.rows = 1 ∧ d.jacobian.cols = 1 ∧ d.jacobian.det = 1 ∧
    d.jacobian.inv 0 0 = 1) (R : Nat → ℝ) :
    strains 1 (gradients exBar.2.1 d) (restrict 1 exBar.2.1 R) = [(R 1 - R 0) / 2] := by
  simp [strains, displacementGradient, gradients, Balance.restrict, List.range_succ, exBar, trussLinear, trussLinearDeriv, Jacobian.transform, h.2.1,
    h.2.2.2, sum_range_succ, number]
  ring

theorem exBar_fine_strains (d : IpData) (h : d.jacobian.rows = 1 ∧ d.jacobian.cols = 1 ∧ d.jacobian.det = 1 ∧
    d.jacobian.inv 0 0 = 1) (R : Nat → ℝ) (x : ℝ) (hx : d.coords = [x]) :
    strains 1 (gradients exBar.2.2 d) (restrict 1 exBar.2.2 R) = [R 0 * (x - 1 / 2) - 2 * x * R 2 + R 1 * (x + 1 / 2)] := by
  simp [strains, displacementGradient, gradients, Balance.restrict, List.range_succ, exBar, trussQuadratic, trussQuadraticDeriv, Jacobian.transform, h.2.1,
    h.2.2.2, sum_range_succ, number, hx]
  ring

/-- The bar, pulled with the force 1 at its end, meets the hypotheses of `C119_richer`. -/
example : ∃ pts : Cell × FemElement ℝ → List (ℝ × IpData),
    Problem 0 1 2 1 0 ⟨[(0, 2)], [(0, 0)]⟩ (coarse [exBar]) [[(exBar.1, exBar.2.1)]] exBarStore exBarHeld
      (fun t => t.comp.toNat) ∧
    Problem 0 1 3 1 0 ⟨[(0, 3)], [(0, 0)]⟩ (fine [exBar]) [[(exBar.1, exBar.2.2)]] exBarStore exBarHeld
      (fun t => t.comp.toNat) ∧
    (∀ y ∈ [exBar], Richer y.2.1.interp y.2.2.interp) ∧ (∀ x ∈ coarse [exBar], x.1.Points (pts x)) ∧
    (∀ x ∈ fine [exBar], x.1.Points (pts x)) ∧
    (∀ v v' : List ℝ, Sampled 1 [exBar] (fun i => v.getD i 0) (fun i => v'.getD i 0) →
      work 3 [0, 1, 0] v' = work 2 [0, 1] v) ∧
    (∀ v : List ℝ, v.length = 2 → Satisfies exBarHeld 0 (fun t => t.comp.toNat) (fun _ => 0) v → ∃ v' : List ℝ, v'.length = 3 ∧
      Satisfies exBarHeld 0 (fun t => t.comp.toNat) (fun _ => 0) v' ∧
      Sampled 1 [exBar] (fun i => v.getD i 0) fun i => v'.getD i 0) ∧
    Equilibrium 0 1 2 (elasticTangent 1 1 0 .planeStress) (coarse [exBar]) pts exBarHeld (fun t => t.comp.toNat) [0, 1]
      (fun _ => 0) [0, 2] ∧
    Equilibrium 0 1 3 (elasticTangent 1 1 0 .planeStress) (fine [exBar]) pts exBarHeld (fun t => t.comp.toNat) [0, 1, 0]
      (fun _ => 0) [0, 2, 1] := by
  obtain ⟨d0, d1, h1, h2, h3, h4⟩ := exBar_points
  have hs0 : ∀ v : List ℝ, Satisfies exBarHeld 0 (fun t => t.comp.toNat) (fun _ => 0) v ↔ v.getD 0 0 = 0 := by
    intro v
    rw [Satisfies, exBarHeld_eqs]
    simp [Equation.lhs]
  have e0 := (h4 d0 (Or.inl rfl))
  have e1 := (h4 d1 (Or.inr rfl))
  have hsamp : ∀ R R' : Nat → ℝ, Sampled 1 [exBar] R R' ↔ R' 0 = R 0 ∧ R' 2 = (R 0 + R 1) / 2 ∧ R' 1 = R 1 := by
    intro R R'
    have : Sampled 1 [exBar] R R' ↔ ∀ k < 3, R' (number exBar.2.2 k 0) =
        valueAt exBar.2.1 R (fun j => (exBar.2.2.interp.coords.getD k []).getD j 0) 0 := by
      simp only [Sampled, List.mem_singleton, forall_eq]
      exact ⟨fun h k hk => h k hk 0 (by norm_num), fun h k hk a ha => by
        obtain rfl : a = 0 := by omega
        exact h k hk⟩
    rw [this]
    have hv : ∀ x, valueAt exBar.2.1 R x 0 = (1 - x 0) / 2 * R 0 + (1 + x 0) / 2 * R 1 := by
      intro x
      simp [valueAt, exBar, trussLinear, trussLinearShape, sum_range_succ, number]
      ring
    simp only [hv]
    constructor
    · intro h
      have a0 := h 0 (by norm_num)
      have a1 := h 1 (by norm_num)
      have a2 := h 2 (by norm_num)
      simp [exBar, number, trussQuadratic, trussQuadraticCoords] at a0 a1 a2
      refine ⟨by linarith, by linarith, by linarith⟩
    · rintro ⟨a0, a1, a2⟩ k hk
      interval_cases k
      · simp [exBar, number, trussQuadratic, trussQuadraticCoords]
        linarith
      · simp [exBar, number, trussQuadratic, trussQuadraticCoords]
        linarith
      · simp [exBar, number, trussQuadratic, trussQuadraticCoords]
        linarith
  have hpc : ∀ w : List ℝ, potential 1 (elasticTangent 1 1 0 .planeStress) (coarse [exBar]) (fun _ => [(1, d0), (1, d1)]) [0, 1] w =
      ((w.getD 1 0 - w.getD 0 0) / 2) ^ 2 - w.getD 1 0 := by
    intro w
    simp only [potential, strainEnergy, coarse, List.map_cons, List.map_nil, List.sum_cons, List.sum_nil,
      exBar_coarse_strains d0 e0, exBar_coarse_strains d1 e1, exBar_tangent, e0.2.2.1, e1.2.2.1]
    simp [sum_range_succ]
    ring
  have hpf : ∀ w : List ℝ, potential 1 (elasticTangent 1 1 0 .planeStress) (fine [exBar]) (fun _ => [(1, d0), (1, d1)]) [0, 1, 0] w =
      ((w.getD 2 0 - w.getD 0 0) ^ 2 + (w.getD 1 0 - w.getD 2 0) ^ 2) / 2 - w.getD 1 0 := by
    intro w
    simp only [potential, strainEnergy, fine, List.map_cons, List.map_nil, List.sum_cons, List.sum_nil,
      exBar_fine_strains d0 e0 _ _ h2, exBar_fine_strains d1 e1 _ _ h3, exBar_tangent, e0.2.2.1, e1.2.2.1]
    simp [sum_range_succ]
    ring
  refine ⟨fun _ => [(1, d0), (1, d1)], exBar_problem 2 (by norm_num) exBar_coarse, exBar_problem 3 (by norm_num) exBar_fine,
    ?_, ?_, ?_, ?_, ?_, ⟨rfl, (hs0 _).2 rfl, ?_⟩, ⟨rfl, (hs0 _).2 rfl, ?_⟩⟩
  · intro y hy
    obtain rfl := List.mem_singleton.1 hy
    exact richer_truss
  · intro x hx
    obtain rfl := List.mem_singleton.1 hx
    exact h1
  · intro x hx
    obtain rfl := List.mem_singleton.1 hx
    exact h1
  · intro v v' h
    have := ((hsamp _ _).1 h).2.2
    simpa [work, sum_range_succ] using this
  · intro v _ hv
    have := (hs0 v).1 hv
    refine ⟨[v.getD 0 0, v.getD 1 0, (v.getD 0 0 + v.getD 1 0) / 2], rfl, (hs0 _).2 (by simpa using this), (hsamp _ _).2 ?_⟩
    simp
  · intro w _ hw
    have hw := (hs0 w).1 hw
    rw [hpc, hpc, hw]
    generalize w.getD 1 0 = y
    simp
    nlinarith [sq_nonneg (y - 2)]
  · intro w _ hw
    have hw := (hs0 w).1 hw
    rw [hpf, hpf, hw]
    generalize w.getD 1 0 = y
    generalize w.getD 2 0 = z
    simp
    nlinarith [sq_nonneg (z - 1), sq_nonneg (y - z - 1)]

/-- The strain 1 of the bar balances this force. -/
example : ∃ pts : Cell × FemElement ℝ → List (ℝ × IpData), (∀ x ∈ coarse [exBar], x.1.Points (pts x)) ∧
    Balanced 0 1 2 (elasticTangent 1 1 0 .planeStress) (coarse [exBar]) pts exBarHeld (fun t => t.comp.toNat) [0, 1]
      fun _ _ => [1] := by
  obtain ⟨d0, d1, h1, h2, h3, h4⟩ := exBar_points
  have e0 := (h4 d0 (Or.inl rfl))
  have e1 := (h4 d1 (Or.inr rfl))
  refine ⟨fun _ => [(1, d0), (1, d1)], fun x hx => ?_, fun _ _ _ _ => rfl, fun w _ hw => ?_⟩
  · obtain rfl := List.mem_singleton.1 hx
    exact h1
  · rw [Satisfies, exBarHeld_eqs] at hw
    have hw : w.getD 0 0 = 0 := by simpa [Equation.lhs] using hw
    have hd : ∀ a : ℝ, dot (apply (elasticTangent 1 1 0 .planeStress) [1]) [a] = a := fun a => by
      rw [dot_apply _ [a] [1] rfl, exBar_tangent, mul_one]
    simp only [stressWork, coarse, List.map_cons, List.map_nil, List.sum_cons, List.sum_nil,
      exBar_coarse_strains d0 e0, exBar_coarse_strains d1 e1, hd, e0.2.2.1, e1.2.2.1, hw]
    simp [work, sum_range_succ]

end BestApproximation

end NuTo
