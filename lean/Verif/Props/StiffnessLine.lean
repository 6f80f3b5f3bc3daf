/-
C95, continued: the kernel of the stiffness matrix of linear trusses on a line.
-/
import Verif.Props.StiffnessAffine

namespace NuTo

open Assembly Finset

namespace Balance

/-! ### Specification -/

/-- `x` and `y` share a node: same dof number. -/
def SharesNode (x y : Cell × FemElement ℝ) : Prop :=
  ∃ i < x.2.nodes.length, ∃ j < y.2.nodes.length, number x.2 i 0 = number y.2 j 0

/-- From the cell `x₀` all cells can be reached across nodes. -/
def LineConnected (cells : List (Cell × FemElement ℝ)) (x₀ : Cell × FemElement ℝ) : Prop :=
  x₀ ∈ cells ∧ ∀ y ∈ cells, Relation.ReflTransGen (fun x y => y ∈ cells ∧ SharesNode x y) x₀ y

/-- A vector that has the same value at all nodes of the mesh. -/
def Shifted (cells : List (Cell × FemElement ℝ)) (R : Nat → ℝ) : Prop :=
  ∃ t : ℝ, ∀ x ∈ cells, ∀ i < x.2.nodes.length, R (number x.2 i 0) = t

/-! ### One element -/

/-- In one dimension the rigid motions are the translations. -/
theorem rigid_line {x : Cell × FemElement ℝ} {t : Nat → ℝ} {W : Nat → Nat → ℝ} {R : Nat → ℝ} (hW : ∀ a b, W a b = -W b a) :
    RigidNodes 1 x t W R ↔ ∀ i < x.2.nodes.length, R (number x.2 i 0) = t 0 := by
  have w : W 0 0 = 0 := by linarith [hW 0 0]
  constructor
  · intro h i hi
    simpa [w] using h i hi 0 (by norm_num)
  · intro h i hi a ha
    obtain rfl : a = 0 := by omega
    simpa [w] using h i hi

/-- C95: a vector without strain at a point of a truss is a translation of its two nodes. -/
theorem C95_truss_rigid {n : Nat} {x : Cell × FemElement ℝ} (h : Body 1 n x)
    (hiso : x.2.interp = x.1.coordElement.interp) (hI : x.2.interp = Interpolation.trussLinear) (hne : x.1.rule ≠ [])
    {pts : List (ℝ × IpData)} (hp : x.1.Points pts) (hdet : ∀ p ∈ pts, p.2.jacobian.det ≠ 0) (R : Nat → ℝ)
    (h0 : ∀ p ∈ pts, ∀ y ∈ strains 1 (gradients x.2 p.2) (restrict 1 x.2 R), y = 0) :
    ∃ (t : Nat → ℝ) (W : Nat → Nat → ℝ), (∀ a b, W a b = -W b a) ∧ RigidNodes 1 x t W R := by
  have hl := hp.length_eq
  rw [List.length_zipIdx] at hl
  obtain ⟨p, hm⟩ : ∃ p, p ∈ pts := List.exists_mem_of_length_pos (by rw [← hl]; exact List.length_pos_iff.2 hne)
  have hN : x.2.interp.numNodes = 2 := by rw [hI]; rfl
  obtain ⟨X, hX⟩ : ∃ X, X = component x.1.coordElement := ⟨_, rfl⟩
  refine affine_rigid h hiso ⟨fun _ => (X 0 0 + X 1 0) / 2, fun _ _ => (X 1 0 - X 0 0) / 2, fun i hi b hb => ?_⟩ hp
    (List.ne_nil_of_mem hm) hdet ?_ ?_ ?_ R h0
  · rw [h.coord.count, ← hiso, hN] at hi
    rw [← hX, ← hiso, hI]
    interval_cases b
    interval_cases i <;> simp [Interpolation.trussLinear, Interpolation.trussLinearCoords] <;> ring
  · intro xi c hc
    rw [hN, hI]
    interval_cases c
    simp [sum_range_succ, slopeOf, Interpolation.trussLinear, Interpolation.trussLinearDeriv]
  · intro xi c hc d hd
    rw [hN, hI]
    interval_cases c
    interval_cases d
    simp [sum_range_succ, slopeOf, refNode, Interpolation.trussLinear, Interpolation.trussLinearDeriv,
      Interpolation.trussLinearCoords]
    norm_num
  · intro V hV
    have := hV p hm 0 (by norm_num) 0 (by norm_num)
    rw [hN, hI] at this
    simp [sum_range_succ, slopeOf, Interpolation.trussLinear, Interpolation.trussLinearDeriv] at this
    refine ⟨fun _ => V 0 0, fun _ _ => 0, fun _ _ => by simp, fun i hi c hc => ?_⟩
    rw [hN] at hi
    interval_cases c
    interval_cases i
    · simp
    · simp
      linarith

/-! ### Meshes -/

variable {dof n : Nat} {T : List ℝ → IpData → DMat ℝ} {cells : List (Cell × FemElement ℝ)} {m : SpMat ℝ}

/-- C95: on a connected mesh of linear trusses, each with at least one integration point, a vector without strains is one
translation. -/
theorem C95_line_unstrained (hb : ∀ x ∈ cells, Body 1 n x) (hiso : ∀ x ∈ cells, x.2.interp = x.1.coordElement.interp)
    (hI : ∀ x ∈ cells, x.2.interp = Interpolation.trussLinear) (hne : ∀ x ∈ cells, x.1.rule ≠ [])
    (hw : ∀ x ∈ cells, ∀ pts, x.1.Points pts → ∀ p ∈ pts, 0 < p.2.jacobian.det * p.1)
    (x₀ : Cell × FemElement ℝ) (hc : LineConnected cells x₀) (R : Nat → ℝ) (h0 : Unstrained 1 cells R) :
    ∃ (t : Nat → ℝ) (W : Nat → Nat → ℝ), (∀ a b, W a b = -W b a) ∧ ∀ x ∈ cells, RigidNodes 1 x t W R := by
  refine unstrained_connected R ?_ (fun x hx => ?_) x₀ hc.1 hc.2
  · rintro x y ⟨i, hi, j, hj, hs⟩ t W hW hx t' W' hW' hy
    rw [rigid_line hW] at hx ⊢
    rw [rigid_line hW'] at hy
    have : t' 0 = t 0 := by rw [← hx i hi, ← hy j hj, hs]
    rw [← this]
    exact hy
  · obtain ⟨pts, hp⟩ := C77_points (hb x hx)
    exact C95_truss_rigid (hb x hx) (hiso x hx) (hI x hx) (hne x hx) hp (points_det hw x hx pts hp) R (h0 x hx pts hp)

/-- C95 (kernel on a line): on a connected mesh of linear trusses with definite tangents the stiffness matrix maps exactly
the translations to zero. -/
theorem C95_line_kernel (k : Stiff dof 1 n T cells m) (hpd : Definite 1 T)
    (hw : ∀ x ∈ cells, ∀ pts, x.1.Points pts → ∀ p ∈ pts, 0 < p.2.jacobian.det * p.1)
    (hiso : ∀ x ∈ cells, x.2.interp = x.1.coordElement.interp)
    (hI : ∀ x ∈ cells, x.2.interp = Interpolation.trussLinear) (hne : ∀ x ∈ cells, x.1.rule ≠ [])
    (x₀ : Cell × FemElement ℝ) (hc : LineConnected cells x₀) (R : Nat → ℝ) :
    (∀ i < n, ∑ j ∈ range n, m.entry i j * R j = 0) ↔ Shifted cells R := by
  rw [kernel_of_rigid k hpd hw hiso (fun R h => C95_line_unstrained k.body hiso hI hne hw x₀ hc R h) R]
  constructor
  · rintro ⟨t, W, hW, h⟩
    exact ⟨t 0, fun x hx => (rigid_line hW).1 (h x hx)⟩
  · rintro ⟨t, h⟩
    exact ⟨fun _ => t, fun _ _ => 0, fun _ _ => by simp, fun x hx => (rigid_line fun _ _ => by simp).2 (h x hx)⟩

/-- C95 (solvable on a line): if at least one dof is prescribed the equations have exactly one solution, for all prescribed
values and all loads. -/
theorem C95_line_solvable (k : Stiff dof 1 n T cells m) (hpd : Definite 1 T)
    (hw : ∀ x ∈ cells, ∀ pts, x.1.Points pts → ∀ p ∈ pts, 0 < p.2.jacobian.det * p.1)
    (hiso : ∀ x ∈ cells, x.2.interp = x.1.coordElement.interp)
    (hI : ∀ x ∈ cells, x.2.interp = Interpolation.trussLinear) (hne : ∀ x ∈ cells, x.1.rule ≠ [])
    (x₀ : Cell × FemElement ℝ) (hc : LineConnected cells x₀)
    (hall : ∀ g < n, ∃ x ∈ cells, ∃ i < x.2.nodes.length, number x.2 i 0 = g) (prescribed : Nat → Prop)
    (hsup : ∃ g < n, prescribed g) (value load : Nat → ℝ) :
    ∃! U : Fin n → ℝ, ∀ i : Fin n, (prescribed i → U i = value i) ∧
      (¬ prescribed i → ∑ j : Fin n, m.entry i j * U j = load i) := by
  refine solvable_of_rigid k hpd hw (fun R h => C95_line_unstrained k.body hiso hI hne hw x₀ hc R h)
    (fun g hg => ?_) prescribed ?_ value load
  · obtain ⟨x, hx, i, hi, h⟩ := hall g hg
    exact ⟨x, hx, i, hi, 0, by norm_num, h⟩
  · intro t W hW h x hx i hi a ha
    have w : W 0 0 = 0 := by linarith [hW 0 0]
    obtain ⟨g, hg, hpg⟩ := hsup
    obtain ⟨y, hy, j, hj, hyj⟩ := hall g hg
    have := h y hy j hj 0 (by norm_num) (by rw [hyj]; exact hpg)
    obtain rfl : a = 0 := by omega
    simp [w] at this ⊢
    exact this

/-! ### Example -/

/-- The truss from `a` to `b` with two dof numbers. -/
noncomputable def exampleRod (a b : ℝ) (i j : Int) : Cell × FemElement ℝ :=
  (⟨i, ⟨nodesAt [[a], [b]], Interpolation.trussLinear⟩, [(2, [0])]⟩,
   ⟨[⟨[[0]], [i]⟩, ⟨[[0]], [j]⟩], Interpolation.trussLinear⟩)

/-- Two trusses with a common node meet the hypotheses of `C95_line_kernel` and `C95_line_solvable`. -/
example : ∃ m, Stiff 0 1 3 (fun _ _ => elasticTangent 1 1 0 .planeStress) [exampleRod 0 1 0 1, exampleRod 1 3 1 2] m ∧
    Definite 1 (fun _ _ => elasticTangent 1 1 0 .planeStress) ∧
    (∀ x ∈ [exampleRod 0 1 0 1, exampleRod 1 3 1 2], ∀ pts, x.1.Points pts → ∀ p ∈ pts, 0 < p.2.jacobian.det * p.1) ∧
    (∀ x ∈ [exampleRod 0 1 0 1, exampleRod 1 3 1 2], x.2.interp = x.1.coordElement.interp) ∧
    (∀ x ∈ [exampleRod 0 1 0 1, exampleRod 1 3 1 2], x.2.interp = Interpolation.trussLinear) ∧
    (∀ x ∈ [exampleRod 0 1 0 1, exampleRod 1 3 1 2], x.1.rule ≠ []) ∧
    LineConnected [exampleRod 0 1 0 1, exampleRod 1 3 1 2] (exampleRod 0 1 0 1) ∧
    (∀ g < 3, ∃ x ∈ [exampleRod 0 1 0 1, exampleRod 1 3 1 2], ∃ i < x.2.nodes.length, number x.2 i 0 = g) := by
  have hb : ∀ a b : ℝ, ∀ i j : Int, 0 ≤ i → i < 3 → 0 ≤ j → j < 3 → Body 1 3 (exampleRod a b i j) := by
    intro a b i j hi hi' hj hj'
    exact {
      dim1 := by norm_num
      dim3 := by norm_num
      dof := ⟨by simp [exampleRod], rfl, by simp [exampleRod, Node.WF]⟩
      coord := ⟨by simp [exampleRod, nodesAt], rfl, by simp [exampleRod, nodesAt, Node.ofVector, Node.WF]⟩
      dofDim := rfl
      coordDim := rfl
      dofUnity := C77_types _ (by simp [exactTypes, exampleRod])
      coordUnity := C77_types _ (by simp [exactTypes, exampleRod])
      numbered := by simp [exampleRod, Numbered]; omega }
  have hmem : ∀ x ∈ [exampleRod 0 1 0 1, exampleRod 1 3 1 2], ∃ a b : ℝ, a < b ∧ ∃ i j : Int, 0 ≤ i ∧ i < 3 ∧ 0 ≤ j ∧ j < 3 ∧
      x = exampleRod a b i j := by
    intro x hx
    simp only [List.mem_cons, List.not_mem_nil, or_false] at hx
    rcases hx with rfl | rfl
    · exact ⟨0, 1, by norm_num, 0, 1, by norm_num, by norm_num, by norm_num, by norm_num, rfl⟩
    · exact ⟨1, 3, by norm_num, 1, 2, by norm_num, by norm_num, by norm_num, by norm_num, rfl⟩
  have hbody : ∀ x ∈ [exampleRod 0 1 0 1, exampleRod 1 3 1 2], Body 1 3 x := by
    intro x hx
    obtain ⟨a, b, _, i, j, h1, h2, h3, h4, rfl⟩ := hmem x hx
    exact hb a b i j h1 h2 h3 h4
  have hel := C95_elastic 1 (by norm_num) (by norm_num) 1 0 .planeStress (by norm_num) (by norm_num) (by norm_num)
  obtain ⟨_, m, _, _, _, _, h⟩ := C95_exists ⟨[(0, 3)], [(0, 0)]⟩ 0 1 3 (fun _ _ => elasticTangent 1 1 0 .planeStress)
    (fun e d he => by rw [he]; exact hel.1) [exampleRod 0 1 0 1, exampleRod 1 3 1 2]
    [[exampleRod 0 1 0 1, exampleRod 1 3 1 2]] (by simp) rfl hbody
  refine ⟨m, h, hel.2.2.1, ?_, ?_, ?_, ?_, ⟨by simp, fun y hy => ?_⟩, ?_⟩
  · intro x hx pts hp p hm
    obtain ⟨j1, j2, j3⟩ := (hbody x hx).point hp p hm
    have hr := point_rule (hbody x hx) hp p hm
    have hd := (Jacobian.C40_square j3 (by rw [j1, j2])).1
    rw [j1, Matrix.det_fin_one] at hd
    have he := Jacobian.C40_entries j3 0 0
    obtain ⟨a, b, hab, i, j, _, _, _, _, rfl⟩ := hmem x hx
    have hv : values 1 (exampleRod a b i j).1.coordElement = [a, b] := by
      simp [values, exampleRod, nodesAt, Node.ofVector, component, List.range_succ]
    rw [hv] at he
    simp [exampleRod] at hr
    simp [exampleRod, Interpolation.trussLinear, Interpolation.trussLinearDeriv, sum_range_succ, j1] at he
    rw [hd]
    simp only [Jacobian.toMat, Matrix.of_apply]
    rw [hr.1]
    simp only [Fin.isValue, Fin.val_zero, he]
    linarith
  · intro x hx
    obtain ⟨a, b, _, i, j, _, _, _, _, rfl⟩ := hmem x hx
    rfl
  · intro x hx
    obtain ⟨a, b, _, i, j, _, _, _, _, rfl⟩ := hmem x hx
    rfl
  · intro x hx
    obtain ⟨a, b, _, i, j, _, _, _, _, rfl⟩ := hmem x hx
    simp [exampleRod]
  · simp only [List.mem_cons, List.not_mem_nil, or_false] at hy
    rcases hy with rfl | rfl
    · exact Relation.ReflTransGen.refl
    · exact Relation.ReflTransGen.single ⟨by simp, 1, by simp [exampleRod], 0, by simp [exampleRod], by
        simp [exampleRod, number]⟩
  · intro g hg
    interval_cases g
    · exact ⟨exampleRod 0 1 0 1, by simp, 0, by simp [exampleRod], by simp [exampleRod, number]⟩
    · exact ⟨exampleRod 0 1 0 1, by simp, 1, by simp [exampleRod], by simp [exampleRod, number]⟩
    · exact ⟨exampleRod 1 3 1 2, by simp, 1, by simp [exampleRod], by simp [exampleRod, number]⟩

end Balance

end NuTo
