/-
C95, continued: the stiffness matrix is the derivative of the internal forces, supports that exclude rigid motions make
the equations uniquely solvable, and a rule with too few points has a larger kernel.
-/
import Verif.Props.StiffnessKernel
import Mathlib.LinearAlgebra.FiniteDimensional.Basic

namespace NuTo

open Assembly Finset

namespace Balance

/-! ### Derivative of the internal forces -/

/-- The element with the displacements `u + τ R`. -/
noncomputable def displaced (R : Nat → ℝ) (τ : ℝ) (e : FemElement ℝ) : FemElement ℝ :=
  ⟨e.nodes.map fun nd => ⟨[(List.range nd.dofNumbers.length).map fun a =>
    (nd.values.headD []).getD a 0 + τ * R (nd.dofNumbers.getD a 0).toNat], nd.dofNumbers⟩, e.interp⟩

/-- `e + τ v` -/
def shifted (e : List ℝ) (τ : ℝ) (v : List ℝ) : List ℝ :=
  (List.range e.length).map fun k => e.getD k 0 + τ * v.getD k 0

theorem displaced_nodes (R : Nat → ℝ) (τ : ℝ) (e : FemElement ℝ) : (displaced R τ e).nodes.length = e.nodes.length := by
  simp [displaced]

theorem displaced_getD (R : Nat → ℝ) (τ : ℝ) (e : FemElement ℝ) (i : Nat) (hi : i < e.nodes.length) :
    (displaced R τ e).nodes.getD i ⟨[], []⟩ = ⟨[(List.range e.nodes[i].dofNumbers.length).map fun a =>
      (e.nodes[i].values.headD []).getD a 0 + τ * R (e.nodes[i].dofNumbers.getD a 0).toNat], e.nodes[i].dofNumbers⟩ := by
  rw [List.getD_eq_getElem _ _ (show i < (displaced R τ e).nodes.length by rw [displaced_nodes]; exact hi)]
  simp only [displaced, List.getElem_map]

theorem displaced_number (R : Nat → ℝ) (τ : ℝ) (e : FemElement ℝ) (i a : Nat) (hi : i < e.nodes.length) :
    number (displaced R τ e) i a = number e i a := by
  have hn : e.nodes.getD i ⟨[], []⟩ = e.nodes[i] := List.getD_eq_getElem _ _ hi
  rw [number, number, displaced_getD R τ e i hi, hn]

theorem displaced_component {dim : Nat} (R : Nat → ℝ) (τ : ℝ) (e : FemElement ℝ) (h : Nodes dim e) (i a : Nat)
    (hi : i < e.nodes.length) (ha : a < dim) :
    component (displaced R τ e) i a = component e i a + τ * R (number e i a) := by
  have hw := (h.wf _ (List.getElem_mem hi)).2
  have hn : e.nodes.getD i ⟨[], []⟩ = e.nodes[i] := List.getD_eq_getElem _ _ hi
  rw [component, component, number, displaced_getD R τ e i hi, hn, List.headD_cons,
    List.getD_eq_getElem _ _ (show a < _ by simpa [hw] using ha)]
  simp only [List.getElem_map, List.getElem_range]

theorem points_unique {c : Cell} {p q : List (ℝ × IpData)} (hp : c.Points p) (hq : c.Points q) : q = p := by
  unfold Cell.Points at hp hq
  generalize c.rule.zipIdx = l at hp hq
  induction hp generalizing q with
  | nil => cases hq; rfl
  | cons h _ ih =>
    cases hq with
    | cons h' hq =>
      rw [ih hq]
      congr 1
      refine Prod.ext (h'.1.trans h.1.symm) ?_
      have := h'.2
      rw [h.2] at this
      exact (Res.ok.inj this).symm

theorem displaced_nodesOk {dim : Nat} (R : Nat → ℝ) (τ : ℝ) (e : FemElement ℝ) (h : Nodes dim e) :
    Nodes dim (displaced R τ e) := by
  refine ⟨by simpa [displaced] using h.ne, by rw [displaced_nodes]; exact h.count, fun nd hnd => ?_⟩
  obtain ⟨nd', hm, rfl⟩ := List.mem_map.1 hnd
  exact ⟨⟨by simp, by simp⟩, (h.wf nd' hm).2⟩

theorem displaced_body {dim n : Nat} {x : Cell × FemElement ℝ} (h : Body dim n x) (R : Nat → ℝ) (τ : ℝ) :
    Body dim n (x.1, displaced R τ x.2) := by
  refine ⟨h.dim1, h.dim3, displaced_nodesOk R τ x.2 h.dof, h.coord, h.dofDim, h.coordDim, h.dofUnity, h.coordUnity, ?_⟩
  intro nd hnd
  obtain ⟨nd', hm, rfl⟩ := List.mem_map.1 hnd
  exact h.numbered nd' hm

theorem displaced_gradient {dim n : Nat} {x : Cell × FemElement ℝ} (h : Body dim n x) (R : Nat → ℝ) (τ : ℝ) (d : IpData)
    (a b : Nat) (ha : a < dim) :
    displacementGradient dim (gradients x.2 d) (values dim (displaced R τ x.2)) a b =
      displacementGradient dim (gradients x.2 d) (values dim x.2) a b +
        τ * displacementGradient dim (gradients x.2 d) (restrict dim x.2 R) a b := by
  have hc : x.2.interp.numNodes = x.2.nodes.length := h.dof.count.symm
  simp only [displacementGradient, gradients, hc]
  rw [mul_sum, ← sum_add_distrib]
  refine sum_congr rfl fun i hi => ?_
  have hi := mem_range.1 hi
  rw [values_getD (by rw [displaced_nodes]; exact hi) ha, values_getD hi ha, restrict_getD hi ha,
    displaced_component R τ x.2 h.dof i a hi ha]
  ring

theorem displaced_strains {dim n : Nat} {x : Cell × FemElement ℝ} (h : Body dim n x) (R : Nat → ℝ) (τ : ℝ) (d : IpData) :
    strains dim (gradients x.2 d) (values dim (displaced R τ x.2)) =
      shifted (strains dim (gradients x.2 d) (values dim x.2)) τ
        (strains dim (gradients x.2 d) (restrict dim x.2 R)) := by
  have hg := displaced_gradient h R τ d
  have h1 := h.dim1
  have h3 := h.dim3
  generalize values dim (displaced R τ x.2) = u' at *
  generalize values dim x.2 = u at *
  generalize restrict dim x.2 R = r at *
  clear h
  interval_cases dim
  · simp [strains, shifted, hg]
  · simp [strains, shifted, hg, List.range_succ]
    ring
  · simp [strains, shifted, hg, List.range_succ]
    refine ⟨by ring, by ring, by ring⟩

theorem hasDerivAt_list {α : Type} (l : List α) (f : α → ℝ → ℝ) (f' : α → ℝ) (h : ∀ a ∈ l, HasDerivAt (f a) (f' a) 0) :
    HasDerivAt (fun τ => (l.map fun a => f a τ).sum) (l.map f').sum 0 := by
  induction l with
  | nil => simpa using hasDerivAt_const (0 : ℝ) (0 : ℝ)
  | cons a l ih =>
    simp only [List.map_cons, List.sum_cons]
    exact (h a List.mem_cons_self).add (ih fun b hb => h b (List.mem_cons_of_mem _ hb))

variable {dof dim n : Nat} {T : List ℝ → IpData → DMat ℝ} {cells : List (Cell × FemElement ℝ)} {m : SpMat ℝ}

/-- C95 (tangent): if the tangent of the law is the derivative of its stress, the assembled stiffness matrix is the
derivative of the assembled internal forces with respect to the values of the dofs, in every direction `R` and for every
schedule. -/
theorem C95_tangent (k : Stiff dof dim n T cells m) (sigma : List ℝ → IpData → List ℝ)
    (hlen : ∀ e d, (sigma e d).length = e.length)
    (hsig : ∀ e v d, e.length = voigtSize dim → v.length = voigtSize dim → ∀ i < voigtSize dim,
      HasDerivAt (fun τ => (sigma (shifted e τ v) d).getD i 0) ((apply (T e d) v).getD i 0) 0)
    (s : DofSizes) (threads : List (List (Cell × FemElement ℝ))) (hp : threads.flatten.Perm cells)
    (hs : s.size dof = .ok n) (R : Nat → ℝ) :
    ∃ F : ℝ → List ℝ, (∀ τ, ∃ v, assembleVector s dof (momentum dof fun e d => .ok (sigma e d))
        (threads.map fun t => t.map fun x => (x.1, displaced R τ x.2)) = .ok v ∧ v.find? dof = some (F τ) ∧
        (F τ).length = n) ∧
      ∀ i < n, HasDerivAt (fun τ => (F τ).getD i 0) (∑ j ∈ range n, m.entry i j * R j) 0 := by
  obtain ⟨pts, hpts⟩ := k.points
  have hrun : ∀ τ : ℝ, ∃ v f, assembleVector s dof (momentum dof fun e d => .ok (sigma e d))
      (threads.map fun t => t.map fun x => (x.1, displaced R τ x.2)) = .ok v ∧ v.find? dof = some f ∧ f.length = n ∧
      ∀ S : Nat → ℝ, ∑ i ∈ range n, f.getD i 0 * S i = (cells.map fun x => ((pts x).map fun p =>
        dot (sigma (shifted (strains dim (gradients x.2 p.2) (values dim x.2)) τ
          (strains dim (gradients x.2 p.2) (restrict dim x.2 R))) p.2)
          (strains dim (gradients x.2 p.2) (restrict dim x.2 S)) * p.2.jacobian.det * p.1).sum).sum := by
    intro τ
    classical
    have hex : ∀ y : Cell × FemElement ℝ, ∃ q, ∀ x ∈ cells, (x.1, displaced R τ x.2) = y → q = pts x := by
      intro y
      by_cases hy : ∃ x ∈ cells, (x.1, displaced R τ x.2) = y
      · obtain ⟨x, hx, hxy⟩ := hy
        refine ⟨pts x, fun z hz hzy => ?_⟩
        have hcell : z.1 = x.1 := (Prod.ext_iff.1 (hzy.trans hxy.symm)).1
        have hz' := hpts z hz
        rw [hcell] at hz'
        exact points_unique hz' (hpts x hx)
      · exact ⟨[], fun x hx hxy => absurd ⟨x, hx, hxy⟩ hy⟩
    choose q hq using hex
    obtain ⟨v, f, h1, h2, h3, h4⟩ := C77_virtual_work s dof dim n sigma hlen
      (cells.map fun x => (x.1, displaced R τ x.2)) (threads.map fun t => t.map fun x => (x.1, displaced R τ x.2))
      (by rw [← List.map_flatten]; exact hp.map _) hs (by
        intro y hy
        obtain ⟨x, hx, rfl⟩ := List.mem_map.1 hy
        exact displaced_body (k.body x hx) R τ) q (by
        intro y hy
        obtain ⟨x, hx, rfl⟩ := List.mem_map.1 hy
        rw [hq _ x hx rfl]
        exact hpts x hx)
    refine ⟨v, f, h1, h2, h3, fun S => ?_⟩
    rw [h4, List.map_map]
    congr 1
    refine List.map_congr_left fun x hx => ?_
    simp only [Function.comp]
    rw [hq _ x hx rfl]
    congr 1
    refine List.map_congr_left fun p _ => ?_
    have hr : restrict dim (displaced R τ x.2) S = restrict dim x.2 S := by
      rw [restrict, restrict, displaced_nodes]
      refine List.map_congr_left fun q hq => ?_
      rw [displaced_number]
      exact Nat.div_lt_of_lt_mul (List.mem_range.1 hq)
    have hgr : gradients (displaced R τ x.2) p.2 = gradients x.2 p.2 := rfl
    rw [hr, hgr, displaced_strains (k.body x hx)]
  choose v F h1 h2 h3 h4 using hrun
  refine ⟨F, fun τ => ⟨v τ, h1 τ, h2 τ, h3 τ⟩, fun i hi => ?_⟩
  have hF : (fun τ => (F τ).getD i 0) = fun τ => (cells.map fun x => ((pts x).map fun p =>
        dot (sigma (shifted (strains dim (gradients x.2 p.2) (values dim x.2)) τ
          (strains dim (gradients x.2 p.2) (restrict dim x.2 R))) p.2)
          (strains dim (gradients x.2 p.2) (restrict dim x.2 fun a => if a = i then 1 else 0)) *
            p.2.jacobian.det * p.1).sum).sum := by
    ext τ
    have := h4 τ fun a => if a = i then 1 else 0
    rw [sum_eq_single i (fun b _ hb => by simp [hb]) (fun h => absurd (mem_range.2 hi) h), if_pos rfl, mul_one] at this
    exact this
  rw [hF]
  rw [← pickRow n i hi, k.form pts hpts]
  refine hasDerivAt_list cells _ _ fun x hx => ?_
  refine hasDerivAt_list (pts x) _ _ fun p _ => ?_
  have hl := strains_length dim (k.body x hx).dim1 (k.body x hx).dim3 (gradients x.2 p.2)
  refine HasDerivAt.mul_const (HasDerivAt.mul_const ?_ _) _
  rw [← dot_apply _ _ _ (by rw [hl, hl])]
  have hlen' : ∀ τ e v, (sigma (shifted e τ v) p.2).length = e.length := fun τ e v => by
    rw [hlen, shifted, List.length_map, List.length_range]
  simp only [dot, hlen', apply_length, hl]
  refine HasDerivAt.fun_sum fun j hj => ?_
  exact (hsig _ _ p.2 (hl _) (hl _) j (mem_range.1 hj)).mul_const _

/-! ### Supports -/

/-- No rigid motion other than zero leaves all prescribed dofs at zero. -/
def Supported (dim : Nat) (cells : List (Cell × FemElement ℝ)) (prescribed : Nat → Prop) : Prop :=
  ∀ (t : Nat → ℝ) (W : Nat → Nat → ℝ), (∀ a b, W a b = -W b a) →
    (∀ x ∈ cells, ∀ i ≤ dim, ∀ a < dim, prescribed (number x.2 i a) →
      t a + ∑ c ∈ range dim, W a c * component x.1.coordElement i c = 0) →
    ∀ x ∈ cells, ∀ i ≤ dim, ∀ a < dim, t a + ∑ c ∈ range dim, W a c * component x.1.coordElement i c = 0

/-- C95 (solvable): on a face-connected mesh of linear triangles or tetrahedra with definite tangents and supports that
exclude rigid motions the equations have exactly one solution, for all prescribed values and all loads. -/
theorem C95_solvable (k : Stiff dof dim n T cells m) (hpd : Definite dim T)
    (hw : ∀ x ∈ cells, ∀ pts, x.1.Points pts → ∀ p ∈ pts, 0 < p.2.jacobian.det * p.1)
    (hiso : ∀ x ∈ cells, x.2.interp = x.1.coordElement.interp) (hI : ∀ x ∈ cells, Simplex dim x.2.interp)
    (hne : ∀ x ∈ cells, x.1.rule ≠ []) (x₀ : Cell × FemElement ℝ) (hc : FaceConnected dim cells x₀)
    (hall : ∀ g < n, ∃ x ∈ cells, ∃ i ≤ dim, ∃ a < dim, number x.2 i a = g) (prescribed : Nat → Prop)
    (hsup : Supported dim cells prescribed) (value load : Nat → ℝ) :
    ∃! U : Fin n → ℝ, ∀ i : Fin n, (prescribed i → U i = value i) ∧
      (¬ prescribed i → ∑ j : Fin n, m.entry i j * U j = load i) := by
  classical
  have hlift : ∀ (U : Fin n → ℝ) (i : Nat), ∑ j ∈ range n, m.entry i j * (if h : j < n then U ⟨j, h⟩ else 0) =
      ∑ j : Fin n, m.entry i j * U j := by
    intro U i
    rw [← Fin.sum_univ_eq_sum_range (fun j => m.entry i j * (if h : j < n then U ⟨j, h⟩ else 0))]
    exact sum_congr rfl fun j _ => by rw [dif_pos j.2]
  obtain ⟨L, hL⟩ : ∃ L : (Fin n → ℝ) →ₗ[ℝ] (Fin n → ℝ), ∀ U i, L U i =
      if prescribed i then U i else ∑ j : Fin n, m.entry i j * U j :=
    ⟨{ toFun := fun U i => if prescribed i then U i else ∑ j : Fin n, m.entry i j * U j
       map_add' := by
        intro U V
        ext i
        by_cases h : prescribed i <;> simp [h, mul_add, sum_add_distrib]
       map_smul' := by
        intro c U
        ext i
        by_cases h : prescribed i
        · simp [h]
        · simp only [if_neg h, Pi.smul_apply, smul_eq_mul, RingHom.id_apply, mul_sum]
          exact sum_congr rfl fun j _ => by ring }, fun _ _ => rfl⟩
  have hinj : Function.Injective L := by
    rw [injective_iff_map_eq_zero]
    intro U hU
    have hU' : ∀ i : Fin n, (if prescribed i then U i else ∑ j : Fin n, m.entry i j * U j) = 0 := fun i => by
      rw [← hL, hU]
      rfl
    have h1 := C95_unique k hpd hw prescribed (fun j => if h : j < n then U ⟨j, h⟩ else 0) (fun _ => 0)
      (by
        intro i hi hpi
        have := hU' ⟨i, hi⟩
        rw [if_pos hpi] at this
        rw [dif_pos hi, this])
      (by
        intro i hi hpi
        have := hU' ⟨i, hi⟩
        rw [if_neg hpi] at this
        rw [hlift, this]
        simp)
    simp only [sub_zero] at h1
    have hdet : ∀ x ∈ cells, ∀ pts, x.1.Points pts → ∀ p ∈ pts, p.2.jacobian.det ≠ 0 := by
      intro x hx pts hp p hm h0
      have := hw x hx pts hp p hm
      rw [h0, zero_mul] at this
      exact lt_irrefl _ this
    obtain ⟨t, W, hW, hR⟩ := C95_unstrained_rigid k.body hiso hI hne hdet x₀ hc _ h1
    have hnum : ∀ x ∈ cells, ∀ i ≤ dim, ∀ a < dim, number x.2 i a < n := by
      intro x hx i hi a ha
      have hb := k.body x hx
      have hi' : i < x.2.nodes.length := by rw [hb.dof.count, (hI x hx).1]; omega
      rw [number, List.getD_eq_getElem _ _ hi']
      have hw := (hb.dof.wf _ (List.getElem_mem hi')).2
      rw [List.getD_eq_getElem _ _ (by rw [hw]; exact ha)]
      have := hb.numbered _ (List.getElem_mem hi') _ (List.getElem_mem (by rw [hw]; exact ha))
      omega
    have hz := hsup t W hW (by
      intro x hx i hi a ha hpi
      rw [← hR x hx i hi a ha]
      dsimp only
      have := hU' ⟨_, hnum x hx i hi a ha⟩
      rw [if_pos hpi] at this
      rw [dif_pos (hnum x hx i hi a ha), this])
    ext g
    obtain ⟨x, hx, i, hi, a, ha, hg⟩ := hall g g.2
    have := hR x hx i hi a ha
    dsimp only at this
    rw [hz x hx i hi a ha, hg, dif_pos g.2] at this
    exact this
  obtain ⟨U, hU⟩ := LinearMap.injective_iff_surjective.1 hinj fun i => if prescribed i then value i else load i
  have hiff : ∀ V : Fin n → ℝ, (L V = fun i : Fin n => if prescribed i then value i else load i) ↔
      ∀ i : Fin n, (prescribed i → V i = value i) ∧ (¬ prescribed i → ∑ j : Fin n, m.entry i j * V j = load i) := by
    intro V
    rw [funext_iff]
    refine forall_congr' fun i => ?_
    rw [hL]
    by_cases h : prescribed i <;> simp [h]
  refine ⟨U, (hiff U).1 hU, fun V hV => hinj ?_⟩
  rw [(hiff V).2 hV, hU]

/-! ### Examples -/

/-- A second triangle on the long edge of `exampleBody`. -/
noncomputable def exampleBody2 : Cell × FemElement ℝ :=
  (⟨1, ⟨nodesAt [[2, 0], [2, 3], [0, 3]], Interpolation.triangleLinear⟩, [(1 / 2, [1 / 3, 1 / 3])]⟩,
   ⟨[⟨[[1 / 10, 0]], [2, 3]⟩, ⟨[[0, 0]], [6, 7]⟩, ⟨[[0, 1 / 5]], [4, 5]⟩], Interpolation.triangleLinear⟩)

theorem exampleMesh_body : ∀ x ∈ [exampleBody, exampleBody2], Body 2 8 x := by
  intro x hx
  simp only [List.mem_cons, List.not_mem_nil, or_false] at hx
  rcases hx with rfl | rfl
  · exact { exampleBody_ok with numbered := by simp [exampleBody, Numbered] }
  · exact {
      dim1 := by norm_num
      dim3 := by norm_num
      dof := ⟨by simp [exampleBody2], rfl, by simp [exampleBody2, Node.WF]⟩
      coord := ⟨by simp [exampleBody2, nodesAt], rfl, by simp [exampleBody2, nodesAt, Node.ofVector, Node.WF]⟩
      dofDim := rfl
      coordDim := rfl
      dofUnity := C77_types _ (by simp [exactTypes, exampleBody2])
      coordUnity := C77_types _ (by simp [exactTypes, exampleBody2])
      numbered := by simp [exampleBody2, Numbered] }

theorem exampleMesh_weights : ∀ x ∈ [exampleBody, exampleBody2], ∀ pts, x.1.Points pts → ∀ p ∈ pts,
    0 < p.2.jacobian.det * p.1 := by
  intro x hx pts hp p hm
  have hb := exampleMesh_body x hx
  obtain ⟨_, _, h⟩ := hb.point hp p hm
  have hw : p.1 = 1 / 2 := by
    have hr : x.1.rule = [(1 / 2, [1 / 3, 1 / 3])] := by
      simp only [List.mem_cons, List.not_mem_nil, or_false] at hx
      rcases hx with rfl | rfl <;> rfl
    unfold Cell.Points at hp
    rw [hr] at hp
    cases hp with
    | cons hh ht =>
      cases ht
      rw [List.mem_singleton.1 hm]
      exact hh.1
  simp only [List.mem_cons, List.not_mem_nil, or_false] at hx
  rcases hx with rfl | rfl
  · have hv : values 2 exampleBody.1.coordElement = [0, 0, 2, 0, 0, 3] := by
      simp [values, exampleBody, nodesAt, Node.ofVector, component, List.range_succ]
    rw [hv, make_square2 _ _ (by simp [exampleBody, Interpolation.triangleLinear, Interpolation.triangleLinearDeriv])
      (by simp [exampleBody, Interpolation.triangleLinear, Interpolation.triangleLinearDeriv])] at h
    rw [← Res.ok.inj h, hw]
    simp [exampleBody, Interpolation.triangleLinear, Interpolation.triangleLinearDeriv, Jacobian.det2,
      Jacobian.calculate, List.range_succ]
  · have hv : values 2 exampleBody2.1.coordElement = [2, 0, 2, 3, 0, 3] := by
      simp [values, exampleBody2, nodesAt, Node.ofVector, component, List.range_succ]
    rw [hv, make_square2 _ _ (by simp [exampleBody2, Interpolation.triangleLinear, Interpolation.triangleLinearDeriv])
      (by simp [exampleBody2, Interpolation.triangleLinear, Interpolation.triangleLinearDeriv])] at h
    rw [← Res.ok.inj h, hw]
    simp [exampleBody2, Interpolation.triangleLinear, Interpolation.triangleLinearDeriv, Jacobian.det2,
      Jacobian.calculate, List.range_succ]

theorem exampleMesh_connected : FaceConnected 2 [exampleBody, exampleBody2] exampleBody := by
  refine ⟨by simp, fun y hy => ?_⟩
  simp only [List.mem_cons, List.not_mem_nil, or_false] at hy
  rcases hy with rfl | rfl
  · exact Relation.ReflTransGen.refl
  · refine Relation.ReflTransGen.single ⟨by simp, 1, by norm_num, fun i hi hne => ?_⟩
    interval_cases i
    · exact ⟨1, by norm_num, fun a ha => by
        interval_cases a <;> simp [exampleBody, exampleBody2, number, component, nodesAt, Node.ofVector]⟩
    · exact absurd rfl hne
    · exact ⟨2, by norm_num, fun a ha => by
        interval_cases a <;> simp [exampleBody, exampleBody2, number, component, nodesAt, Node.ofVector]⟩

/-- The node at the origin is fixed, the node at `(2, 0)` is held in the direction y. -/
theorem exampleMesh_supported : Supported 2 [exampleBody, exampleBody2] fun g => g = 0 ∨ g = 1 ∨ g = 3 := by
  intro t W hW h x hx i hi a ha
  have h0 := h exampleBody (by simp) 0 (by norm_num) 0 (by norm_num) (by simp [exampleBody, number])
  have h1 := h exampleBody (by simp) 0 (by norm_num) 1 (by norm_num) (by simp [exampleBody, number])
  have h2 := h exampleBody (by simp) 1 (by norm_num) 1 (by norm_num) (by simp [exampleBody, number])
  simp [exampleBody, component, nodesAt, Node.ofVector, sum_range_succ] at h0 h1 h2
  have e00 := hW 0 0
  have e11 := hW 1 1
  have e01 := hW 0 1
  have w00 : W 0 0 = 0 := by linarith
  have w11 : W 1 1 = 0 := by linarith
  have w10 : W 1 0 = 0 := by linarith
  have w01 : W 0 1 = 0 := by linarith
  interval_cases a <;> simp [sum_range_succ, w00, w11, w10, w01, h0, h1]

/-- The two triangles meet the hypotheses of `C95_kernel` and `C95_solvable` for the linear elastic law. -/
example : ∃ m, Stiff 0 2 8 (fun _ _ => elasticTangent 2 1 0 .planeStress) [exampleBody, exampleBody2] m ∧
    Definite 2 (fun _ _ => elasticTangent 2 1 0 .planeStress) ∧
    (∀ x ∈ [exampleBody, exampleBody2], ∀ pts, x.1.Points pts → ∀ p ∈ pts, 0 < p.2.jacobian.det * p.1) ∧
    (∀ x ∈ [exampleBody, exampleBody2], x.2.interp = x.1.coordElement.interp) ∧
    (∀ x ∈ [exampleBody, exampleBody2], Simplex 2 x.2.interp) ∧
    (∀ x ∈ [exampleBody, exampleBody2], x.1.rule ≠ []) ∧
    FaceConnected 2 [exampleBody, exampleBody2] exampleBody ∧
    (∀ g < 8, ∃ x ∈ [exampleBody, exampleBody2], ∃ i ≤ 2, ∃ a < 2, number x.2 i a = g) ∧
    Supported 2 [exampleBody, exampleBody2] fun g => g = 0 ∨ g = 1 ∨ g = 3 := by
  have hel := C95_elastic 2 (by norm_num) (by norm_num) 1 0 .planeStress (by norm_num) (by norm_num) (by norm_num)
  obtain ⟨_, m, _, _, _, _, h⟩ := C95_exists ⟨[(0, 8)], [(0, 0)]⟩ 0 2 8 (fun _ _ => elasticTangent 2 1 0 .planeStress)
    (fun e d he => by rw [he]; exact hel.1) [exampleBody, exampleBody2] [[exampleBody, exampleBody2]] (by simp) rfl
    exampleMesh_body
  refine ⟨m, h, hel.2.2.1, exampleMesh_weights, ?_, ?_, ?_, exampleMesh_connected, ?_, exampleMesh_supported⟩
  · intro x hx
    simp only [List.mem_cons, List.not_mem_nil, or_false] at hx
    rcases hx with rfl | rfl <;> rfl
  · intro x hx
    simp only [List.mem_cons, List.not_mem_nil, or_false] at hx
    rcases hx with rfl | rfl <;> exact triangleLinear_simplex
  · intro x hx
    simp only [List.mem_cons, List.not_mem_nil, or_false] at hx
    rcases hx with rfl | rfl <;> simp [exampleBody, exampleBody2]
  · intro g hg
    by_cases h6 : g < 6
    · exact ⟨exampleBody, by simp, g / 2, by omega, g % 2, by omega, by
        interval_cases g <;> simp [exampleBody, number]⟩
    · exact ⟨exampleBody2, by simp, 1, by norm_num, g - 6, by omega, by
        interval_cases g <;> simp [exampleBody2, number]⟩

/-- The linear elastic law meets the hypothesis of `C95_tangent`. -/
example : ∀ (D : DMat ℝ) (e v : List ℝ), e.length = 3 → v.length = 3 → ∀ i < 3,
    HasDerivAt (fun τ => (apply D (shifted e τ v)).getD i 0) ((apply D v).getD i 0) 0 := by
  intro D e v he hv i hi
  have hs : ∀ τ, (shifted e τ v).length = 3 := fun τ => by rw [shifted, List.length_map, List.length_range, he]
  have hap : ∀ w : List ℝ, w.length = 3 → (apply D w).getD i 0 = ∑ j ∈ range 3, D.coef i j * w.getD j 0 := by
    intro w hw
    rw [apply, hw, List.getD_eq_getElem _ _ (by simpa using hi)]
    simp only [List.getElem_map, List.getElem_range]
  simp only [hap _ (hs _), hap v hv]
  refine HasDerivAt.fun_sum fun j hj => HasDerivAt.const_mul _ ?_
  have hsj : (fun τ => (shifted e τ v).getD j 0) = fun τ => e.getD j 0 + τ * v.getD j 0 := by
    ext τ
    rw [shifted, he, List.getD_eq_getElem _ _ (by simpa using hj)]
    simp only [List.getElem_map, List.getElem_range]
  rw [hsj]
  simpa using ((hasDerivAt_id (0 : ℝ)).mul_const (v.getD j 0)).const_add (e.getD j 0)

/-- A square element with one integration point in its middle. -/
noncomputable def exampleQuad : Cell × FemElement ℝ :=
  (⟨0, ⟨nodesAt [[-1, -1], [1, -1], [1, 1], [-1, 1]], Interpolation.quadLinear⟩, [(4, [0, 0])]⟩,
   ⟨[⟨[[0, 0]], [0, 1]⟩, ⟨[[0, 0]], [2, 3]⟩, ⟨[[0, 0]], [4, 5]⟩, ⟨[[0, 0]], [6, 7]⟩], Interpolation.quadLinear⟩)

theorem exampleQuad_ok : Body 2 8 exampleQuad where
  dim1 := by norm_num
  dim3 := by norm_num
  dof := ⟨by simp [exampleQuad], rfl, by simp [exampleQuad, Node.WF]⟩
  coord := ⟨by simp [exampleQuad, nodesAt], rfl, by simp [exampleQuad, nodesAt, Node.ofVector, Node.WF]⟩
  dofDim := rfl
  coordDim := rfl
  dofUnity := C77_types _ (by simp [exactTypes, exampleQuad])
  coordUnity := C77_types _ (by simp [exactTypes, exampleQuad])
  numbered := by simp [exampleQuad, Numbered]

/-- Displacements in the direction x of alternating sign. -/
def hourglass (g : Nat) : ℝ := [1, 0, -1, 0, 1, 0, -1, 0].getD g 0

/-- C95 (counterexample): for a bilinear element with one integration point the kernel of the stiffness matrix contains
more than the rigid motions, whatever the law. -/
theorem C95_hourglass_counterexample (T : List ℝ → IpData → DMat ℝ) (m : SpMat ℝ) (dof : Nat)
    (k : Stiff dof 2 8 T [exampleQuad] m) :
    (∀ i < 8, ∑ j ∈ range 8, m.entry i j * hourglass j = 0) ∧
      ¬ ∃ (t : Nat → ℝ) (W : Nat → Nat → ℝ), (∀ a b, W a b = -W b a) ∧ ∀ i < 4, ∀ a < 2,
        hourglass (number exampleQuad.2 i a) =
          t a + ∑ c ∈ range 2, W a c * component exampleQuad.1.coordElement i c := by
  constructor
  · refine C95_unstrained k _ ?_
    intro x hx pts hp p hm
    obtain rfl := List.mem_singleton.1 hx
    obtain ⟨_, _, h⟩ := exampleQuad_ok.point hp p hm
    have hc : p.2.coords = [0, 0] := by
      unfold Cell.Points at hp
      rw [show exampleQuad.1.rule = [(4, [0, 0])] from rfl] at hp
      cases hp with
      | cons hh ht =>
        cases ht
        rw [List.mem_singleton.1 hm]
        obtain ⟨d, h1, h2, _⟩ := exampleQuad_ok.jacobian 0 [0, 0]
        rw [hh.2] at h1
        rw [Res.ok.inj h1, h2]
    have hv : values 2 exampleQuad.1.coordElement = [-1, -1, 1, -1, 1, 1, -1, 1] := by
      simp [values, exampleQuad, nodesAt, Node.ofVector, component, List.range_succ]
    rw [hv, hc, make_square2 _ _ (by simp [exampleQuad, Interpolation.quadLinear, Interpolation.quadLinearDeriv])
      (by simp [exampleQuad, Interpolation.quadLinear, Interpolation.quadLinearDeriv])] at h
    have hr : restrict 2 exampleQuad.2 hourglass = [1, 0, -1, 0, 1, 0, -1, 0] := by
      simp [restrict, exampleQuad, number, hourglass, List.range_succ]
    have hJ := (Res.ok.inj h).symm
    rw [hr]
    have hg : ∀ a < 2, ∀ b, displacementGradient 2 (gradients exampleQuad.2 p.2) [1, 0, -1, 0, 1, 0, -1, 0] a b = 0 := by
      intro a ha b
      simp only [displacementGradient, gradients, hJ, hc]
      interval_cases a
      · simp [exampleQuad, Interpolation.quadLinear, Interpolation.quadLinearDeriv, sum_range_succ, Jacobian.transform,
          List.range_succ]
      · simp [exampleQuad, Interpolation.quadLinear, sum_range_succ]
    simp [strains, hg]
  · rintro ⟨t, W, hW, h⟩
    have h0 := h 0 (by norm_num) 0 (by norm_num)
    have h1 := h 1 (by norm_num) 0 (by norm_num)
    have e00 := hW 0 0
    simp [exampleQuad, number, component, nodesAt, Node.ofVector, sum_range_succ, hourglass] at h0 h1
    linarith

end Balance

end NuTo
