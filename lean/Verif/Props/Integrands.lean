/-
C64: the integrands are the weak forms and their tangents.
-/
import Verif.Model.Integrands
import Verif.Props.LocalDamage
import Verif.Props.Elastic
import Verif.Props.StrainOperator
import Mathlib.Analysis.Calculus.FDeriv.Prod
import Mathlib.Analysis.SpecialFunctions.ExpDeriv
import Mathlib.LinearAlgebra.Matrix.PosDef

namespace NuTo.Integrands

open Matrix Filter Topology

/-! ### Momentum balance -/

/-- C64: the gradient of the momentum balance does the virtual work of the stress on every virtual displacement. -/
theorem C64_virtual_work {a n d : Nat} (stress : (Fin n → ℝ) → Fin n → ℝ) (x : DofAt a n d) (v : Fin d → ℝ) :
    momentumGradient stress x ⬝ᵥ v = stress (x.B *ᵥ x.values) ⬝ᵥ (x.B *ᵥ v) := by
  rw [momentumGradient, DofAt.apply, mulVec_transpose, dotProduct_mulVec]

/-- The linear map of a matrix row. -/
theorem grad_comp_mulVec {n d : Nat} (w : Fin n → ℝ) (B : Matrix (Fin n) (Fin d) ℝ) (v : Fin d → ℝ) :
    grad w (B *ᵥ v) = grad (w ᵥ* B) v := by
  rw [grad_apply, grad_apply]
  show w ⬝ᵥ B *ᵥ v = (w ᵥ* B) ⬝ᵥ v
  exact dotProduct_mulVec w B v

/-- Node values to strains as a continuous linear map. -/
noncomputable def toCLM {n d : Nat} (B : Matrix (Fin n) (Fin d) ℝ) : (Fin d → ℝ) →L[ℝ] (Fin n → ℝ) :=
  ContinuousLinearMap.pi fun i => grad (B i)

theorem toCLM_apply {n d : Nat} (B : Matrix (Fin n) (Fin d) ℝ) (v : Fin d → ℝ) : toCLM B v = B *ᵥ v := by
  funext i
  rw [toCLM, ContinuousLinearMap.pi_apply, grad_apply]
  rfl

/-- C64: if the tangent of the law is the derivative of its stress, `Hessian0` is the derivative of `Gradient` with
respect to the node values. -/
theorem C64_momentum {a n d : Nat} (stress : (Fin n → ℝ) → Fin n → ℝ)
    (tangent : (Fin n → ℝ) → Matrix (Fin n) (Fin n) ℝ) (x : DofAt a n d)
    (hlaw : ∀ i, HasFDerivAt (fun e => stress e i) (grad (tangent (x.B *ᵥ x.values) i)) (x.B *ᵥ x.values)) (i : Fin d) :
    HasFDerivAt (fun v => momentumGradient stress { x with values := v } i) (grad (momentumHessian0 tangent x i))
      x.values := by
  have h1 : HasFDerivAt (fun v => x.B *ᵥ v) (toCLM x.B) x.values := by
    have := (toCLM x.B).hasFDerivAt (x := x.values)
    exact this.congr_of_eventuallyEq (Eventually.of_forall fun v => (toCLM_apply x.B v).symm)
  have h2 : ∀ k, HasFDerivAt (fun v => x.B k i * stress (x.B *ᵥ v) k)
      (x.B k i • (grad (tangent (x.B *ᵥ x.values) k)).comp (toCLM x.B)) x.values := fun k =>
    ((hlaw k).comp x.values h1).const_mul (x.B k i)
  have h3 := HasFDerivAt.fun_sum (u := Finset.univ) fun k _ => h2 k
  refine h3.congr_fderiv ?_
  ext v
  rw [_root_.sum_apply]
  simp only [_root_.smul_apply, ContinuousLinearMap.comp_apply, toCLM_apply, smul_eq_mul]
  rw [momentumHessian0, DofAt.apply, grad_apply]
  show _ = ((x.Bᵀ * tangent (x.B *ᵥ x.values) * x.B) *ᵥ v) i
  rw [← mulVec_mulVec, ← mulVec_mulVec]
  show _ = ∑ k, x.Bᵀ i k * (tangent (x.B *ᵥ x.values) *ᵥ (x.B *ᵥ v)) k
  refine Finset.sum_congr rfl fun k _ => ?_
  rw [grad_apply]
  rfl

/-- C64: a symmetric tangent gives a symmetric `Hessian0`, and the quadratic form of `Hessian0` is that of the tangent
in the strains; a non-negative tangent gives a non-negative `Hessian0`. -/
theorem C64_momentum_symmetric {a n d : Nat} (tangent : (Fin n → ℝ) → Matrix (Fin n) (Fin n) ℝ) (x : DofAt a n d) :
    ((tangent (x.B *ᵥ x.values)).IsSymm → (momentumHessian0 tangent x).IsSymm) ∧
    ∀ v, v ⬝ᵥ (momentumHessian0 tangent x *ᵥ v) =
      (x.B *ᵥ v) ⬝ᵥ (tangent (x.B *ᵥ x.values) *ᵥ (x.B *ᵥ v)) := by
  constructor
  · intro h
    rw [momentumHessian0, DofAt.apply, IsSymm, transpose_mul, transpose_mul, transpose_transpose, h.eq, Matrix.mul_assoc]
  · intro v
    rw [momentumHessian0, DofAt.apply, ← mulVec_mulVec, ← mulVec_mulVec, dotProduct_mulVec v, vecMul_transpose]

/-! ### Mass matrix and Neumann loads -/

/-- C64: the mass matrix is symmetric and positive semidefinite for a non-negative density. -/
theorem C64_mass {a b d : Nat} (rho : ℝ) (hr : 0 ≤ rho) (x : DofAt a b d) :
    (hessian2 rho x).IsSymm ∧ ∀ v, 0 ≤ v ⬝ᵥ (hessian2 rho x *ᵥ v) := by
  constructor
  · rw [hessian2, IsSymm, transpose_smul, transpose_mul, transpose_transpose]
  · intro v
    rw [hessian2, smul_mulVec, ← mulVec_mulVec, dotProduct_smul, dotProduct_mulVec v, vecMul_transpose]
    exact mul_nonneg hr (Finset.sum_nonneg fun i _ => mul_self_nonneg _)

/-- The kinetic energy of a velocity is that of the interpolated velocity. -/
theorem C64_mass_energy {a b d : Nat} (rho : ℝ) (x : DofAt a b d) (v : Fin d → ℝ) :
    v ⬝ᵥ (hessian2 rho x *ᵥ v) = rho * ((x.N *ᵥ v) ⬝ᵥ (x.N *ᵥ v)) := by
  rw [hessian2, smul_mulVec, ← mulVec_mulVec, dotProduct_smul, dotProduct_mulVec v, vecMul_transpose]
  rfl

/-- C64: the Neumann load does the work of the traction on the interpolated displacement. -/
theorem C64_neumann_work {a b d : Nat} (factor : Fin a → ℝ) (x : DofAt a b d) (v : Fin d → ℝ) :
    externalLoad factor x ⬝ᵥ v = factor ⬝ᵥ (x.N *ᵥ v) := by
  rw [externalLoad, mulVec_transpose, dotProduct_mulVec]

/-- The matrix of shape functions of an element, `GetNMatrix`, as seen by an integrand. -/
def ofShape {b : Nat} (N : DMat ℝ) (numNodes dim : Nat) (B : Matrix (Fin b) (Fin (dim * numNodes)) ℝ)
    (values : Fin (dim * numNodes) → ℝ) : DofAt dim b (dim * numNodes) :=
  ⟨fun i j => N.coef i j, B, values⟩

/-- The number of component `c` of node `i`. -/
def dofOf {numNodes dim : Nat} (i : Fin numNodes) (c : Fin dim) : Fin (dim * numNodes) :=
  ⟨dim * i + c, by
    have : dim * (i.val + 1) ≤ dim * numNodes := Nat.mul_le_mul_left _ i.isLt
    rw [Nat.mul_succ] at this
    omega⟩

/-- C64: the Neumann loads of shape functions that add up to one add up to the applied traction, component by
component. -/
theorem C64_neumann_total {b : Nat} (junk : Nat → Nat → ℝ) (shape : List ℝ) (numNodes dim : Nat)
    (hs : numNodes ≤ shape.length) (hpu : ∑ i ∈ Finset.range numNodes, shape.getD i 0 = 1)
    (N : DMat ℝ) (hN : nMatrix junk shape numNodes dim = .ok N) (B : Matrix (Fin b) (Fin (dim * numNodes)) ℝ)
    (values : Fin (dim * numNodes) → ℝ) (factor : Fin dim → ℝ) (c : Fin dim) :
    ∑ i : Fin numNodes, externalLoad factor (ofShape N numNodes dim B values) (dofOf i c) = factor c := by
  obtain ⟨N', h1, _, _, h4⟩ := nMatrix_fold junk shape dim (dim * numNodes) numNodes hs
  rw [nMatrix, h1] at hN
  cases hN
  have key : ∀ i : Fin numNodes, externalLoad factor (ofShape N numNodes dim B values) (dofOf i c) =
      shape.getD i 0 * factor c := by
    intro i
    have : externalLoad factor (ofShape N numNodes dim B values) (dofOf i c) =
        ∑ a : Fin dim, N.coef a (dim * i + c) * factor a := by
      simp [externalLoad, ofShape, mulVec, dotProduct, dofOf]
      rfl
    rw [this, Finset.sum_eq_single c]
    · rw [h4 i i.isLt c c.isLt c c.isLt, if_pos rfl]
    · intro a _ hne
      rw [h4 i i.isLt a a.isLt c c.isLt, if_neg (fun e => hne (Fin.ext e)), zero_mul]
    · simp
  rw [Finset.sum_congr rfl fun i _ => key i, ← Finset.sum_mul,
    Fin.sum_univ_eq_sum_range (fun i => shape.getD i 0) numNodes, hpu, one_mul]

/-- C64: the mass of shape functions that add up to one: a unit velocity of all nodes in one direction has the momentum
and energy of the density. -/
theorem C64_mass_total {b : Nat} (junk : Nat → Nat → ℝ) (shape : List ℝ) (numNodes dim : Nat)
    (hs : numNodes ≤ shape.length) (hpu : ∑ i ∈ Finset.range numNodes, shape.getD i 0 = 1)
    (N : DMat ℝ) (hN : nMatrix junk shape numNodes dim = .ok N) (B : Matrix (Fin b) (Fin (dim * numNodes)) ℝ)
    (values : Fin (dim * numNodes) → ℝ) (rho : ℝ) (c : Fin dim) (v : Fin (dim * numNodes) → ℝ)
    (hv : ∀ (i : Fin numNodes) (a : Fin dim), v (dofOf i a) = if a = c then 1 else 0) :
    v ⬝ᵥ (hessian2 rho (ofShape N numNodes dim B values) *ᵥ v) = rho := by
  obtain ⟨N', h1, _, _, h4⟩ := nMatrix_fold junk shape dim (dim * numNodes) numNodes hs
  rw [nMatrix, h1] at hN
  cases hN
  rw [C64_mass_energy]
  have hNv : (ofShape N numNodes dim B values).N *ᵥ v = fun a => if a = c then 1 else 0 := by
    funext a
    have e1 : ((ofShape N numNodes dim B values).N *ᵥ v) a =
        ∑ j ∈ Finset.range (dim * numNodes), N.coef a j * (if h : j < dim * numNodes then v ⟨j, h⟩ else 0) := by
      rw [← Fin.sum_univ_eq_sum_range (fun j => N.coef a j * (if h : j < dim * numNodes then v ⟨j, h⟩ else 0))]
      simp [ofShape, mulVec, dotProduct]
    rw [e1, sum_range_mul]
    have e2 : ∀ i ∈ Finset.range numNodes, ∑ d ∈ Finset.range dim, N.coef a (dim * i + d) *
        (if h : dim * i + d < dim * numNodes then v ⟨dim * i + d, h⟩ else 0) =
        shape.getD i 0 * if a = c then 1 else 0 := by
      intro i hi
      rw [Finset.mem_range] at hi
      have e3 : ∀ d ∈ Finset.range dim, N.coef a (dim * i + d) *
          (if h : dim * i + d < dim * numNodes then v ⟨dim * i + d, h⟩ else 0) =
          if a.val = d then shape.getD i 0 * (if a = c then 1 else 0) else 0 := by
        intro d hd
        rw [Finset.mem_range] at hd
        have hlt := (dofOf (⟨i, hi⟩ : Fin numNodes) (⟨d, hd⟩ : Fin dim)).isLt
        rw [dif_pos (show dim * i + d < dim * numNodes from hlt), h4 i hi a a.isLt d hd]
        have := hv ⟨i, hi⟩ ⟨d, hd⟩
        rw [dofOf] at this
        rw [this]
        by_cases had : a.val = d
        · subst had
          simp
        · simp [had]
      rw [Finset.sum_congr rfl e3, Finset.sum_ite_eq, if_pos (Finset.mem_range.2 a.isLt)]
    rw [Finset.sum_congr rfl e2, ← Finset.sum_mul, hpu, one_mul]
  rw [hNv]
  simp [dotProduct]

/-- The element matrices of a two node truss with the shape functions 1/4, 3/4. -/
example : ∃ N, nMatrix (fun _ _ => (7 : ℝ)) [1 / 4, 3 / 4] 2 2 = .ok N ∧
    ∑ i ∈ Finset.range 2, ([1 / 4, 3 / 4] : List ℝ).getD i 0 = 1 := by
  obtain ⟨N, h, _⟩ := nMatrix_fold (fun _ _ => (7 : ℝ)) [1 / 4, 3 / 4] 2 4 2 (by simp)
  exact ⟨N, h, by norm_num [Finset.sum_range_succ]⟩

/-- C64: for a linear elastic law `Hessian0` is the derivative of `Gradient` without further conditions. -/
theorem C64_elastic {a n d : Nat} (C : Matrix (Fin n) (Fin n) ℝ) (x : DofAt a n d) (i : Fin d) :
    HasFDerivAt (fun v => momentumGradient (LinearElastic.stress C) { x with values := v } i)
      (grad (momentumHessian0 (fun _ => C) x i)) x.values := by
  refine C64_momentum (LinearElastic.stress C) (fun _ => C) x (fun k => ?_) i
  refine (grad (C k)).hasFDerivAt.congr_of_eventuallyEq (Eventually.of_forall fun e => ?_)
  rw [grad_apply]
  rfl

/-! ### Nonlocal interaction -/

/-- C64: `Derivative` is the derivative of `Factor`, for both interactions. -/
theorem C64_interaction (R eta omega : ℝ) :
    HasDerivAt Interaction.constant.factor (Interaction.constant.derivative omega) omega ∧
    HasDerivAt (Interaction.decreasing R eta).factor ((Interaction.decreasing R eta).derivative omega) omega := by
  refine ⟨hasDerivAt_const _ _, ?_⟩
  have h1 : HasDerivAt (fun w : ℝ => -eta * w) (-eta) omega := by
    simpa using (hasDerivAt_id omega).const_mul (-eta)
  have h2 := ((((h1.exp).const_mul (1 - R)).add_const R).sub_const (Real.exp (-eta))).div_const (1 - Real.exp (-eta))
  refine h2.congr_deriv ?_
  simp only [Interaction.decreasing]
  ring

/-- C64: the decreasing interaction falls from one without damage to `R` at full damage and stays in between. -/
theorem C64_decreasing (R eta : ℝ) (hR : R ≤ 1) (heta : 0 < eta) :
    (Interaction.decreasing R eta).factor 0 = 1 ∧ (Interaction.decreasing R eta).factor 1 = R ∧
    (∀ v w, v ≤ w → (Interaction.decreasing R eta).factor w ≤ (Interaction.decreasing R eta).factor v) ∧
    ∀ w, 0 ≤ w → w ≤ 1 → R ≤ (Interaction.decreasing R eta).factor w ∧ (Interaction.decreasing R eta).factor w ≤ 1 := by
  have hlt : Real.exp (-eta) < 1 := by rw [← Real.exp_zero]; exact Real.exp_lt_exp.2 (by linarith)
  have hpos : 0 < 1 - Real.exp (-eta) := by linarith
  have h0 : (Interaction.decreasing R eta).factor 0 = 1 := by
    simp only [Interaction.decreasing, mul_zero, Real.exp_zero]
    rw [div_eq_one_iff_eq hpos.ne']
    ring
  have h1 : (Interaction.decreasing R eta).factor 1 = R := by
    simp only [Interaction.decreasing, mul_one]
    rw [div_eq_iff hpos.ne']
    ring
  have hm : ∀ v w, v ≤ w → (Interaction.decreasing R eta).factor w ≤ (Interaction.decreasing R eta).factor v := by
    intro v w hvw
    simp only [Interaction.decreasing]
    have he : Real.exp (-eta * w) ≤ Real.exp (-eta * v) := Real.exp_le_exp.2 (by nlinarith)
    have := mul_le_mul_of_nonneg_left he (sub_nonneg.2 hR)
    apply div_le_div_of_nonneg_right _ hpos.le
    linarith
  exact ⟨h0, h1, hm, fun w hw0 hw1 => ⟨h1.symm.le.trans (hm w 1 hw1), (hm 0 w hw0).trans h0.le⟩⟩

/-! ### Gradient damage -/

/-- The stress along differentiable strains and damage. -/
theorem stress_hasFDerivAt' {X : Type} [NormedAddCommGroup X] [NormedSpace ℝ X] {n : Nat} (dim : Nat) (E nu : ℝ)
    (app : DamageApplication) (ps : PlaneState) (x : X) (e : X → Fin n → ℝ) (e' : X →L[ℝ] (Fin n → ℝ))
    (he : HasFDerivAt e e' x) (w : X → ℝ) (w' : X →L[ℝ] ℝ) (hw : HasFDerivAt w w' x) (l : LinearElasticDamage ℝ n)
    (hl : l = LinearElasticDamage.make dim n E nu app ps) (hs : l.Smooth (e x)) (i : Fin n) :
    HasFDerivAt (fun y => l.stress (e y) (w y) i)
      ((grad (l.dStressDStrain (e x) (w x) i)).comp e' + l.dStressDOmega (e x) i • w') x := by
  set V := grad (fun j => 1 / 3 * l.mD2 j) with hV
  have hvol : ∀ z, l.volumetric z = V z := volumetric_eq l
  set Hc := l.H (l.volumetric (e x)) with hHc
  have hVd : HasFDerivAt (fun y => V (e y)) (V.comp e') x := V.hasFDerivAt.comp x he
  have hxi : HasFDerivAt (fun y => e y i) ((ContinuousLinearMap.proj i : (Fin n → ℝ) →L[ℝ] ℝ).comp e') x :=
    HasFDerivAt.comp (g := fun z : Fin n → ℝ => z i) x (hasFDerivAt_apply i (e x)) he
  have h1 : HasFDerivAt (fun y => l.mD i * ((1 - w y * Hc) * l.m3K * V (e y)) +
      (1 - w y) * l.m2G * l.mPinvDiag i * (e y i - l.mD i * V (e y))) _ x :=
    ((((((hw.mul_const Hc).const_sub 1).mul_const l.m3K).mul hVd).const_mul (l.mD i)).add
      ((((hw.const_sub 1).mul_const l.m2G).mul_const (l.mPinvDiag i)).mul (hxi.sub (hVd.const_mul (l.mD i)))))
  have hev : (fun y => l.stress (e y) (w y) i) =ᶠ[𝓝 x] fun y =>
      l.mD i * ((1 - w y * Hc) * l.m3K * V (e y)) +
      (1 - w y) * l.m2G * l.mPinvDiag i * (e y i - l.mD i * V (e y)) := by
    filter_upwards [he.continuousAt.eventually (H_eventually l (e x) hs)] with y hy
    rw [LinearElasticDamage.stress]
    dsimp only
    rw [hy, hvol (e y)]
  refine (h1.congr_of_eventuallyEq hev).congr_fderiv ?_
  ext h
  have htan := tangent_apply dim E nu (w x) app ps (e x) (e' h) i
  dsimp only at htan
  rw [← hl] at htan
  have hr : ((grad (l.dStressDStrain (e x) (w x) i)).comp e' + l.dStressDOmega (e x) i • w') h =
      ∑ j, l.dStressDStrain (e x) (w x) i j * e' h j + l.dStressDOmega (e x) i * w' h := by
    rw [_root_.add_apply, ContinuousLinearMap.comp_apply, grad_apply]
    rfl
  rw [hr, htan, LinearElasticDamage.dStressDOmega]
  have hHV : l.H (V (e x)) = Hc := by rw [hHc, hvol]
  simp only [hvol, hHV]
  simp
  ring

namespace GradientDamage

variable {n dim nd ne : Nat}

/-- The same integration point with other node values. -/
def Ip.withValues (x : Ip n dim nd ne) (y : (Fin nd → ℝ) × (Fin ne → ℝ)) : Ip n dim nd ne :=
  { x with disp := { x.disp with values := y.1 }, eeq := { x.eeq with values := y.2 } }

theorem hasFDerivAt_mulVec {X : Type} [NormedAddCommGroup X] [NormedSpace ℝ X] {m d : Nat}
    (B : Matrix (Fin m) (Fin d) ℝ) (L : X →L[ℝ] (Fin d → ℝ)) (x : X) :
    HasFDerivAt (fun y => B *ᵥ L y) ((toCLM B).comp L) x := by
  have := ((toCLM B).comp L).hasFDerivAt (x := x)
  exact this.congr_of_eventuallyEq (Eventually.of_forall fun v => (toCLM_apply B (L v)).symm)

theorem transpose_mulVec_apply {m d : Nat} (B : Matrix (Fin m) (Fin d) ℝ) (v : Fin m → ℝ) (a : Fin d) :
    (Bᵀ *ᵥ v) a = ∑ k, B k a * v k := by
  simp [mulVec, dotProduct]

theorem row_transpose_mulVec {d : Nat} (N : Matrix (Fin 1) (Fin d) ℝ) (v : Fin 1 → ℝ) (a : Fin d) :
    (Nᵀ *ᵥ v) a = N 0 a * v 0 := by
  rw [transpose_mulVec_apply, Fin.sum_univ_one]

theorem matrix_one_mulVec {m : Nat} (M : Matrix (Fin m) (Fin 1) ℝ) (v : Fin 1 → ℝ) (k : Fin m) :
    (M *ᵥ v) k = M k 0 * v 0 := by
  simp [mulVec, dotProduct]

theorem grad_row {m d : Nat} (B : Matrix (Fin m) (Fin d) ℝ) (v : Fin d → ℝ) (k : Fin m) :
    grad (B k) v = (B *ᵥ v) k := grad_apply _ _

/-- C64: wherever strain norm, damage law, interaction and the unilateral switch are differentiable and the state is
not exactly at the loading threshold, the four blocks of `Hessian0` are the derivatives of the two blocks of
`Gradient` with respect to all node values, with the history held fixed. -/
theorem C64_gradient_damage (E nu : ℝ) (app : DamageApplication) (ps : PlaneState) (g : GradientDamage n)
    (hl : g.elastic = LinearElasticDamage.make dim n E nu app ps) (x : Ip n dim nd ne)
    (hr : g.history.InRange x.cellId x.ipId) (old : ℝ) (hold : old = g.history.val x.cellId.toNat x.ipId.toNat)
    (hs : g.elastic.Smooth (x.disp.B *ᵥ x.disp.values)) (hthr : (x.eeq.N *ᵥ x.eeq.values) 0 ≠ old)
    (hlaw : old < (x.eeq.N *ᵥ x.eeq.values) 0 →
      HasDerivAt g.law.damage (g.law.derivative ((x.eeq.N *ᵥ x.eeq.values) 0)) ((x.eeq.N *ᵥ x.eeq.values) 0))
    (hint : ∀ w, HasDerivAt g.interaction.factor (g.interaction.derivative w) w)
    (hnorm : HasFDerivAt g.norm (grad (g.dNorm (x.disp.B *ᵥ x.disp.values))) (x.disp.B *ᵥ x.disp.values)) :
    ∃ (R : (Fin nd → ℝ) × (Fin ne → ℝ) → (Fin nd → ℝ) × (Fin ne → ℝ)) (H : Blocks nd ne),
      (∀ y, g.gradient (x.withValues y) = .ok (R y)) ∧ g.hessian0 x = .ok H ∧
      (∀ a, HasFDerivAt (fun y => (R y).1 a)
        ((grad (H.dd a)).comp (.fst ℝ _ _) + (grad (H.de a)).comp (.snd ℝ _ _)) (x.disp.values, x.eeq.values)) ∧
      ∀ b, HasFDerivAt (fun y => (R y).2 b)
        ((grad (H.ed b)).comp (.fst ℝ _ _) + (grad (H.ee b)).comp (.snd ℝ _ _)) (x.disp.values, x.eeq.values) := by
  have hget : g.history.get x.cellId x.ipId = .ok old := by
    rw [History.get, if_pos (by exact hr), hold]
  set p : (Fin nd → ℝ) × (Fin ne → ℝ) := (x.disp.values, x.eeq.values) with hp
  set eps : (Fin nd → ℝ) × (Fin ne → ℝ) → Fin n → ℝ := fun y => x.disp.B *ᵥ y.1 with heps
  set q : (Fin nd → ℝ) × (Fin ne → ℝ) → ℝ := fun y => (x.eeq.N *ᵥ y.2) 0 with hq
  set w : (Fin nd → ℝ) × (Fin ne → ℝ) → ℝ := fun y => g.law.damage (max old (q y)) with hw
  set dk : ℝ := if q p ≥ old then 1 else 0 with hdk
  set dw : ℝ := g.law.derivative (max old (q p)) * dk with hdw
  have deps : HasFDerivAt eps ((toCLM x.disp.B).comp (.fst ℝ _ _)) p :=
    hasFDerivAt_mulVec x.disp.B (ContinuousLinearMap.fst ℝ (Fin nd → ℝ) (Fin ne → ℝ)) p
  have dq : HasFDerivAt q ((grad (x.eeq.N 0)).comp (.snd ℝ _ _)) p := by
    have := ((grad (x.eeq.N 0)).comp (ContinuousLinearMap.snd ℝ (Fin nd → ℝ) (Fin ne → ℝ))).hasFDerivAt (x := p)
    refine this.congr_of_eventuallyEq (Eventually.of_forall fun y => ?_)
    rw [ContinuousLinearMap.comp_apply, grad_apply]
    rfl
  have hqp : q p ≠ old := hthr
  have dw' : HasFDerivAt w (dw • (grad (x.eeq.N 0)).comp (.snd ℝ _ _)) p := by
    rcases lt_or_gt_of_ne hqp with h | h
    · have hev : w =ᶠ[𝓝 p] fun _ => g.law.damage old := by
        filter_upwards [dq.continuousAt.eventually_lt continuousAt_const h] with y hy
        rw [hw]
        dsimp only
        rw [max_eq_left hy.le]
      have h0 : dw = 0 := by rw [hdw, hdk, if_neg (not_le.2 h), mul_zero]
      rw [h0, zero_smul]
      exact (hasFDerivAt_const _ p).congr_of_eventuallyEq hev
    · have hev : w =ᶠ[𝓝 p] fun y => g.law.damage (q y) := by
        filter_upwards [continuousAt_const.eventually_lt dq.continuousAt h] with y hy
        rw [hw]
        dsimp only
        rw [max_eq_right hy.le]
      have h1 : dw = g.law.derivative (q p) := by rw [hdw, hdk, if_pos h.le, mul_one, max_eq_right h.le]
      rw [h1]
      exact ((hlaw h).comp_hasFDerivAt p dq).congr_of_eventuallyEq hev
  have df : HasFDerivAt (fun y => g.interaction.factor (w y))
      (g.interaction.derivative (w p) • dw • (grad (x.eeq.N 0)).comp (.snd ℝ _ _)) p :=
    (hint (w p)).comp_hasFDerivAt p dw'
  have dn : HasFDerivAt (fun y => g.norm (eps y)) ((grad (g.dNorm (eps p))).comp ((toCLM x.disp.B).comp (.fst ℝ _ _))) p :=
    hnorm.comp p deps
  have dge : ∀ k, HasFDerivAt (fun y : (Fin nd → ℝ) × (Fin ne → ℝ) => (x.eeq.B *ᵥ y.2) k)
      ((grad (x.eeq.B k)).comp (.snd ℝ _ _)) p := by
    intro k
    have := ((grad (x.eeq.B k)).comp (ContinuousLinearMap.snd ℝ (Fin nd → ℝ) (Fin ne → ℝ))).hasFDerivAt (x := p)
    refine this.congr_of_eventuallyEq (Eventually.of_forall fun y => ?_)
    rw [ContinuousLinearMap.comp_apply, grad_apply]
    rfl
  refine ⟨fun y => (x.disp.Bᵀ *ᵥ g.elastic.stress (eps y) (w y),
      x.eeq.Nᵀ *ᵥ (fun _ => q y - g.norm (eps y)) +
        x.eeq.Bᵀ *ᵥ ((g.c * g.interaction.factor (w y)) • (x.eeq.B *ᵥ y.2))),
    { dd := x.disp.Bᵀ * g.elastic.dStressDStrain (eps p) (w p) * x.disp.B
      ed := -x.eeq.Nᵀ * (column (g.dNorm (eps p)))ᵀ * x.disp.B
      ee := x.eeq.Nᵀ * x.eeq.N + (g.c * g.interaction.factor (w p)) • (x.eeq.Bᵀ * x.eeq.B) +
        (g.c * g.interaction.derivative (w p) * g.law.derivative (max old (q p)) * dk) •
          (x.eeq.Bᵀ * column (x.eeq.B *ᵥ p.2) * x.eeq.N)
      de := x.disp.Bᵀ * column ((g.law.derivative (max old (q p)) * dk) • g.elastic.dStressDOmega (eps p)) *
        x.eeq.N }, fun y => ?_, ?_, fun a => ?_, fun b => ?_⟩
  · rw [gradient, kappa]
    show (((g.history.get x.cellId x.ipId).bind _).bind _) = _
    rw [hget]
    rfl
  · rw [hessian0, kappa, dKappaDEeq, hget]
    rfl
  · have h1 := HasFDerivAt.fun_sum (u := Finset.univ) fun k _ =>
      (stress_hasFDerivAt' dim E nu app ps p eps _ deps w _ dw' g.elastic hl hs k).const_mul (x.disp.B k a)
    refine h1.congr_fderiv ?_
    refine ContinuousLinearMap.ext fun v => ?_
    have hN : grad (x.eeq.N 0) v.2 = (x.eeq.N *ᵥ v.2) 0 := grad_apply _ _
    have hR : ∀ (M : Matrix (Fin n) (Fin 1) ℝ), grad ((x.disp.Bᵀ * M * x.eeq.N) a) v.2 =
        ∑ k, x.disp.B k a * (M k 0 * (x.eeq.N *ᵥ v.2) 0) := by
      intro M
      rw [grad_row, ← mulVec_mulVec, ← mulVec_mulVec, transpose_mulVec_apply]
      refine Finset.sum_congr rfl fun k _ => ?_
      rw [matrix_one_mulVec]
    have hD : grad ((x.disp.Bᵀ * g.elastic.dStressDStrain (eps p) (w p) * x.disp.B) a) v.1 =
        ∑ k, x.disp.B k a * grad (g.elastic.dStressDStrain (eps p) (w p) k) (x.disp.B *ᵥ v.1) := by
      rw [grad_row, ← mulVec_mulVec, ← mulVec_mulVec, transpose_mulVec_apply]
      refine Finset.sum_congr rfl fun k _ => ?_
      rw [grad_row]
    rw [_root_.sum_apply, _root_.add_apply, ContinuousLinearMap.comp_apply, ContinuousLinearMap.comp_apply]
    show _ = grad _ v.1 + grad _ v.2
    rw [hR, hD, ← Finset.sum_add_distrib]
    refine Finset.sum_congr rfl fun k _ => ?_
    rw [_root_.smul_apply, _root_.add_apply, ContinuousLinearMap.comp_apply, ContinuousLinearMap.comp_apply, toCLM_apply,
      _root_.smul_apply, _root_.smul_apply, ContinuousLinearMap.comp_apply]
    show x.disp.B k a * (grad _ (x.disp.B *ᵥ v.1) + _ * (dw * grad (x.eeq.N 0) v.2)) = _
    rw [hN, column, hdw]
    simp only [Pi.smul_apply, smul_eq_mul]
    ring
  · have h1 := (((dq.sub dn).const_mul (x.eeq.N 0 b)).add (HasFDerivAt.fun_sum (u := Finset.univ) fun k _ =>
      ((df.const_mul g.c).mul (dge k)).const_mul (x.eeq.B k b)))
    have hval : (fun y : (Fin nd → ℝ) × (Fin ne → ℝ) => (x.eeq.Nᵀ *ᵥ (fun _ => q y - g.norm (eps y)) +
        x.eeq.Bᵀ *ᵥ ((g.c * g.interaction.factor (w y)) • (x.eeq.B *ᵥ y.2))) b) = fun y =>
        x.eeq.N 0 b * (q y - g.norm (eps y)) +
          ∑ k, x.eeq.B k b * (g.c * g.interaction.factor (w y) * (x.eeq.B *ᵥ y.2) k) := by
      funext y
      rw [Pi.add_apply, row_transpose_mulVec, transpose_mulVec_apply]
      rfl
    dsimp only
    rw [hval]
    refine HasFDerivAt.congr_fderiv h1 ?_
    refine ContinuousLinearMap.ext fun v => ?_
    have hN : grad (x.eeq.N 0) v.2 = (x.eeq.N *ᵥ v.2) 0 := grad_apply _ _
    have hed : grad ((-x.eeq.Nᵀ * (column (g.dNorm (eps p)))ᵀ * x.disp.B) b) v.1 =
        -(x.eeq.N 0 b * grad (g.dNorm (eps p)) (x.disp.B *ᵥ v.1)) := by
      rw [grad_row, ← mulVec_mulVec, ← mulVec_mulVec, neg_mulVec, Pi.neg_apply, row_transpose_mulVec,
        transpose_mulVec_apply, grad_apply]
      rfl
    have hee : ∀ c1 c2 : ℝ, grad ((x.eeq.Nᵀ * x.eeq.N + c1 • (x.eeq.Bᵀ * x.eeq.B) +
        c2 • (x.eeq.Bᵀ * column (x.eeq.B *ᵥ p.2) * x.eeq.N)) b) v.2 =
        x.eeq.N 0 b * (x.eeq.N *ᵥ v.2) 0 + ∑ k, x.eeq.B k b * (c1 * (x.eeq.B *ᵥ v.2) k +
          c2 * ((x.eeq.B *ᵥ p.2) k * (x.eeq.N *ᵥ v.2) 0)) := by
      intro c1 c2
      rw [grad_row, add_mulVec, add_mulVec, smul_mulVec, smul_mulVec, ← mulVec_mulVec, ← mulVec_mulVec, ← mulVec_mulVec,
        ← mulVec_mulVec, Pi.add_apply, Pi.add_apply, Pi.smul_apply, Pi.smul_apply]
      have e1 : (x.eeq.Nᵀ *ᵥ x.eeq.N *ᵥ v.2) b = x.eeq.N 0 b * (x.eeq.N *ᵥ v.2) 0 := row_transpose_mulVec _ _ _
      have e2 : (x.eeq.Bᵀ *ᵥ column (x.eeq.B *ᵥ p.2) *ᵥ x.eeq.N *ᵥ v.2) b =
          ∑ k, x.eeq.B k b * ((x.eeq.B *ᵥ p.2) k * (x.eeq.N *ᵥ v.2) 0) := by
        rw [transpose_mulVec_apply]
        refine Finset.sum_congr rfl fun k _ => ?_
        rw [matrix_one_mulVec]
        rfl
      have e3 : (x.eeq.Bᵀ *ᵥ x.eeq.B *ᵥ v.2) b = ∑ k, x.eeq.B k b * (x.eeq.B *ᵥ v.2) k :=
        transpose_mulVec_apply _ _ _
      rw [e1, e2, e3, smul_eq_mul, smul_eq_mul, Finset.mul_sum, Finset.mul_sum, add_assoc, ← Finset.sum_add_distrib]
      congr 1
      refine Finset.sum_congr rfl fun k _ => ?_
      ring
    have hB : ∀ k, grad (x.eeq.B k) v.2 = (x.eeq.B *ᵥ v.2) k := fun k => grad_apply _ _
    rw [_root_.add_apply, _root_.add_apply, _root_.sum_apply, _root_.smul_apply, _root_.sub_apply,
      ContinuousLinearMap.comp_apply, ContinuousLinearMap.comp_apply, ContinuousLinearMap.comp_apply]
    show x.eeq.N 0 b * (grad (x.eeq.N 0) v.2 - _) + _ = grad _ v.1 + grad _ v.2
    rw [hed, hee, hN, toCLM_apply]
    have hsum : ∀ k, (x.eeq.B k b • ((g.c * g.interaction.factor (w p)) • (grad (x.eeq.B k)).comp
          (ContinuousLinearMap.snd ℝ (Fin nd → ℝ) (Fin ne → ℝ)) +
        (x.eeq.B *ᵥ p.2) k • g.c • g.interaction.derivative (w p) • dw • (grad (x.eeq.N 0)).comp
          (ContinuousLinearMap.snd ℝ (Fin nd → ℝ) (Fin ne → ℝ)))) v =
        x.eeq.B k b * (g.c * g.interaction.factor (w p) * (x.eeq.B *ᵥ v.2) k +
          g.c * g.interaction.derivative (w p) * g.law.derivative (max old (q p)) * dk *
            ((x.eeq.B *ᵥ p.2) k * (x.eeq.N *ᵥ v.2) 0)) := by
      intro k
      simp only [_root_.smul_apply, _root_.add_apply, ContinuousLinearMap.comp_apply, smul_eq_mul]
      show x.eeq.B k b * (_ * grad (x.eeq.B k) v.2 + _ * (_ * (_ * (dw * grad (x.eeq.N 0) v.2)))) = _
      rw [hB, hN, hdw]
      ring
    rw [Finset.sum_congr rfl fun k _ => hsum k]
    show x.eeq.N 0 b * (_ - grad (g.dNorm (eps p)) (x.disp.B *ᵥ v.1)) + _ = _
    ring

/-- C64: `Update` stores the larger of the old history variable and the nonlocal equivalent strain at the point, and changes
nothing else: no other point and no parameter. Outside of the history it is undefined. -/
theorem C64_update (g : GradientDamage n) (x : Ip n dim nd ne) :
    (g.history.get x.cellId x.ipId = .ub ∧ g.update x = .ub) ∨
    ∃ old g', g.history.get x.cellId x.ipId = .ok old ∧ g.update x = .ok g' ∧
      g'.history.get x.cellId x.ipId = .ok (max old ((x.eeq.N *ᵥ x.eeq.values) 0)) ∧
      (∀ c i, (c ≠ x.cellId ∨ i ≠ x.ipId) → g'.history.get c i = g.history.get c i) ∧
      { g' with history := g.history } = g := by
  by_cases h : 0 ≤ x.cellId ∧ x.cellId < g.history.rows ∧ 0 ≤ x.ipId ∧ x.ipId < g.history.cols
  · have h1 : g.history.get x.cellId x.ipId = .ok (g.history.val x.cellId.toNat x.ipId.toNat) := by rw [History.get, if_pos h]
    refine .inr ⟨_, { g with history := { g.history with
      val := fun c i =>
        if c = x.cellId.toNat ∧ i = x.ipId.toNat then (max (g.history.val x.cellId.toNat x.ipId.toNat) x.eeqValue)
        else g.history.val c i } }, h1, ?_, ?_, ?_, rfl⟩
    · rw [update, kappa, h1, Res.bind_ok', Res.bind_ok', History.set, if_pos h, Res.bind_ok']
    · rw [History.get, if_pos h]
      simp only [and_self, if_true]
      rfl
    · intro c i hne
      simp only [History.get]
      split
      · rename_i hci
        have : ¬(c.toNat = x.cellId.toNat ∧ i.toNat = x.ipId.toNat) := by omega
        simp only [if_neg this]
      · rfl
  · have h1 : g.history.get x.cellId x.ipId = .ub := by rw [History.get, if_neg h]
    exact .inl ⟨h1, by rw [update, kappa, h1]; rfl⟩

/-- C64: without a history the integrand is undefined everywhere: the constructors do not allocate `mKappas`. -/
theorem C64_history_needed (c : ℝ) (elastic : LinearElasticDamage ℝ n) (law : DamageLaw) (norm : (Fin n → ℝ) → ℝ)
    (dNorm : (Fin n → ℝ) → Fin n → ℝ) (interaction : Interaction) (x : Ip n dim nd ne) :
    (make c elastic law norm dNorm interaction).gradient x = .ub ∧
    (make c elastic law norm dNorm interaction).hessian0 x = .ub := by
  have h : (make c elastic law norm dNorm interaction).history.get x.cellId x.ipId = .ub := by
    rw [make, History.resize, History.get, if_neg]
    rintro ⟨h1, h2, _⟩
    simp at h2
    omega
  constructor
  · rw [gradient, kappa, h]; rfl
  · rw [hessian0, kappa, h]; rfl

/-- C64 for the integrand as constructed from a softening material in 3D: all states that are not volumetric, not at
the loading threshold and not at the elastic limit. -/
theorem C64_gradient_damage3D (m : Softening ℝ) (hE : 0 < m.E) (hft : 0 < m.ft) (hgf : 0 < m.gf)
    (hmin0 : 0 < m.fMin) (hmin1 : m.fMin ≤ m.ft) (hadm : MisesNorm.Admissible m.nu (m.fc / m.ft)) (h : History)
    (app : DamageApplication) (R eta : ℝ) (inter : Interaction)
    (hinter : inter = .constant ∨ inter = .decreasing R eta) (g : GradientDamage 6)
    (hg : g = { make m.c (LinearElasticDamage.ofSoftening 3 6 m app) (DamageLaw.exponentialOf m)
      (MisesNorm.ofSoftening m).value3 (MisesNorm.ofSoftening m).derivative3 inter with history := h })
    (x : Ip 6 3 nd ne) (hr : h.InRange x.cellId x.ipId) (e : Fin 6 → ℝ) (he : e = x.disp.B *ᵥ x.disp.values)
    (hv : app = .unilateral → e 0 + e 1 + e 2 ≠ 0) (hJ : StrainInvariants.J2 e ≠ 0)
    (hthr : (x.eeq.N *ᵥ x.eeq.values) 0 ≠ h.val x.cellId.toNat x.ipId.toNat)
    (hk0 : (x.eeq.N *ᵥ x.eeq.values) 0 ≠ m.ft / m.E) :
    ∃ (R : (Fin nd → ℝ) × (Fin ne → ℝ) → (Fin nd → ℝ) × (Fin ne → ℝ)) (H : Blocks nd ne),
      (∀ y, g.gradient (x.withValues y) = .ok (R y)) ∧ g.hessian0 x = .ok H ∧
      (∀ a, HasFDerivAt (fun y => (R y).1 a)
        ((grad (H.dd a)).comp (.fst ℝ _ _) + (grad (H.de a)).comp (.snd ℝ _ _)) (x.disp.values, x.eeq.values)) ∧
      ∀ b, HasFDerivAt (fun y => (R y).2 b)
        ((grad (H.ed b)).comp (.fst ℝ _ _) + (grad (H.ee b)).comp (.snd ℝ _ _)) (x.disp.values, x.eeq.values) := by
  subst hg
  subst he
  have hgood := (C37_material m hE hft hgf hmin0 hmin1).1
  have hA : (MisesNorm.ofSoftening m).A (x.disp.B *ᵥ x.disp.values) ≠ 0 := fun h0 =>
    hJ ((C38_singular hadm .planeStrain _).1 h0).1
  refine C64_gradient_damage m.E m.nu app m.planeState _ rfl x hr _ rfl ?_ hthr (fun _ => ?_) (fun w => ?_)
    (C38_derivative3 (MisesNorm.ofSoftening m) _ hA)
  · intro ha h0
    refine hv ha ?_
    have hv' : (LinearElasticDamage.ofSoftening 3 6 m app).volumetric (x.disp.B *ᵥ x.disp.values) =
        1 / 3 * ((x.disp.B *ᵥ x.disp.values) 0 + (x.disp.B *ᵥ x.disp.values) 1 + (x.disp.B *ᵥ x.disp.values) 2) := by
      simp [LinearElasticDamage.volumetric, LinearElasticDamage.ofSoftening, LinearElasticDamage.make, Fin.sum_univ_six]
    have h0' : (LinearElasticDamage.ofSoftening 3 6 m app).volumetric (x.disp.B *ᵥ x.disp.values) = 0 := h0
    rw [hv'] at h0'
    linarith
  · refine hgood.deriv _ ?_
    set k := (x.eeq.N *ᵥ x.eeq.values) 0
    have hpos : 0 < m.ft / m.E := by positivity
    rcases lt_or_gt_of_ne hk0 with hlt | hgt
    · have hev : (DamageLaw.exponentialOf m).damage =ᶠ[𝓝 k] fun _ => 0 := by
        filter_upwards [Iio_mem_nhds hlt] with x hx
        exact hgood.elastic x (le_of_lt hx)
      exact (differentiableAt_const _).congr_of_eventuallyEq hev
    · have hev : (DamageLaw.exponentialOf m).damage =ᶠ[𝓝 k] fun x => 1 - m.ft / m.E / x *
          (1 - (1 - m.fMin / m.ft) + (1 - m.fMin / m.ft) *
            Real.exp (m.ft / m.gf * (m.ft / m.E - x))) := by
        filter_upwards [Ioi_mem_nhds hgt] with x hx
        simp only [DamageLaw.exponentialOf, DamageLaw.exponential]
        rw [if_neg (not_lt.2 (le_of_lt hx))]
      have hk : k ≠ 0 := (hpos.trans hgt).ne'
      refine DifferentiableAt.congr_of_eventuallyEq ?_ hev
      fun_prop (disch := assumption)
  · rcases hinter with rfl | rfl
    · exact (C64_interaction R eta w).1
    · exact (C64_interaction R eta w).2

/-- A state of one element with one scalar node value per dof: material, strain (uniaxial) and nonlocal strain meet the
conditions. -/
example : ∃ (m : Softening ℝ) (x : Ip 6 3 1 1), 0 < m.E ∧ 0 < m.ft ∧ 0 < m.gf ∧ 0 < m.fMin ∧ m.fMin ≤ m.ft ∧
    MisesNorm.Admissible m.nu (m.fc / m.ft) ∧ (History.resize 1 1).InRange x.cellId x.ipId ∧
    StrainInvariants.J2 (x.disp.B *ᵥ x.disp.values) ≠ 0 ∧
    (x.disp.B *ᵥ x.disp.values) 0 + (x.disp.B *ᵥ x.disp.values) 1 + (x.disp.B *ᵥ x.disp.values) 2 ≠ 0 ∧
    (x.eeq.N *ᵥ x.eeq.values) 0 ≠ (History.resize 1 1).val x.cellId.toNat x.ipId.toNat ∧
    (x.eeq.N *ᵥ x.eeq.values) 0 ≠ m.ft / m.E := by
  refine ⟨{ E := 30000, nu := 1 / 5, ft := 4, fc := 40, gf := 1 / 10, c := 1, fMin := 4 / 100 },
    ⟨⟨fun _ _ => 0, fun i _ => if i = 0 then 1 else 0, fun _ => 1⟩, ⟨fun _ _ => 1, fun _ _ => 1, fun _ => 1⟩, 0, 0⟩,
    by norm_num, by norm_num, by norm_num, by norm_num, by norm_num, ⟨by norm_num, by norm_num, by norm_num⟩, ?_, ?_, ?_,
    ?_, ?_⟩
  · simp [History.InRange, History.resize]
  · simp [StrainInvariants.J2, mulVec, dotProduct]
  · simp [mulVec, dotProduct]
  · simp [mulVec, dotProduct, History.resize]
  · simp [mulVec, dotProduct]
    norm_num

end GradientDamage

end NuTo.Integrands
