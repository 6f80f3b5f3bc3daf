/-
C123: computed displacements and reactions in other units of length and force.
-/
import Verif.Props.Renumbering

namespace NuTo

open Assembly Finset Balance Solve Statics Quasistatic ElasticStep Reactions Jacobian

namespace Scaling

open Renumbering (terms SameEquation SameConstraints Matches Renumbered)

/-! ### Specification -/

/-- The cell `y` is the cell `x` with the lengths in another unit. -/
structure Scaled (dim : Nat) (l : ℝ) (x y : Cell × FemElement ℝ) : Prop where
  rule : y.1.rule = x.1.rule
  interp : y.1.coordElement.interp = x.1.coordElement.interp
  dofInterp : y.2.interp = x.2.interp
  position : ∀ i < x.1.coordElement.nodes.length, ∀ a < dim, component y.1.coordElement i a = l * component x.1.coordElement i a
  numbers : ∀ i < x.2.nodes.length, ∀ a < dim, number y.2 i a = number x.2 i a

/-- A vector in another unit. -/
def Times (n : Nat) (l : ℝ) (u u' : List ℝ) : Prop :=
  u.length = n ∧ u'.length = n ∧ ∀ i < n, u'.getD i 0 = l * u.getD i 0

/-! ### Proofs -/

variable {dim n dof dof' : Nat} {l μ : ℝ} {E nu : ℝ} {s s' : DofSizes} {cells cells' : List (Cell × FemElement ℝ)}
  {threads threads' : List (List (Cell × FemElement ℝ))} {st st' : NodeStore ℝ} {c c' : Constraints ℝ} {num num' : Term ℝ → Nat}
  {x y : Cell × FemElement ℝ}

theorem Scaled.count (h : Scaled dim l x y) (hx : Body dim n x) (hy : Body dim n y) :
    y.2.nodes.length = x.2.nodes.length ∧ y.1.coordElement.nodes.length = x.1.coordElement.nodes.length := by
  rw [hx.dof.count, hy.dof.count, hx.coord.count, hy.coord.count, h.dofInterp, h.interp]
  exact ⟨rfl, rfl⟩

theorem Scaled.symm (hl : l ≠ 0) (h : Scaled dim l x y) (hx : Body dim n x) (hy : Body dim n y) : Scaled dim l⁻¹ y x where
  rule := h.rule.symm
  interp := h.interp.symm
  dofInterp := h.dofInterp.symm
  position i hi a ha := by
    rw [h.position i (by rw [← (h.count hx hy).2]; exact hi) a ha, ← mul_assoc, inv_mul_cancel₀ hl, one_mul]
  numbers i hi a ha := (h.numbers i (by rw [← (h.count hx hy).1]; exact hi) a ha).symm

theorem Scaled.points (h : Scaled dim l x y) {p q : List (ℝ × IpData)} (hp : x.1.Points p) (hq : y.1.Points q) :
    List.Forall₂ (fun a b => b.1 = a.1 ∧ b.2.coords = a.2.coords) p q := by
  unfold Cell.Points at hp hq
  rw [h.rule] at hq
  generalize x.1.rule.zipIdx = l at hp hq
  induction l generalizing p q with
  | nil =>
    cases hp
    cases hq
    exact .nil
  | cons a l ih =>
    cases hp with
    | cons p1 p2 =>
      cases hq with
      | cons q1 q2 =>
        exact .cons ⟨q1.1.trans p1.1.symm, (Frame.ipData_fields q1.2).2.2.trans (Frame.ipData_fields p1.2).2.2.symm⟩ (ih p2 q2)

/-- Jacobian and gradients in the two units. -/
theorem Scaled.gradient (h : Scaled dim l x y) (hl : l ≠ 0) (hx : Body dim n x) (hy : Body dim n y)
    {pts pts' : List (ℝ × IpData)} (hp : x.1.Points pts) (hp' : y.1.Points pts') {p q : ℝ × IpData} (hpm : p ∈ pts)
    (hqm : q ∈ pts') (hs : q.2.coords = p.2.coords) (hdet : p.2.jacobian.det ≠ 0) :
    q.2.jacobian.det = l ^ dim * p.2.jacobian.det ∧ ∀ i, ∀ d < dim, (gradients y.2 q.2).coef i d =
      l⁻¹ * (gradients x.2 p.2).coef i d := by
  obtain ⟨i1, i2, i3⟩ := hx.point hp p hpm
  obtain ⟨j1, j2, j3⟩ := hy.point hp' q hqm
  obtain ⟨_, hc⟩ := h.count hx hy
  rw [h.interp, hs] at j3
  have hlen : (x.1.coordElement.interp.deriv fun k => p.2.coords.getD k 0).length = x.1.coordElement.nodes.length := by
    rw [hx.coordUnity.derivLen, hx.coord.count]
  have ei := Jacobian.C40_entries i3
  have ej := Jacobian.C40_entries j3
  have si := Jacobian.C40_square i3 (i1.trans i2.symm)
  have sj := Jacobian.C40_square j3 (j1.trans j2.symm)
  have hgx : ∀ i d, (gradients x.2 p.2).coef i d = ∑ j ∈ range dim,
      ((x.2.interp.deriv fun k => p.2.coords.getD k 0).getD i []).getD j 0 * p.2.jacobian.inv j d := by
    intro i d
    show p.2.jacobian.transform _ i d = _
    rw [Jacobian.transform, sum_range_list, i2]
  have hgy : ∀ i d, (gradients y.2 q.2).coef i d = ∑ j ∈ range dim,
      ((x.2.interp.deriv fun k => p.2.coords.getD k 0).getD i []).getD j 0 * q.2.jacobian.inv j d := by
    intro i d
    show q.2.jacobian.transform _ i d = _
    rw [Jacobian.transform, sum_range_list, j2, h.dofInterp, hs]
  rw [hlen] at ei ej
  rw [i1] at ei si
  rw [j1] at ej sj
  generalize (x.1.coordElement.interp.deriv fun k => p.2.coords.getD k 0) = dN at *
  generalize q.2.jacobian = J' at *
  generalize p.2.jacobian = J at *
  have hjac : ∀ d < dim, ∀ j, J'.jac d j = l * J.jac d j := by
    intro d hd j
    rw [ej, ei, mul_sum]
    refine sum_congr rfl fun i hi => ?_
    have hi' := mem_range.1 hi
    rw [values_getD (by rw [hc]; exact hi') hd, values_getD hi' hd, h.position i hi' d hd, mul_assoc]
  have hmat : toMat dim dim J'.jac = l • toMat dim dim J.jac := by
    ext d j
    exact hjac d d.2 j
  have hdet' : J'.det = l ^ dim * J.det := by rw [sj.1, si.1, hmat, Matrix.det_smul, Fintype.card_fin]
  refine ⟨hdet', fun i d hd => ?_⟩
  have a1 := (si.2 hdet).1
  have a2 := (sj.2 (by rw [hdet']; exact mul_ne_zero (pow_ne_zero _ hl) hdet)).2
  rw [hmat] at a2
  have hinv : toMat dim dim J'.inv = l⁻¹ • toMat dim dim J.inv := by
    calc toMat dim dim J'.inv = toMat dim dim J'.inv * (toMat dim dim J.jac * toMat dim dim J.inv) := by
          rw [a1, Matrix.mul_one]
      _ = l⁻¹ • (toMat dim dim J'.inv * (l • toMat dim dim J.jac) * toMat dim dim J.inv) := by
          rw [Matrix.mul_smul, Matrix.smul_mul, smul_smul, inv_mul_cancel₀ hl, one_smul, Matrix.mul_assoc]
      _ = _ := by rw [a2, Matrix.one_mul]
  have hent : ∀ j < dim, J'.inv j d = l⁻¹ * J.inv j d := by
    intro j hj
    exact congrFun (congrFun hinv ⟨j, hj⟩) ⟨d, hd⟩
  rw [hgy, hgx, mul_sum]
  refine sum_congr rfl fun j hj => ?_
  rw [hent j (mem_range.1 hj)]
  ring

theorem Scaled.strain (h : Scaled dim l x y) (hl : l ≠ 0) (hx : Body dim n x) (hy : Body dim n y)
    {pts pts' : List (ℝ × IpData)} (hp : x.1.Points pts) (hp' : y.1.Points pts') {p q : ℝ × IpData} (hpm : p ∈ pts)
    (hqm : q ∈ pts') (hs : q.2.coords = p.2.coords) (hdet : p.2.jacobian.det ≠ 0) {S S' : Nat → ℝ} (hS : ∀ i < n, S' i = l * S i) :
    strains dim (gradients y.2 q.2) (Balance.restrict dim y.2 S') =
      strains dim (gradients x.2 p.2) (Balance.restrict dim x.2 S) := by
  rw [Frame.strains_voigt_self hx.dim1 hx.dim3 (gradients x.2 p.2)]
  refine strains_voigt dim hx.dim1 hx.dim3 _ _ _ fun a ha d hd => ?_
  obtain ⟨_, hg⟩ := h.gradient hl hx hy hp hp' hpm hqm hs hdet
  obtain ⟨hc, _⟩ := h.count hx hy
  have r1 : (gradients y.2 q.2).rows = x.2.nodes.length := by rw [← hc, hy.dof.count]; rfl
  have r2 : (gradients x.2 p.2).rows = x.2.nodes.length := by rw [hx.dof.count]; rfl
  rw [displacementGradient, displacementGradient, r1, r2]
  refine sum_congr rfl fun i hi => ?_
  have hi' := mem_range.1 hi
  rw [restrict_getD (by rw [hc]; exact hi') ha, restrict_getD hi' ha, h.numbers i hi' a ha, hS _ (Frame.number_lt hx hi' ha),
    hg i d hd]
  field_simp

theorem coefficients3D_scale (E nu μ : ℝ) : LinearElastic.coefficients3D (μ * E) nu =
    (μ * (LinearElastic.coefficients3D E nu).1, μ * (LinearElastic.coefficients3D E nu).2.1,
      μ * (LinearElastic.coefficients3D E nu).2.2) := by
  simp only [LinearElastic.coefficients3D, Prod.mk.injEq]
  refine ⟨?_, ?_, ?_⟩ <;> ring

theorem coefficients2D_scale (E nu μ : ℝ) : LinearElastic.coefficients2DPlaneStress (μ * E) nu =
    (μ * (LinearElastic.coefficients2DPlaneStress E nu).1, μ * (LinearElastic.coefficients2DPlaneStress E nu).2.1,
      μ * (LinearElastic.coefficients2DPlaneStress E nu).2.2) := by
  simp only [LinearElastic.coefficients2DPlaneStress, Prod.mk.injEq]
  refine ⟨?_, ?_, ?_⟩ <;> ring

theorem ofMatrix_scale {k : Nat} {C C' : Matrix (Fin k) (Fin k) ℝ} (h : C' = μ • C) (i j : Nat) :
    (ofMatrix C').coef i j = μ * (ofMatrix C).coef i j := by
  subst h
  simp only [ofMatrix]
  split
  · rfl
  · rw [mul_zero]

theorem tangent_scale (h1 : 1 ≤ dim) (h3 : dim ≤ 3) (E nu μ : ℝ) (ps : PlaneState) (i j : Nat) :
    (elasticTangent dim (μ * E) nu ps).coef i j = μ * (elasticTangent dim E nu ps).coef i j := by
  interval_cases dim
  · exact ofMatrix_scale (by simp [LinearElastic.calculateC1]) i j
  · refine ofMatrix_scale ?_ i j
    simp only [LinearElastic.calculateC2, coefficients3D_scale, coefficients2D_scale]
    split <;> simp
  · refine ofMatrix_scale ?_ i j
    simp only [LinearElastic.calculateC3, coefficients3D_scale]
    simp

theorem bilinear_scale {D D' : DMat ℝ} (h : ∀ i j, D'.coef i j = μ * D.coef i j) (a b : List ℝ) :
    bilinear D' a b = μ * bilinear D a b := by
  simp only [bilinear, h, mul_sum]
  exact sum_congr rfl fun i _ => sum_congr rfl fun j _ => by ring

/-- C123 (energy): the strain energy in the other units. -/
theorem C123_energy (hl : l ≠ 0) (h : List.Forall₂ (Scaled dim l) cells cells') (hb : ∀ x ∈ cells, Body dim n x)
    (hb' : ∀ x ∈ cells', Body dim n x) (hdet : ∀ x ∈ cells, ∀ pts, x.1.Points pts → ∀ p ∈ pts, p.2.jacobian.det ≠ 0)
    (pts pts' : Cell × FemElement ℝ → List (ℝ × IpData)) (hpts : ∀ x ∈ cells, x.1.Points (pts x))
    (hpts' : ∀ x ∈ cells', x.1.Points (pts' x)) (ps : PlaneState) (R R' : Nat → ℝ) (hR : ∀ i < n, R' i = l * R i) :
    strainEnergy dim (elasticTangent dim (μ * E) nu ps) cells' pts' R' =
      μ * l ^ dim * strainEnergy dim (elasticTangent dim E nu ps) cells pts R := by
  rw [strainEnergy, strainEnergy, ← List.sum_map_mul_left]
  refine Renumbering.list_sum₂ _ _ h fun x hx y hy hxy => ?_
  rw [← List.sum_map_mul_left]
  refine Renumbering.list_sum₂ _ _ (hxy.points (hpts x hx) (hpts' y hy)) fun p hp q hq hpq => ?_
  have bx := hb x hx
  have hd := hdet x hx _ (hpts x hx) p hp
  rw [hxy.strain hl bx (hb' y hy) (hpts x hx) (hpts' y hy) hp hq hpq.2 hd hR,
    (hxy.gradient hl bx (hb' y hy) (hpts x hx) (hpts' y hy) hp hq hpq.2 hd).1, hpq.1,
    bilinear_scale fun i j => tangent_scale bx.dim1 bx.dim3 E nu μ ps i j]
  ring

theorem potential_scale (hl : l ≠ 0) (h : List.Forall₂ (Scaled dim l) cells cells') (hb : ∀ x ∈ cells, Body dim n x)
    (hb' : ∀ x ∈ cells', Body dim n x) (hdet : ∀ x ∈ cells, ∀ pts, x.1.Points pts → ∀ p ∈ pts, p.2.jacobian.det ≠ 0)
    (pts pts' : Cell × FemElement ℝ → List (ℝ × IpData)) (hpts : ∀ x ∈ cells, x.1.Points (pts x))
    (hpts' : ∀ x ∈ cells', x.1.Points (pts' x)) (ps : PlaneState) {F F' w w' : List ℝ} {κ : ℝ} (hκ : κ * l = μ * l ^ dim)
    (hF : Times n κ F F') (hw : Times n l w w') :
    potential dim (elasticTangent dim (μ * E) nu ps) cells' pts' F' w' =
      μ * l ^ dim * potential dim (elasticTangent dim E nu ps) cells pts F w := by
  rw [potential, potential, C123_energy hl h hb hb' hdet pts pts' hpts hpts' ps _ _ hw.2.2, hF.1, hF.2.1, mul_sub, mul_sum,
    ← hκ]
  congr 1
  exact sum_congr rfl fun i hi => by rw [hF.2.2 i (mem_range.1 hi), hw.2.2 i (mem_range.1 hi)]; ring

theorem times_ex (l : ℝ) (u : List ℝ) (hu : u.length = n) : ∃ u', Times n l u u' := by
  obtain ⟨u', e1, e2⟩ := ofFun n fun j => l * u.getD j 0
  exact ⟨u', hu, e1, e2⟩

theorem Times.symm {u u' : List ℝ} (hl : l ≠ 0) (h : Times n l u u') : Times n l⁻¹ u' u :=
  ⟨h.2.1, h.1, fun i hi => by rw [h.2.2 i hi, ← mul_assoc, inv_mul_cancel₀ hl, one_mul]⟩

/-- The same constraints, with the prescribed values in the other unit of length. -/
def ScaledConstraints (n : Nat) (l : ℝ) (dof dof' : Nat) (c c' : Constraints ℝ) (num num' : Term ℝ → Nat)
    (rhs rhs' : Equation ℝ → ℝ) : Prop :=
  ∀ w w', Times n l w w' → (Satisfies c' dof' num' rhs' w' ↔ Satisfies c dof num rhs w)

theorem lhs_scale {e : Equation ℝ} {w w' : List ℝ} (hw : Times n l w w') (hnum : ∀ t ∈ e.dep :: e.ind, num t < n) :
    e.lhs num (fun i => w'.getD i 0) = l * e.lhs num fun i => w.getD i 0 := by
  rw [Renumbering.lhs_terms, Renumbering.lhs_terms, ← List.sum_map_mul_left]
  congr 1
  refine List.map_congr_left fun t ht => ?_
  obtain ⟨a, ha, rfl⟩ := List.mem_map.1 ht
  beta_reduce
  rw [hw.2.2 _ (hnum a ha)]
  ring

/-- C123 (constraints): the same terms, in any order, and the scaled right-hand sides. -/
theorem C123_constraints (hl : l ≠ 0) {rhs rhs' : Equation ℝ → ℝ}
    (hnum : ∀ e ∈ c.equations dof, ∀ t ∈ e.dep :: e.ind, num t < n)
    (h1 : ∀ e ∈ c.equations dof, ∃ e' ∈ c'.equations dof', SameEquation id num num' (fun e => l * rhs e) rhs' e e')
    (h2 : ∀ e' ∈ c'.equations dof', ∃ e ∈ c.equations dof, SameEquation id num num' (fun e => l * rhs e) rhs' e e') :
    ScaledConstraints n l dof dof' c c' num num' rhs rhs' := by
  intro w w' hw
  have hs := Renumbering.C122_constraints (n := n) hnum h1 h2 w' w' ⟨hw.2.1, hw.2.1, fun _ _ => rfl⟩
  rw [hs]
  constructor
  · intro h e he
    have := h e he
    rw [lhs_scale hw (hnum e he)] at this
    exact mul_left_cancel₀ hl this
  · intro h e he
    rw [lhs_scale hw (hnum e he), h e he]

/-- C123 (equilibria): the scaled displacements are an equilibrium of the scaled problem. -/
theorem C123_equilibrium (hl : 0 < l) (hμ : 0 < μ) (h : List.Forall₂ (Scaled dim l) cells cells') (hb : ∀ x ∈ cells, Body dim n x)
    (hb' : ∀ x ∈ cells', Body dim n x) (hdet : ∀ x ∈ cells, ∀ pts, x.1.Points pts → ∀ p ∈ pts, p.2.jacobian.det ≠ 0)
    (pts pts' : Cell × FemElement ℝ → List (ℝ × IpData)) (hpts : ∀ x ∈ cells, x.1.Points (pts x))
    (hpts' : ∀ x ∈ cells', x.1.Points (pts' x)) (ps : PlaneState) {F F' u u' : List ℝ} {κ : ℝ} (hκ : κ * l = μ * l ^ dim)
    {rhs rhs' : Equation ℝ → ℝ} (hcon : ScaledConstraints n l dof dof' c c' num num' rhs rhs')
    (hF : Times n κ F F') (hu : Times n l u u') :
    Equilibrium dof' dim n (elasticTangent dim (μ * E) nu ps) cells' pts' c' num' F' rhs' u' ↔
      Equilibrium dof dim n (elasticTangent dim E nu ps) cells pts c num F rhs u := by
  have hpos : 0 < μ * l ^ dim := mul_pos hμ (pow_pos hl _)
  have hpot := fun w w' (hw : Times n l w w') =>
    potential_scale (E := E) (nu := nu) hl.ne' h hb hb' hdet pts pts' hpts hpts' ps hκ hF hw
  constructor
  · intro hq
    refine ⟨hu.1, (hcon u u' hu).1 hq.holds, fun w hw hs => ?_⟩
    obtain ⟨w', hw'⟩ := times_ex l w hw
    have := hq.least w' hw'.2.1 ((hcon w w' hw').2 hs)
    rw [hpot u u' hu, hpot w w' hw'] at this
    exact le_of_mul_le_mul_left this hpos
  · intro hq
    refine ⟨hu.2.1, (hcon u u' hu).2 hq.holds, fun w' hw hs => ?_⟩
    obtain ⟨w, hw1, hw2, hw3⟩ := times_ex l⁻¹ w' hw
    have hw' : Times n l w w' := ⟨hw2, hw1, fun i hi => by rw [hw3 i hi, ← mul_assoc, mul_inv_cancel₀ hl.ne', one_mul]⟩
    rw [hpot u u' hu, hpot w w' hw']
    exact mul_le_mul_of_nonneg_left (hq.least w hw'.1 ((hcon w w' hw').1 hs)) hpos.le

theorem Problem.regular (P : Problem dof dim n E nu s cells threads st c num) :
    ∀ x ∈ cells, ∀ pts, x.1.Points pts → ∀ p ∈ pts, p.2.jacobian.det ≠ 0 := by
  intro x hx pts hp p hm h0
  have := P.positive x hx pts hp p hm
  rw [h0, zero_mul] at this
  exact lt_irrefl _ this

/-- C123 (matrices): the entries of the stiffness matrix have the unit of stress times length to the power `dim - 2`. -/
theorem C123_stiffness (hl : 0 < l) (P : Problem dof dim n E nu s cells threads st c num)
    (P' : Problem dof' dim n (μ * E) nu s' cells' threads' st' c' num') (ps : PlaneState)
    (h : List.Forall₂ (Scaled dim l) cells cells') :
    ∃ h h' m m', assembleMatrix s dof (stiffness dof fun _ _ => .ok (elasticTangent dim E nu ps)) threads = .ok h ∧
      assembleMatrix s' dof' (stiffness dof' fun _ _ => .ok (elasticTangent dim (μ * E) nu ps)) threads' = .ok h' ∧
      h.find? (toLex (dof, dof)) = some m ∧ h'.find? (toLex (dof', dof')) = some m' ∧
      ∀ i < n, ∀ j < n, l ^ 2 * m'.entry i j = μ * l ^ dim * m.entry i j := by
  obtain ⟨H, m, a1, a2, _, _, _, _, a7, _, _, a10⟩ := P.matrix ps
  obtain ⟨H', m', b1, b2, _, _, _, _, b7, _, _, b10⟩ := P'.matrix ps
  refine ⟨H, H', m, m', a1, b1, a2, b2, ?_⟩
  obtain ⟨pts, hpts⟩ := points_choice P
  obtain ⟨pts', hpts'⟩ := points_choice P'
  have hform : ∀ R : Nat → ℝ, l ^ 2 * form m' n R = μ * l ^ dim * form m n R := by
    intro R
    have := C123_energy (μ := μ) (E := E) (nu := nu) hl.ne' h P.body P'.body (Problem.regular P) pts pts' hpts hpts' ps R
      (fun i => l * R i) fun _ _ => rfl
    rw [a10 pts hpts, b10 pts' hpts'] at this
    have e : form m' n (fun i => l * R i) = l ^ 2 * form m' n R := by
      simp only [form, mul_sum]
      exact sum_congr rfl fun i _ => sum_congr rfl fun j _ => by ring
    rw [e] at this
    linarith
  intro i hi j hj
  have hsum : ∀ (m : SpMat ℝ) (k : Nat), k < n → ∀ (R : Nat → ℝ),
      ∑ a ∈ range n, (if a = k then (1 : ℝ) else 0) * ∑ b ∈ range n, m.entry a b * R b = ∑ b ∈ range n, m.entry k b * R b := by
    intro m k hk R
    rw [sum_eq_single k (fun b _ hb => by rw [if_neg hb, zero_mul]) fun h => absurd (mem_range.2 hk) h, if_pos rfl, one_mul]
  have hsum' : ∀ (m : SpMat ℝ) (k l : Nat), l < n → ∑ b ∈ range n, m.entry k b * (if b = l then (1 : ℝ) else 0) = m.entry k l := by
    intro m k l hl
    rw [sum_eq_single l (fun b _ hb => by rw [if_neg hb, mul_zero]) fun h => absurd (mem_range.2 hl) h, if_pos rfl, mul_one]
  have e1 := form_add m a7 (fun a => if a = j then (1 : ℝ) else 0) (fun a => if a = i then (1 : ℝ) else 0) 1
  have e2 := form_add m' b7 (fun a => if a = j then (1 : ℝ) else 0) (fun a => if a = i then (1 : ℝ) else 0) 1
  rw [hsum m i hi, hsum' m i j hj] at e1
  rw [hsum m' i hi, hsum' m' i j hj] at e2
  have f1 := hform fun a => (if a = j then (1 : ℝ) else 0) + 1 * if a = i then (1 : ℝ) else 0
  have f2 := hform fun a => if a = j then (1 : ℝ) else 0
  have f3 := hform fun a => if a = i then (1 : ℝ) else 0
  have g1 := congrArg (l ^ 2 * ·) e2
  have g2 := congrArg (μ * l ^ dim * ·) e1
  beta_reduce at g1 g2
  linarith

/-- C123 (reactions): the residual of the scaled state is the scaled residual. -/
theorem C123_residual (hl : 0 < l) (P : Problem dof dim n E nu s cells threads st c num)
    (P' : Problem dof' dim n (μ * E) nu s' cells' threads' st' c' num') (ps : PlaneState)
    (h : List.Forall₂ (Scaled dim l) cells cells') {κ : ℝ} (hκ : κ * l = μ * l ^ dim)
    (load load' : ℝ → List ℝ) (hload : ∀ t, Times n κ (load t) (load' t)) (t : ℝ) (u u' : List ℝ) (hu : Times n l u u') :
    ∃ r r', gradient (setup dof dim E nu ps s threads load) [(dof, u)] t = .ok [(dof, r)] ∧
      gradient (setup dof' dim (μ * E) nu ps s' threads' load') [(dof', u')] t = .ok [(dof', r')] ∧ Times n κ r r' := by
  obtain ⟨H, H', m, m', a1, b1, a2, b2, hm⟩ := C123_stiffness hl P P' ps h
  obtain ⟨_, r, r1, r2, r3⟩ := gradient_eq P ps a1 a2 load (fun t => (hload t).1) u t
  obtain ⟨_, r', q1, q2, q3⟩ := gradient_eq P' ps b1 b2 load' (fun t => (hload t).2.1) u' t
  refine ⟨r, r', r1, q1, r2, q2, fun i hi => ?_⟩
  rw [q3 i hi, r3 i hi, (hload t).2.2 i hi, mul_sub, mul_sum]
  congr 1
  refine sum_congr rfl fun j hj => ?_
  have := hm i hi j (mem_range.1 hj)
  rw [hu.2.2 j (mem_range.1 hj)]
  rw [← hκ] at this
  have e : l * m'.entry i j = κ * m.entry i j := mul_left_cancel₀ hl.ne' (by linarith)
  linear_combination (u.getD j 0) * e

/-- C123: constraints that leave no motion without strains do so in all units. -/
theorem C123_held (hl : 0 < l) (hμ : 0 < μ) (P : Problem dof dim n E nu s cells threads st c num)
    (P' : Problem dof' dim n (μ * E) nu s' cells' threads' st' c' num') (ps : PlaneState)
    (h : List.Forall₂ (Scaled dim l) cells cells')
    (hcon : ScaledConstraints n l dof dof' c c' num num' (fun _ => 0) fun _ => 0) (hsup : Held dim dof n cells c num) :
    Held dim dof' n cells' c' num' := by
  obtain ⟨_, m, _, _, _, _, _, _, _, _, a9, a10⟩ := P.matrix ps
  obtain ⟨_, m', _, _, _, _, _, _, _, _, b9, b10⟩ := P'.matrix ps
  obtain ⟨pts, hpts⟩ := points_choice P
  obtain ⟨pts', hpts'⟩ := points_choice P'
  intro w' hw hs hu
  obtain ⟨w, hw1, hw2, hw3⟩ := times_ex l⁻¹ w' hw
  have hw' : Times n l w w' := ⟨hw2, hw1, fun i hi => by rw [hw3 i hi, ← mul_assoc, mul_inv_cancel₀ hl.ne', one_mul]⟩
  have he := C123_energy (μ := μ) (E := E) (nu := nu) hl.ne' h P.body P'.body (Problem.regular P) pts pts' hpts hpts' ps
    (fun i => w.getD i 0) (fun i => w'.getD i 0) hw'.2.2
  rw [a10 pts hpts, b10 pts' hpts', (b9 _).2 hu] at he
  have hz : form m n (fun i => w.getD i 0) = 0 := by
    have hpos : 0 < μ * l ^ dim := mul_pos hμ (pow_pos hl _)
    have : μ * l ^ dim * form m n (fun i => w.getD i 0) = 0 := by linarith
    exact (mul_eq_zero.1 this).resolve_left hpos.ne'
  have := hsup w hw2 ((hcon w w' hw').1 hs) ((a9 _).1 hz)
  intro i hi
  rw [hw'.2.2 i hi, this i hi, mul_zero]

theorem unique (P : Problem dof dim n E nu s cells threads st c num) (ps : PlaneState) (hsup : Held dim dof n cells c num)
    (pts : Cell × FemElement ℝ → List (ℝ × IpData)) (hpts : ∀ x ∈ cells, x.1.Points (pts x)) {F u w : List ℝ} (hF : F.length = n)
    {rhs : Equation ℝ → ℝ} (hu : Equilibrium dof dim n (elasticTangent dim E nu ps) cells pts c num F rhs u)
    (hw : Equilibrium dof dim n (elasticTangent dim E nu ps) cells pts c num F rhs w) : ∀ i < n, w.getD i 0 = u.getD i 0 := by
  have hren : Renumbered dim n id cells cells :=
    ⟨⟨fun _ h => h, fun _ _ _ _ h => h⟩, cells, .refl _, List.forall₂_same.2 fun x _ => ⟨rfl, rfl, rfl, rfl, fun _ _ _ _ => rfl⟩⟩
  have hcon : SameConstraints n id dof dof c c num num rhs rhs := by
    intro a b hab
    have e : ∀ i, b.getD i 0 = a.getD i 0 := by
      intro i
      by_cases hi : i < n
      · exact hab.2.2 i hi
      · rw [List.getD_eq_default _ _ (by rw [hab.2.1]; omega), List.getD_eq_default _ _ (by rw [hab.1]; omega)]
    simp only [Satisfies, e]
  exact ((Renumbering.C122_equilibrium P ps hren hcon pts pts hpts hpts ⟨hF, hF, fun _ _ => rfl⟩ hu hw).2 hsup).2.2

theorem equilibrium_times (hl : 0 < l) (hμ : 0 < μ) (P : Problem dof dim n E nu s cells threads st c num)
    (P' : Problem dof' dim n (μ * E) nu s' cells' threads' st' c' num') (ps : PlaneState)
    (h : List.Forall₂ (Scaled dim l) cells cells') {rhs rhs' : Equation ℝ → ℝ}
    (hcon : ScaledConstraints n l dof dof' c c' num num' rhs rhs') (hsup : Held dim dof n cells c num)
    (pts pts' : Cell × FemElement ℝ → List (ℝ × IpData)) (hpts : ∀ x ∈ cells, x.1.Points (pts x))
    (hpts' : ∀ x ∈ cells', x.1.Points (pts' x)) {F F' u u' : List ℝ} {κ : ℝ} (hκ : κ * l = μ * l ^ dim) (hF : Times n κ F F')
    (hu : Equilibrium dof dim n (elasticTangent dim E nu ps) cells pts c num F rhs u)
    (hu' : Equilibrium dof' dim n (elasticTangent dim (μ * E) nu ps) cells' pts' c' num' F' rhs' u') : Times n l u u' := by
  obtain ⟨w, hw1, hw2, hw3⟩ := times_ex l⁻¹ u' hu'.length
  have hw : Times n l w u' := ⟨hw2, hw1, fun i hi => by rw [hw3 i hi, ← mul_assoc, mul_inv_cancel₀ hl.ne', one_mul]⟩
  have := unique P ps hsup pts hpts hF.1 hu
    ((C123_equilibrium hl hμ h P.body P'.body (Problem.regular P) pts pts' hpts hpts' ps hκ hcon hF hw).1 hu')
  exact ⟨hu.length, hu'.length, fun i hi => by rw [hw.2.2 i hi, this i hi]⟩

/-- C123 (`Solve`): the result in the other units, whatever the solvers; `κ` is the factor of forces. -/
theorem C123_solve (hl : 0 < l) (hμ : 0 < μ) (P : Problem dof dim n E nu s cells threads st c num)
    (P' : Problem dof' dim n (μ * E) nu s' cells' threads' st' c' num') (ps : PlaneState)
    (h : List.Forall₂ (Scaled dim l) cells cells')
    (hcon : ScaledConstraints n l dof dof' c c' num num' (fun _ => 0) fun _ => 0) (hsup : Held dim dof n cells c num) {κ : ℝ}
    (hκ : κ * l = μ * l ^ dim) :
    ∃ h h', assembleMatrix s dof (stiffness dof fun _ _ => .ok (elasticTangent dim E nu ps)) threads = .ok h ∧
      assembleMatrix s' dof' (stiffness dof' fun _ _ => .ok (elasticTangent dim (μ * E) nu ps)) threads' = .ok h' ∧
      ∀ lin lin', LinSolver lin → LinSolver lin' → ∀ (toFloat toFloat' : ℝ → ℝ) (F F' : List ℝ), Times n κ F F' → ∀ r r',
        Solve.solve lin (c.bcs toFloat st) h [(dof, F)] [dof] = .ok r →
        Solve.solve lin' (c'.bcs toFloat' st') h' [(dof', F')] [dof'] = .ok r' →
        ∃ u u', r.find? dof = some u ∧ r'.find? dof' = some u' ∧ Times n l u u' := by
  obtain ⟨pts, hpts⟩ := points_choice P
  obtain ⟨pts', hpts'⟩ := points_choice P'
  obtain ⟨H, a1, a2⟩ := C101_minimum P ps pts hpts
  obtain ⟨H', b1, b2⟩ := C101_minimum P' ps pts' hpts'
  refine ⟨H, H', a1, b1, fun lin lin' hs hs' fl fl' F F' hF r r' hr hr' => ?_⟩
  obtain ⟨u, u1, u2, u3, u4⟩ := a2 lin hs fl F hF.1 r hr
  obtain ⟨u', v1, v2, v3, v4⟩ := b2 lin' hs' fl' F' hF.2.1 r' hr'
  exact ⟨u, u', u1, v1, equilibrium_times hl hμ P P' ps h hcon hsup pts pts' hpts hpts' hκ hF
    ⟨u2, u3, fun w hw hs => (u4 w hw hs).1⟩ ⟨v2, v3, fun w hw hs => (v4 w hw hs).1⟩⟩

/-- C123 (steps): a step of `QuasistaticSolver` in the other units; it is accepted in both if the free displacements are at
most `1e10` in both units. -/
theorem C123_step_partial (hl : 0 < l) (hμ : 0 < μ) (P : Problem dof dim n E nu s cells threads st c num)
    (P' : Problem dof' dim n (μ * E) nu s' cells' threads' st' c' num') (ps : PlaneState)
    (h : List.Forall₂ (Scaled dim l) cells cells')
    (hnum : ∀ e ∈ c.equations dof, ∀ t ∈ e.dep :: e.ind, num t < n)
    (h1 : ∀ e ∈ c.equations dof, ∃ e' ∈ c'.equations dof', ∀ t,
      SameEquation id num num' (fun e => l * e.rhs t) (fun e => e.rhs t) e e')
    (h2 : ∀ e' ∈ c'.equations dof', ∃ e ∈ c.equations dof, ∀ t,
      SameEquation id num num' (fun e => l * e.rhs t) (fun e => e.rhs t) e e')
    (hsup : Held dim dof n cells c num) {κ : ℝ} (hκ : κ * l = μ * l ^ dim)
    (load load' : ℝ → List ℝ) (hload : ∀ t, Times n κ (load t) (load' t)) (toFloat toFloat' : ℝ → ℝ)
    (hfl : ∀ e ∈ c.equations dof, ∀ t, toFloat (e.rhs t) = e.rhs t)
    (hfl' : ∀ e ∈ c'.equations dof', ∀ t, toFloat' (e.rhs t) = e.rhs t) (c0 c0' : DofSpMat ℝ) (tol tol' : ℝ) (htol : 0 < tol)
    (htol' : 0 < tol') :
    ∃ C C' cmat cmat', c.buildUnitConstraintMatrix st dof n = .ok C ∧ c'.buildUnitConstraintMatrix st' dof' n = .ok C' ∧
      setConstraints (c.bcs toFloat st) (fun _ => n) c0 [dof] = .ok cmat ∧
      setConstraints (c'.bcs toFloat' st') (fun _ => n) c0' [dof'] = .ok cmat' ∧
      ∀ R0 R0', Times n l R0 R0' → ∀ t0 t1 : ℝ, ∃ u u', Times n l u u' ∧
        ∀ lin lin', SolvesSpd lin → SolvesSpd lin' → ∀ step step' : ℝ,
          trialState (env (setup dof dim E nu ps s threads load) lin (c.bcs toFloat st) cmat tol) ⟨[(dof, R0)], t0, step, ()⟩ t1 =
            .ok [(dof, u)] ∧
          trialState (env (setup dof' dim (μ * E) nu ps s' threads' load') lin' (c'.bcs toFloat' st') cmat' tol')
            ⟨[(dof', R0')], t0, step', ()⟩ t1 = .ok [(dof', u')] ∧
          (freeNorm C u ≤ 10000000000 → freeNorm C' u' ≤ 10000000000 →
            doStep (env (setup dof dim E nu ps s threads load) lin (c.bcs toFloat st) cmat tol) ⟨[(dof, R0)], t0, step, ()⟩ t1 =
              (⟨[(dof, u)], t1, t1 - t0, ()⟩, .converged 0) ∧
            doStep (env (setup dof' dim (μ * E) nu ps s' threads' load') lin' (c'.bcs toFloat' st') cmat' tol')
              ⟨[(dof', R0')], t0, step', ()⟩ t1 = (⟨[(dof', u')], t1, t1 - t0, ()⟩, .converged 0)) ∧
          (10000000000 < freeNorm C' u' →
            doStep (env (setup dof' dim (μ * E) nu ps s' threads' load') lin' (c'.bcs toFloat' st') cmat' tol')
              ⟨[(dof', R0')], t0, step', ()⟩ t1 = (⟨[(dof', R0')], t0, t1 - t0, ()⟩, .noConvergence)) := by
  obtain ⟨pts, hpts⟩ := points_choice P
  obtain ⟨pts', hpts'⟩ := points_choice P'
  have hsup' := C123_held hl hμ P P' ps h (C123_constraints hl.ne' hnum
    (fun e he => (h1 e he).imp fun e' hs => ⟨hs.1, (hs.2 0).1, (mul_zero l).symm⟩)
    fun e' he' => (h2 e' he').imp fun e hs => ⟨hs.1, (hs.2 0).1, (mul_zero l).symm⟩) hsup
  obtain ⟨C, cmat, a1, a2, a3⟩ := C105_step_partial P hsup ps pts hpts load (fun t => (hload t).1) toFloat hfl c0 tol htol
  obtain ⟨C', cmat', b1, b2, b3⟩ := C105_step_partial P' hsup' ps pts' hpts' load' (fun t => (hload t).2.1) toFloat' hfl' c0' tol' htol'
  refine ⟨C, C', cmat, cmat', a1, b1, a2, b2, fun R0 R0' hR t0 t1 => ?_⟩
  obtain ⟨u, hu, _, u3⟩ := a3 R0 hR.1 t0 t1
  obtain ⟨u', hu', _, v3⟩ := b3 R0' hR.2.1 t0 t1
  have hsame : ∀ e ∈ c.equations dof, ∀ e', (∀ t, SameEquation id num num' (fun e => l * e.rhs t) (fun e => e.rhs t) e e') →
      SameEquation id num num' (fun e => l * (e.lhs num (fun i => R0.getD i 0) + (e.rhs t1 - e.rhs t0)))
        (fun e => e.lhs num' (fun i => R0'.getD i 0) + (e.rhs t1 - e.rhs t0)) e e' := by
    intro e he e' hs
    refine ⟨(hs 0).1, ?_⟩
    have e1 := (hs t1).2
    have e0 := (hs t0).2
    beta_reduce at e1 e0 ⊢
    rw [e1, e0, Renumbering.sameEquation_lhs (σ := id) (num := num) ⟨hR.2.1, hR.2.1, fun _ _ => rfl⟩ (hnum e he) (hs 0).1,
      lhs_scale hR (hnum e he)]
    ring
  have hcon := C123_constraints (num' := num') (c' := c') (dof' := dof') hl.ne' hnum
    (fun e he => (h1 e he).imp fun e' hs => ⟨hs.1, hsame e he e' hs.2⟩)
    (fun e' he' => (h2 e' he').imp fun e hs => ⟨hs.1, hsame e hs.1 e' hs.2⟩)
  refine ⟨u, u', equilibrium_times hl hμ P P' ps h hcon hsup pts pts' hpts hpts' hκ (hload t1) hu hu', fun lin lin' hs hs' step step' => ?_⟩
  obtain ⟨x1, x2, _⟩ := u3 lin hs step
  obtain ⟨y1, y2, y3⟩ := v3 lin' hs' step'
  exact ⟨x1, y1, fun hc hc' => ⟨x2 hc, y2 hc'⟩, y3⟩

/-! ### Example -/

/-- The cell with the lengths in another unit. -/
def scale (l : ℝ) (x : Cell × FemElement ℝ) : Cell × FemElement ℝ :=
  (⟨x.1.id, ⟨x.1.coordElement.nodes.map fun a => ⟨a.values.map fun v => v.map (l * ·), a.dofNumbers⟩, x.1.coordElement.interp⟩,
    x.1.rule⟩, x.2)

theorem scale_scaled (l : ℝ) (hx : Body dim n x) : Scaled dim l x (scale l x) where
  rule := rfl
  interp := rfl
  dofInterp := rfl
  numbers _ _ _ _ := rfl
  position i hi a _ := by
    unfold component scale
    beta_reduce
    simp only [List.getD_eq_getElem?_getD, List.getElem?_map]
    rw [List.getElem?_eq_getElem hi]
    simp only [Option.map_some, Option.getD_some]
    cases (x.1.coordElement.nodes[i]).values with
    | nil => simp
    | cons v _ =>
      simp only [List.map_cons, List.headD_cons, List.getElem?_map]
      cases v[a]? <;> simp

theorem scale_body (l : ℝ) (hx : Body dim n x) : Body dim n (scale l x) :=
  { hx with
    coord := by
      obtain ⟨h1, h2, h3⟩ := hx.coord
      refine ⟨by simpa [scale] using h1, by simpa [scale] using h2, fun m hm => ?_⟩
      obtain ⟨a, ha, rfl⟩ := List.mem_map.1 hm
      obtain ⟨q1, q2⟩ := h3 a ha
      refine ⟨?_, q2⟩
      simpa [Node.WF] using q1 }

/-- The problem in other units. -/
theorem scale_problem (hl : 0 < l) (hμ : 0 < μ) (P : Problem dof dim n E nu s cells threads st c num)
    (hv : c'.equations dof = (c.equations dof).map fun e => ⟨e.dep, e.ind, fun t => l * e.rhs t⟩) :
    Problem dof dim n (μ * E) nu s (cells.map (scale l)) (threads.map (List.map (scale l))) st c' num :=
  { dim1 := P.dim1
    dim3 := P.dim3
    stiff := by have := P.stiff; positivity
    poisson := P.poisson
    body := by
      intro y hy
      obtain ⟨x, hx, rfl⟩ := List.mem_map.1 hy
      exact scale_body l (P.body x hx)
    positive := by
      intro y hy pts hp q hq
      obtain ⟨x, hx, rfl⟩ := List.mem_map.1 hy
      obtain ⟨pts0, hp0⟩ := C77_points (P.body x hx)
      have hs := scale_scaled l (P.body x hx)
      have hf := hs.points hp0 hp
      obtain ⟨i, hi, rfl⟩ := List.getElem_of_mem hq
      have hi0 : i < pts0.length := by rw [hf.length_eq]; exact hi
      have h1 := (List.forall₂_iff_get.1 hf).2 i hi0 hi
      simp only [List.get_eq_getElem] at h1
      have h2 := (hs.gradient hl.ne' (P.body x hx) (scale_body l (P.body x hx)) hp0 hp (List.getElem_mem hi0)
        (List.getElem_mem hi) h1.2 (Problem.regular P x hx _ hp0 _ (List.getElem_mem hi0))).1
      rw [h1.1, h2, mul_assoc]
      exact mul_pos (pow_pos hl _) (P.positive x hx _ hp0 _ (List.getElem_mem hi0))
    size := P.size
    schedule := by
      rw [← List.map_flatten]
      exact P.schedule.map _
    valid := by
      rw [hv]
      obtain ⟨v1, v2, v3⟩ := P.valid
      refine ⟨?_, ?_, ?_⟩
      · simpa using v1
      · simpa [Function.comp_def] using v2
      · simpa using v3
    unit := by rw [hv]; simpa using P.unit
    tiny := by
      rw [hv]
      intro e he
      obtain ⟨e0, he0, rfl⟩ := List.mem_map.1 he
      exact P.tiny e0 he0 }

theorem ex_eqs (l : ℝ) (g : ℝ → ℝ) : (exC101 fun t => l * g t).equations 0 =
    ((exC101 g).equations 0).map fun e => ⟨e.dep, e.ind, fun t => l * e.rhs t⟩ := by
  simp [exC101_eqs]

/-- The hypotheses of C123: millimetres in place of metres, and megapascal in place of pascal. -/
example : Problem 0 2 8 1 0 ⟨[(0, 8)], [(0, 0)]⟩ [exampleBody, exampleBody2] [[exampleBody2], [exampleBody]] exStore101
      (exC101 fun t => t) (fun t => t.comp.toNat) ∧
    Problem 0 2 8 (1 / 1000000 * 1) 0 ⟨[(0, 8)], [(0, 0)]⟩ [scale 1000 exampleBody, scale 1000 exampleBody2]
      [[scale 1000 exampleBody2], [scale 1000 exampleBody]] exStore101 (exC101 fun t => 1000 * t) (fun t => t.comp.toNat) ∧
    List.Forall₂ (Scaled 2 1000) [exampleBody, exampleBody2] [scale 1000 exampleBody, scale 1000 exampleBody2] ∧
    Held 2 0 8 [exampleBody, exampleBody2] (exC101 fun t => t) (fun t => t.comp.toNat) ∧
    ScaledConstraints 8 1000 0 0 (exC101 fun t => t) (exC101 fun t => 1000 * t) (fun t => t.comp.toNat) (fun t => t.comp.toNat)
      (fun _ => 0) (fun _ => 0) ∧
    (1 / 1000 : ℝ) * 1000 = 1 / 1000000 * 1000 ^ 2 := by
  have P := exC101_problem fun t => t
  refine ⟨P, scale_problem (by norm_num) (by norm_num) P (ex_eqs _ _),
    .cons (scale_scaled _ (P.body _ (by simp))) (.cons (scale_scaled _ (P.body _ (by simp))) .nil), exC101_held _, ?_, by norm_num⟩
  refine C123_constraints (by norm_num) ?_ ?_ ?_
  · intro e he t ht
    rw [exC101_eqs] at he
    simp only [List.mem_cons, List.not_mem_nil, or_false] at he
    rcases he with rfl | rfl | rfl <;>
      (simp only [List.mem_cons, List.not_mem_nil, or_false] at ht; subst ht; simp)
  · intro e he
    exact ⟨⟨e.dep, e.ind, fun t => 1000 * e.rhs t⟩, by rw [ex_eqs 1000 fun t => t]; exact List.mem_map_of_mem he,
      by simp [terms, Function.comp_def], by simp⟩
  · intro e' he'
    rw [ex_eqs 1000 fun t => t] at he'
    obtain ⟨e, he, rfl⟩ := List.mem_map.1 he'
    exact ⟨e, he, by simp [terms, Function.comp_def], by simp⟩

/-! ### Where the units matter -/

theorem norm_times {u u' : List ℝ} (hl : 0 ≤ l) {C : SpMat ℝ} (hC : C.rows = n) (h : Times n l u u') :
    freeNorm C u' = l * freeNorm C u := by
  rw [freeNorm, freeNorm, ← Real.sqrt_sq hl, ← Real.sqrt_mul (sq_nonneg _)]
  congr 1
  rw [mul_sum]
  refine sum_congr rfl fun k _ => ?_
  rw [← mul_pow, mul_sum]
  congr 1
  exact sum_congr rfl fun i hi => by rw [h.2.2 i (hC ▸ mem_range.1 hi)]; ring

theorem rotated_times (t : ℝ) : Times 8 t (rotated 1) (rotated t) := by
  refine ⟨rfl, rfl, fun i hi => ?_⟩
  interval_cases i <;> simp [rotated] <;> ring

theorem rotated_pos {C : SpMat ℝ} (c1 : (exC101 fun t => t).buildUnitConstraintMatrix exStore101 0 8 = .ok C) :
    C.rows = 8 ∧ 0 < freeNorm C (rotated 1) := by
  have P := exC101_problem fun t => t
  obtain ⟨C', d1, d2, d3, d4, _⟩ := unit_spec exStore101 (exC101 fun t => t) 0 8 (fun t => t.comp.toNat) P.valid P.unit P.tiny
  obtain rfl : C = C' := Res.ok.inj (c1.symm.trans d1)
  refine ⟨d2, ?_⟩
  refine lt_of_le_of_ne (Real.sqrt_nonneg _) fun h0 => ?_
  have h1 := (Real.sqrt_eq_zero (sum_nonneg fun k _ => sq_nonneg _)).1 h0.symm
  have h2 : ∀ k ∈ range C.cols, ∑ i ∈ range C.rows, C.entry i k * (rotated 1).getD i 0 = 0 := fun k hk =>
    pow_eq_zero_iff (two_ne_zero) |>.1 ((sum_eq_zero_iff_of_nonneg fun k _ => sq_nonneg _).1 h1 k hk)
  obtain ⟨q, hq⟩ := (d4 [0, 0, 0, 0, 1, 0, 0, 0] rfl).1 (by
    intro e he
    rw [exC101_eqs] at he
    simp only [List.mem_cons, List.not_mem_nil, or_false] at he
    rcases he with rfl | rfl | rfl <;> simp [Equation.lhs])
  obtain ⟨_, _, y2⟩ := SpMat.mulVec_eq_ok d3 hq
  have h3 : ∑ i ∈ range C.rows, ([0, 0, 0, 0, 1, 0, 0, 0] : List ℝ).getD i 0 * (rotated 1).getD i 0 = 0 := by
    calc _ = ∑ i ∈ range C.rows, ∑ k ∈ range C.cols, q.getD k 0 * (C.entry i k * (rotated 1).getD i 0) := by
          refine sum_congr rfl fun i hi => ?_
          rw [y2 i (mem_range.1 hi), sum_mul]
          exact sum_congr rfl fun k _ => by ring
      _ = ∑ k ∈ range C.cols, q.getD k 0 * ∑ i ∈ range C.rows, C.entry i k * (rotated 1).getD i 0 := by
          rw [sum_comm]
          exact sum_congr rfl fun k _ => by rw [mul_sum]
      _ = 0 := sum_eq_zero fun k hk => by rw [h2 k hk, mul_zero]
  rw [d2] at h3
  simp [sum_range_succ, rotated] at h3

/-- C123 is false for large displacements: the same step of the same body converges if lengths are measured in metres and
stresses in pascals, and does not converge if they are measured in millimetres and megapascals. -/
theorem C123_units_counterexample (ps : PlaneState) (tol tol' : ℝ) (htol : 0 < tol) (htol' : 0 < tol') :
    ∃ cmat cmat' t1, setConstraints ((exC101 fun t => t).bcs id exStore101) (fun _ => 8) [] [0] = .ok cmat ∧
      setConstraints ((exC101 fun t => 1000 * t).bcs id exStore101) (fun _ => 8) [] [0] = .ok cmat' ∧
      ∀ lin lin', SolvesSpd lin → SolvesSpd lin' → ∀ step step' : ℝ,
        doStep (env (setup 0 2 1 0 ps ⟨[(0, 8)], [(0, 0)]⟩ [[exampleBody2], [exampleBody]] fun _ => List.replicate 8 0) lin
            ((exC101 fun t => t).bcs id exStore101) cmat tol) ⟨[(0, List.replicate 8 0)], 0, step, ()⟩ t1 =
          (⟨[(0, rotated t1)], t1, t1, ()⟩, .converged 0) ∧
        doStep (env (setup 0 2 (1 / 1000000 * 1) 0 ps ⟨[(0, 8)], [(0, 0)]⟩ [[scale 1000 exampleBody2], [scale 1000 exampleBody]]
            fun _ => List.replicate 8 0) lin' ((exC101 fun t => 1000 * t).bcs id exStore101) cmat' tol')
            ⟨[(0, List.replicate 8 0)], 0, step', ()⟩ t1 =
          (⟨[(0, List.replicate 8 0)], 0, t1, ()⟩, .noConvergence) := by
  have P := exC101_problem fun t => t
  have P' : Problem 0 2 8 (1 / 1000000 * 1) 0 ⟨[(0, 8)], [(0, 0)]⟩ [scale 1000 exampleBody, scale 1000 exampleBody2]
      [[scale 1000 exampleBody2], [scale 1000 exampleBody]] exStore101 (exC101 fun t => 1000 * t) (fun t => t.comp.toNat) :=
    scale_problem (by norm_num) (by norm_num) P (ex_eqs _ _)
  obtain ⟨pts, hpts⟩ := points_choice P
  obtain ⟨C, cmat, c1, c2, c3⟩ := C105_step_partial P (exC101_held _) ps pts hpts (fun _ => List.replicate 8 0) (by simp) id
    (fun _ _ _ => rfl) [] tol htol
  have hz8 : ∀ k : ℝ, Times 8 k (List.replicate 8 0) (List.replicate 8 0) := fun k =>
    ⟨by simp, by simp, fun i _ => by rw [zero_getD, mul_zero]⟩
  obtain ⟨C1, C', cmat1, cmat', s1, s2, s3, s4, s5⟩ := C123_step_partial (l := 1000) (μ := 1 / 1000000) (by norm_num) (by norm_num) P P' ps
    (.cons (scale_scaled _ (P.body _ (by simp))) (.cons (scale_scaled _ (P.body _ (by simp))) .nil))
    (by
      intro e he t ht
      rw [exC101_eqs] at he
      simp only [List.mem_cons, List.not_mem_nil, or_false] at he
      rcases he with rfl | rfl | rfl <;>
        (simp only [List.mem_cons, List.not_mem_nil, or_false] at ht; subst ht; simp))
    (fun e he => ⟨⟨e.dep, e.ind, fun t => 1000 * e.rhs t⟩, by rw [ex_eqs 1000 fun t => t]; exact List.mem_map_of_mem he,
      fun t => ⟨by simp [terms, Function.comp_def], by simp⟩⟩)
    (fun e' he' => by
      rw [ex_eqs 1000 fun t => t] at he'
      obtain ⟨e, he, rfl⟩ := List.mem_map.1 he'
      exact ⟨e, he, fun t => ⟨by simp [terms, Function.comp_def], by simp⟩⟩)
    (exC101_held _) (κ := 1 / 1000) (by norm_num) (fun _ => List.replicate 8 0) (fun _ => List.replicate 8 0) (fun _ => hz8 _) id id
    (fun _ _ _ => rfl) (fun _ _ _ => rfl) [] [] tol tol' htol htol'
  obtain rfl : C = C1 := Res.ok.inj (c1.symm.trans s1)
  obtain rfl : cmat = cmat1 := Res.ok.inj (c2.symm.trans s3)
  obtain rfl : C = C' := Res.ok.inj (c1.symm.trans s2)
  obtain ⟨hrows, hpos⟩ := rotated_pos c1
  obtain ⟨t1, ht1⟩ : ∃ t1, t1 = 10000000000 / freeNorm C (rotated 1) := ⟨_, rfl⟩
  have hnorm : freeNorm C (rotated t1) = 10000000000 := by
    rw [norm_times (by rw [ht1]; positivity) hrows (rotated_times t1), ht1, div_mul_cancel₀ _ hpos.ne']
  refine ⟨cmat, cmat', t1, c2, s4, fun lin lin' hlin hlin' step step' => ?_⟩
  obtain ⟨u, u', huu, k⟩ := s5 _ _ (hz8 1000) 0 t1
  obtain ⟨v, _, v2, v3⟩ := c3 (List.replicate 8 0) (by simp) 0 t1
  have hv := v2 (rotated t1) ((unstrained_equilibrium P ps pts hpts (by simp [rotated])
    (rotated_satisfies t1 (fun t => t) (fun e => e.rhs t1) fun _ _ => rfl) (rotated_unstrained t1)).congr fun e he => by
      rw [exC101_eqs] at he
      simp only [List.mem_cons, List.not_mem_nil, or_false] at he
      rcases he with rfl | rfl | rfl <;> simp [Equation.lhs])
  rw [← hv] at v3
  obtain ⟨w1, w2, _⟩ := v3 lin hlin step
  obtain ⟨k1, _, _, k4⟩ := k lin lin' hlin hlin' step step'
  have hu : u = rotated t1 := by
    have := Res.ok.inj (k1.symm.trans w1)
    simpa using this
  subst hu
  have h1 := w2 hnorm.le
  have h2 := k4 (by rw [norm_times (by norm_num) hrows huu, hnorm]; norm_num)
  rw [sub_zero] at h1 h2
  exact ⟨h1, h2⟩

end Scaling

end NuTo
