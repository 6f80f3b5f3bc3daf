/-
C108: the results for isotropic laws do not depend on the coordinate frame.
-/
import Verif.Props.DamageRun
import Verif.Props.PatchTest
import Mathlib.LinearAlgebra.Matrix.Trace

namespace NuTo

open Assembly Finset Balance

namespace Frame

/-! ### Specification -/

/-- `Q` is a rotation of the space of dimension `dim`. -/
structure Rotation (dim : Nat) (Q : Nat → Nat → ℝ) : Prop where
  orthogonal : ∀ c < dim, ∀ e < dim, ∑ a ∈ range dim, Q a c * Q a e = if c = e then 1 else 0
  proper : (Jacobian.toMat dim dim Q).det = 1

/-- The cell `y` is the cell `x` in a frame that is turned by `Q` and shifted by `t`. -/
structure Turned (dim : Nat) (Q : Nat → Nat → ℝ) (t : Nat → ℝ) (x y : Cell × FemElement ℝ) : Prop where
  id : y.1.id = x.1.id
  rule : y.1.rule = x.1.rule
  interp : y.1.coordElement.interp = x.1.coordElement.interp
  dofInterp : y.2.interp = x.2.interp
  position : ∀ i < x.1.coordElement.nodes.length, ∀ a < dim, component y.1.coordElement i a =
    t a + ∑ b ∈ range dim, Q a b * component x.1.coordElement i b
  numbers : ∀ i < x.2.nodes.length, ∀ a < dim, number y.2 i a = number x.2 i a

/-- `S'` are the components of the vectors `S` at the nodes in the turned frame. -/
def TurnedVector (dim : Nat) (Q : Nat → Nat → ℝ) (cells : List (Cell × FemElement ℝ)) (S S' : Nat → ℝ) : Prop :=
  ∀ x ∈ cells, ∀ i < x.2.nodes.length, ∀ a < dim, S' (number x.2 i a) = ∑ b ∈ range dim, Q a b * S (number x.2 i b)

/-- The stress `sigma` of a law: it is defined at all points. -/
structure Defined (dim : Nat) (cells : List (Cell × FemElement ℝ)) (law : List ℝ → IpData → Res (List ℝ))
    (sigma : List ℝ → IpData → List ℝ) : Prop where
  length : ∀ e d, (sigma e d).length = e.length
  value : ∀ x ∈ cells, ∀ pts, x.1.Points pts → ∀ p ∈ pts, ∀ e, e.length = voigtSize dim → law e p.2 = .ok (sigma e p.2)

/-- The meshes in the two frames. -/
structure Frames (dim n : Nat) (Q : Nat → Nat → ℝ) (t : Nat → ℝ) (cells cells' : List (Cell × FemElement ℝ)) : Prop where
  rotation : Rotation dim Q
  body : ∀ x ∈ cells, Body dim n x
  body' : ∀ x ∈ cells', Body dim n x
  turned : List.Forall₂ (Turned dim Q t) cells cells'
  regular : ∀ x ∈ cells, ∀ pts, x.1.Points pts → ∀ p ∈ pts, p.2.jacobian.det ≠ 0

/-- Components of a tensor in the turned frame. -/
def turn (dim : Nat) (Q g : Nat → Nat → ℝ) (a b : Nat) : ℝ := ∑ c ∈ range dim, ∑ e ∈ range dim, Q a c * Q b e * g c e

/-- The power of the stress does not depend on the frame. -/
def Isotropic (dim : Nat) (sigma : List ℝ → IpData → List ℝ) : Prop :=
  ∀ Q, Rotation dim Q → ∀ (g h : Nat → Nat → ℝ) (d d' : IpData), d'.cellId = d.cellId → d'.ipId = d.ipId →
    dot (sigma (voigt dim (turn dim Q g)) d') (voigt dim (turn dim Q h)) = dot (sigma (voigt dim g) d) (voigt dim h)

/-! ### Invariants -/

/-- sum of the diagonal -/
def tr (dim : Nat) (g : Nat → Nat → ℝ) : ℝ := ∑ a ∈ range dim, g a a

/-- scalar product of tensors -/
def inner (dim : Nat) (g h : Nat → Nat → ℝ) : ℝ := ∑ a ∈ range dim, ∑ b ∈ range dim, g a b * h a b

/-- scalar product of the symmetric parts -/
noncomputable def symInner (dim : Nat) (g h : Nat → Nat → ℝ) : ℝ := (inner dim g h + inner dim g fun a b => h b a) / 2

open Jacobian Matrix

variable {dim n : Nat} {Q : Nat → Nat → ℝ}

theorem Rotation.left (hQ : Rotation dim Q) : (toMat dim dim Q)ᵀ * toMat dim dim Q = 1 := by
  ext c e
  rw [Matrix.mul_apply, Matrix.one_apply]
  have h := hQ.orthogonal c c.2 e e.2
  rw [← Fin.sum_univ_eq_sum_range (fun a => Q a c * Q a e)] at h
  simp only [Fin.ext_iff]
  exact h

theorem Rotation.right (hQ : Rotation dim Q) : toMat dim dim Q * (toMat dim dim Q)ᵀ = 1 :=
  mul_eq_one_comm.1 hQ.left

theorem turn_mat (Q g : Nat → Nat → ℝ) :
    toMat dim dim (turn dim Q g) = toMat dim dim Q * toMat dim dim g * (toMat dim dim Q)ᵀ := by
  ext a b
  rw [Matrix.mul_apply]
  simp only [Matrix.mul_apply, Matrix.transpose_apply, toMat, turn]
  rw [← Fin.sum_univ_eq_sum_range (fun c => ∑ e ∈ range dim, Q a c * Q b e * g c e)]
  simp only [← Fin.sum_univ_eq_sum_range (fun e => _ * Q b e * g _ e)]
  rw [sum_comm]
  refine sum_congr rfl fun e _ => ?_
  rw [sum_mul]
  exact sum_congr rfl fun c _ => by ring

theorem tr_eq (g : Nat → Nat → ℝ) : tr dim g = (toMat dim dim g).trace := by
  rw [tr, ← Fin.sum_univ_eq_sum_range (fun a => g a a)]
  rfl

theorem inner_eq (g h : Nat → Nat → ℝ) : inner dim g h = ((toMat dim dim g)ᵀ * toMat dim dim h).trace := by
  rw [inner, ← Fin.sum_univ_eq_sum_range (fun a => ∑ b ∈ range dim, g a b * h a b), Matrix.trace]
  refine (sum_congr rfl fun (a : Fin dim) _ => (Fin.sum_univ_eq_sum_range (fun b => g a b * h a b) dim).symm).trans ?_
  rw [sum_comm]
  rfl

theorem tr_turn (hQ : Rotation dim Q) (g : Nat → Nat → ℝ) : tr dim (turn dim Q g) = tr dim g := by
  rw [tr_eq, tr_eq, turn_mat, Matrix.trace_mul_comm, ← Matrix.mul_assoc, hQ.left, Matrix.one_mul]

theorem inner_turn (hQ : Rotation dim Q) (g h : Nat → Nat → ℝ) :
    inner dim (turn dim Q g) (turn dim Q h) = inner dim g h := by
  rw [inner_eq, inner_eq, turn_mat, turn_mat]
  obtain ⟨q, hq⟩ : ∃ q, toMat dim dim Q = q := ⟨_, rfl⟩
  have h1 := hQ.left
  rw [hq] at h1 ⊢
  have : (q * toMat dim dim g * qᵀ)ᵀ * (q * toMat dim dim h * qᵀ) = q * ((toMat dim dim g)ᵀ * toMat dim dim h) * qᵀ := by
    rw [Matrix.transpose_mul, Matrix.transpose_mul, Matrix.transpose_transpose]
    calc q * ((toMat dim dim g)ᵀ * qᵀ) * (q * toMat dim dim h * qᵀ) =
        q * (toMat dim dim g)ᵀ * (qᵀ * q) * toMat dim dim h * qᵀ := by simp only [Matrix.mul_assoc]
      _ = q * ((toMat dim dim g)ᵀ * toMat dim dim h) * qᵀ := by rw [h1, Matrix.mul_one]; simp only [Matrix.mul_assoc]
  rw [this, Matrix.trace_mul_comm, ← Matrix.mul_assoc, h1, Matrix.one_mul]

theorem turn_transpose (g : Nat → Nat → ℝ) (a b : Nat) : turn dim Q (fun a b => g b a) a b = turn dim Q g b a := by
  rw [turn, turn, sum_comm]
  refine sum_congr rfl fun c _ => sum_congr rfl fun e _ => by ring

theorem symInner_turn (hQ : Rotation dim Q) (g h : Nat → Nat → ℝ) :
    symInner dim (turn dim Q g) (turn dim Q h) = symInner dim g h := by
  rw [symInner, symInner, inner_turn hQ]
  have := inner_turn hQ g fun a b => h b a
  rw [← this]
  congr 3
  funext a b
  exact (turn_transpose h a b).symm

/-! ### Laws -/

theorem voigt_len (h1 : 1 ≤ dim) (h3 : dim ≤ 3) (g : Nat → Nat → ℝ) : (voigt dim g).length = voigtSize dim := by
  interval_cases dim <;> rfl

/-- The volumetric and deviatoric parts in terms of the invariants. -/
theorem trace_voigt (h1 : 1 ≤ dim) (h3 : dim ≤ 3) (g : Nat → Nat → ℝ) :
    DamageRun.trace dim (DamageRun.comps (voigt dim g) : Fin (voigtSize dim) → ℝ) = tr dim g := by
  interval_cases dim
  · rw [DamageRun.trace]
    refine (Fin.sum_univ_one (fun i : Fin 1 => _)).trans ?_
    simp [DamageRun.comps, voigt, tr]
  · rw [DamageRun.trace]
    refine (Fin.sum_univ_three (fun i : Fin 3 => _)).trans ?_
    simp [DamageRun.comps, voigt, tr, sum_range_succ]
  · rw [DamageRun.trace]
    refine (Fin.sum_univ_six (fun i : Fin 6 => _)).trans ?_
    simp [DamageRun.comps, voigt, tr, sum_range_succ]

theorem halfShear_voigt (h1 : 1 ≤ dim) (h3 : dim ≤ 3) (g h : Nat → Nat → ℝ) :
    DamageRun.halfShear dim (DamageRun.comps (voigt dim g) : Fin (voigtSize dim) → ℝ) (DamageRun.comps (voigt dim h)) =
      symInner dim g h := by
  interval_cases dim
  · rw [DamageRun.halfShear]
    refine (Fin.sum_univ_one (fun i : Fin 1 => _)).trans ?_
    simp [DamageRun.comps, voigt, symInner, inner]
  · rw [DamageRun.halfShear]
    refine (Fin.sum_univ_three (fun i : Fin 3 => _)).trans ?_
    simp [DamageRun.comps, voigt, symInner, inner, sum_range_succ]
    ring
  · rw [DamageRun.halfShear]
    refine (Fin.sum_univ_six (fun i : Fin 6 => _)).trans ?_
    simp [DamageRun.comps, voigt, symInner, inner, sum_range_succ]
    ring

/-- The power of the stress of the damage law in terms of the invariants. -/
theorem power_turn (h1 : 1 ≤ dim) (h3 : dim ≤ 3) (E nu : ℝ) (app : DamageApplication) (ps : PlaneState) (hE : 0 < E)
    (hn1 : -1 < nu) (hn2 : nu < 1 / 2) (hQ : Rotation dim Q) (g h : Nat → Nat → ℝ) (w : ℝ) :
    DamageRun.power (LinearElasticDamage.make dim (voigtSize dim) E nu app ps) (DamageRun.comps (voigt dim (turn dim Q g))) w
      (DamageRun.comps (voigt dim (turn dim Q h))) =
    DamageRun.power (LinearElasticDamage.make dim (voigtSize dim) E nu app ps) (DamageRun.comps (voigt dim g)) w
      (DamageRun.comps (voigt dim h)) := by
  obtain ⟨k, G, hs⟩ := DamageRun.split dim h1 h3 E nu app ps hE hn1 hn2
  rw [hs.power, hs.power]
  simp only [trace_voigt h1 h3, halfShear_voigt h1 h3, tr_turn hQ, symInner_turn hQ]

/-- A strain norm that does not depend on the frame. -/
def NormIsotropic (dim : Nat) (norm : (Fin (voigtSize dim) → ℝ) → ℝ) : Prop :=
  ∀ Q, Rotation dim Q → ∀ g, norm (DamageRun.comps (voigt dim (turn dim Q g))) = norm (DamageRun.comps (voigt dim g))

/-- C108: the local damage law is isotropic when its strain norm is, for any history data. -/
theorem C108_damage (l : LocalDamage (voigtSize dim)) (hl : DamageRun.Law dim l) (hn : NormIsotropic dim l.norm) :
    Isotropic dim (DamageRun.sigma l) := by
  obtain ⟨E, nu, app, ps, he, hE, hn1, hn2⟩ := hl.elastic
  intro Q hQ g h d d' hc hi
  rw [DamageRun.dot_sigma _ _ _ _ (voigt_len hl.dim1 hl.dim3 _), DamageRun.dot_sigma _ _ _ _ (voigt_len hl.dim1 hl.dim3 _)]
  have hk : DamageRun.kap l (voigt dim (turn dim Q g)) d' = DamageRun.kap l (voigt dim g) d := by
    rw [DamageRun.kap, DamageRun.kap, hn Q hQ g, hc, hi]
  rw [hk, he]
  exact power_turn hl.dim1 hl.dim3 E nu app ps hE hn1 hn2 hQ g h _

/-- C108: the linear elastic law is isotropic in all dimensions and plane states. -/
theorem C108_elastic (h1 : 1 ≤ dim) (h3 : dim ≤ 3) (E nu : ℝ) (ps : PlaneState) (hE : 0 < E) (hn1 : -1 < nu) (hn2 : nu < 1 / 2) :
    Isotropic dim fun e _ => apply (elasticTangent dim E nu ps) e := by
  intro Q hQ g h d d' _ _
  obtain ⟨c1, c2, c3⟩ := C35_no_damage E nu hn1 hn2 .full ps
  have key : ∀ g h : Nat → Nat → ℝ, dot (apply (elasticTangent dim E nu ps) (voigt dim g)) (voigt dim h) =
      DamageRun.power (LinearElasticDamage.make dim (voigtSize dim) E nu .full ps) (DamageRun.comps (voigt dim g)) 0
        (DamageRun.comps (voigt dim h)) := by
    intro g h
    have hm : ∀ {N : Nat} (C : Matrix (Fin N) (Fin N) ℝ) (e b : List ℝ), e.length = N →
        dot (apply (ofMatrix C) e) b = ∑ i, LinearElastic.stress C (DamageRun.comps e) i * (DamageRun.comps b : Fin N → ℝ) i := by
      intro N C e b he
      subst he
      rw [dot, apply_length, ← Fin.sum_univ_eq_sum_range (fun k => (apply (ofMatrix C) e).getD k 0 * b.getD k 0)]
      refine sum_congr rfl fun i _ => ?_
      rw [apply, List.getD_eq_getElem _ _ (by simp)]
      simp only [List.getElem_map, List.getElem_range]
      rw [LinearElastic.stress, Matrix.mulVec, dotProduct, ← Fin.sum_univ_eq_sum_range (fun j => (ofMatrix C).coef i j * e.getD j 0)]
      congr 1
      refine sum_congr rfl fun j _ => ?_
      have hc : (ofMatrix C).coef i j = C i j := by
        rw [ofMatrix]
        exact dif_pos ⟨i.2, j.2⟩
      rw [hc]
      rfl
    have hlen := voigt_len h1 h3 g
    unfold DamageRun.power
    interval_cases dim
    · exact (hm (LinearElastic.calculateC1 E) _ _ hlen).trans (sum_congr rfl fun i _ => by rw [← c1]; rfl)
    · exact (hm (LinearElastic.calculateC2 E nu ps) _ _ hlen).trans (sum_congr rfl fun i _ => by rw [← c2]; rfl)
    · exact (hm (LinearElastic.calculateC3 E nu) _ _ hlen).trans (sum_congr rfl fun i _ => by rw [← c3]; rfl)
  rw [key, key]
  exact power_turn h1 h3 E nu .full ps hE hn1 hn2 hQ g h 0

theorem I1_six (v : Fin 6 → ℝ) : StrainInvariants.I1 v = DamageRun.trace 3 v := by
  simp [StrainInvariants.I1, DamageRun.trace, Fin.sum_univ_six]

theorem J2_six (v : Fin 6 → ℝ) :
    StrainInvariants.J2 v = (DamageRun.halfShear 3 v v - DamageRun.trace 3 v * DamageRun.trace 3 v / 3) / 2 := by
  simp [StrainInvariants.J2, DamageRun.trace, DamageRun.halfShear, Fin.sum_univ_six]
  ring

/-- C108: the modified von Mises norm is isotropic in all dimensions and plane states. -/
theorem C108_mises (m : MisesNorm) : NormIsotropic 1 m.value1 ∧ NormIsotropic 2 m.value2 ∧ NormIsotropic 3 m.value3 := by
  refine ⟨fun Q hQ g => ?_, fun Q hQ g => ?_, fun Q hQ g => ?_⟩
  · have ht := (trace_voigt (dim := 1) (by norm_num) (by norm_num) (turn 1 Q g)).trans
      ((tr_turn hQ g).trans (trace_voigt (by norm_num) (by norm_num) g).symm)
    have hu : ∀ e : Fin 1 → ℝ, DamageRun.trace 1 e = e 0 := fun e => by simp [DamageRun.trace]
    have h0 := (hu _).symm.trans (ht.trans (hu _))
    have : (DamageRun.comps (voigt 1 (turn 1 Q g)) : Fin 1 → ℝ) = DamageRun.comps (voigt 1 g) := by
      funext i
      fin_cases i
      exact h0
    exact congrArg m.value1 this
  · have ht := (trace_voigt (dim := 2) (by norm_num) (by norm_num) (turn 2 Q g)).trans
      ((tr_turn hQ g).trans (trace_voigt (by norm_num) (by norm_num) g).symm)
    have hh := (halfShear_voigt (dim := 2) (by norm_num) (by norm_num) (turn 2 Q g) (turn 2 Q g)).trans
      ((symInner_turn hQ g g).trans (halfShear_voigt (by norm_num) (by norm_num) g g).symm)
    have hu : ∀ e : Fin 3 → ℝ, DamageRun.trace 2 e = e 0 + e 1 := fun e => by simp [DamageRun.trace, Fin.sum_univ_three]
    have hv : ∀ e : Fin 3 → ℝ, DamageRun.halfShear 2 e e = e 0 * e 0 + e 1 * e 1 + 1 / 2 * (e 2 * e 2) := fun e => by
      simp [DamageRun.halfShear, Fin.sum_univ_three, mul_assoc]
    have ht := (hu _).symm.trans (ht.trans (hu _))
    have hh := (hv _).symm.trans (hh.trans (hv _))
    obtain ⟨a, ha⟩ : ∃ a : Fin 3 → ℝ, a = DamageRun.comps (voigt 2 (turn 2 Q g)) := ⟨_, rfl⟩
    obtain ⟨b, hb⟩ : ∃ b : Fin 3 → ℝ, b = DamageRun.comps (voigt 2 g) := ⟨_, rfl⟩
    have ht : a 0 + a 1 = b 0 + b 1 := by rw [ha, hb]; exact ht
    have hh : a 0 * a 0 + a 1 * a 1 + 1 / 2 * (a 2 * a 2) = b 0 * b 0 + b 1 * b 1 + 1 / 2 * (b 2 * b 2) := by
      rw [ha, hb]
      exact hh
    refine (congrArg m.value2 ha.symm).trans (Eq.trans ?_ (congrArg m.value2 hb))
    have e1 : StrainInvariants.I1 (MisesNorm.strain3D2 m.nu m.planeState a) =
        StrainInvariants.I1 (MisesNorm.strain3D2 m.nu m.planeState b) := by
      cases m.planeState <;> simp [StrainInvariants.I1, MisesNorm.strain3D2, ht]
    have e2 : StrainInvariants.J2 (MisesNorm.strain3D2 m.nu m.planeState a) =
        StrainInvariants.J2 (MisesNorm.strain3D2 m.nu m.planeState b) := by
      rw [J2_six, J2_six, ← I1_six, ← I1_six, e1]
      congr 2
      cases m.planeState
      · simp [DamageRun.halfShear, MisesNorm.strain3D2, Fin.sum_univ_six, ht]
        linear_combination hh
      · simp [DamageRun.halfShear, MisesNorm.strain3D2, Fin.sum_univ_six]
        linear_combination hh
    rw [MisesNorm.value2, MisesNorm.value2, MisesNorm.value3, MisesNorm.value3, MisesNorm.A, MisesNorm.A, e1, e2]
  · have ht := (trace_voigt (dim := 3) (by norm_num) (by norm_num) (turn 3 Q g)).trans
      ((tr_turn hQ g).trans (trace_voigt (by norm_num) (by norm_num) g).symm)
    have hh := (halfShear_voigt (dim := 3) (by norm_num) (by norm_num) (turn 3 Q g) (turn 3 Q g)).trans
      ((symInner_turn hQ g g).trans (halfShear_voigt (by norm_num) (by norm_num) g g).symm)
    obtain ⟨a, ha⟩ : ∃ a : Fin 6 → ℝ, a = DamageRun.comps (voigt 3 (turn 3 Q g)) := ⟨_, rfl⟩
    obtain ⟨b, hb⟩ : ∃ b : Fin 6 → ℝ, b = DamageRun.comps (voigt 3 g) := ⟨_, rfl⟩
    have ht : DamageRun.trace 3 a = DamageRun.trace 3 b := by rw [ha, hb]; exact ht
    have hh : DamageRun.halfShear 3 a a = DamageRun.halfShear 3 b b := by rw [ha, hb]; exact hh
    refine (congrArg m.value3 ha.symm).trans (Eq.trans ?_ (congrArg m.value3 hb))
    rw [MisesNorm.value3, MisesNorm.value3, MisesNorm.A, MisesNorm.A, J2_six, J2_six, I1_six, I1_six, ht, hh]

/-! ### Integration points -/

variable {t : Nat → ℝ} {x y : Cell × FemElement ℝ} {cells cells' : List (Cell × FemElement ℝ)}

theorem Turned.count (h : Turned dim Q t x y) (hx : Body dim n x) (hy : Body dim n y) :
    y.2.nodes.length = x.2.nodes.length ∧ y.1.coordElement.nodes.length = x.1.coordElement.nodes.length := by
  rw [hx.dof.count, hy.dof.count, hx.coord.count, hy.coord.count, h.dofInterp, h.interp]
  exact ⟨rfl, rfl⟩

/-- The same point in the two frames. -/
structure SamePoint (p q : ℝ × IpData) : Prop where
  weight : q.1 = p.1
  cellId : q.2.cellId = p.2.cellId
  ipId : q.2.ipId = p.2.ipId
  coords : q.2.coords = p.2.coords

theorem ipData_fields {c : Cell} {i : Nat} {xi : List ℝ} {d : IpData} (h : c.ipData i xi = .ok d) :
    d.cellId = c.id ∧ d.ipId = i ∧ d.coords = xi := by
  unfold Cell.ipData at h
  obtain ⟨v, _, h⟩ := Res.bind_eq_ok h
  obtain ⟨J, _, h⟩ := Res.bind_eq_ok h
  rw [← Res.ok.inj h]
  exact ⟨rfl, rfl, rfl⟩

theorem Turned.points (h : Turned dim Q t x y) {pts pts' : List (ℝ × IpData)} (hp : x.1.Points pts) (hp' : y.1.Points pts') :
    List.Forall₂ (fun p q => SamePoint p q ∧ p ∈ pts ∧ q ∈ pts') pts pts' := by
  have key : ∀ (L : List ((ℝ × List ℝ) × Nat)) (A B : List (ℝ × IpData)),
      List.Forall₂ (fun (ip : (ℝ × List ℝ) × Nat) (p : ℝ × IpData) => p.1 = ip.1.1 ∧ x.1.ipData ip.2 ip.1.2 = .ok p.2) L A →
      List.Forall₂ (fun (ip : (ℝ × List ℝ) × Nat) (p : ℝ × IpData) => p.1 = ip.1.1 ∧ y.1.ipData ip.2 ip.1.2 = .ok p.2) L B →
      (∀ p ∈ A, p ∈ pts) → (∀ q ∈ B, q ∈ pts') → List.Forall₂ (fun p q => SamePoint p q ∧ p ∈ pts ∧ q ∈ pts') A B := by
    intro L A B hA
    induction hA generalizing B with
    | nil => intro hB _ _; cases hB; exact .nil
    | @cons ip p L A hh _ ih =>
      intro hB sA sB
      cases hB with
      | @cons _ q _ B hh' hB =>
        refine .cons ⟨?_, sA p List.mem_cons_self, sB q List.mem_cons_self⟩
          (ih _ hB (fun p hp => sA p (List.mem_cons_of_mem _ hp)) fun q hq => sB q (List.mem_cons_of_mem _ hq))
        obtain ⟨a1, a2, a3⟩ := ipData_fields hh.2
        obtain ⟨b1, b2, b3⟩ := ipData_fields hh'.2
        exact ⟨hh'.1.trans hh.1.symm, by rw [b1, a1, h.id], by rw [b2, a2], by rw [b3, a3]⟩
  refine key _ _ _ hp ?_ (fun p hp => hp) fun q hq => hq
  have := hp'
  unfold Cell.Points at this
  rw [h.rule] at this
  exact this

/-- Jacobian and gradients in the two frames. -/
theorem Turned.gradient (h : Turned dim Q t x y) (hQ : Rotation dim Q) (hx : Body dim n x) (hy : Body dim n y)
    {pts pts' : List (ℝ × IpData)} (hp : x.1.Points pts) (hp' : y.1.Points pts') {p q : ℝ × IpData} (hpm : p ∈ pts)
    (hqm : q ∈ pts') (hs : SamePoint p q) (hdet : p.2.jacobian.det ≠ 0) :
    q.2.jacobian.det = p.2.jacobian.det ∧ ∀ i, ∀ d < dim, (gradients y.2 q.2).coef i d =
      ∑ e ∈ range dim, (gradients x.2 p.2).coef i e * Q d e := by
  obtain ⟨i1, i2, i3⟩ := hx.point hp p hpm
  obtain ⟨j1, j2, j3⟩ := hy.point hp' q hqm
  obtain ⟨_, hc⟩ := h.count hx hy
  rw [h.interp, hs.coords] at j3
  have hlen : (x.1.coordElement.interp.deriv fun k => p.2.coords.getD k 0).length = x.1.coordElement.nodes.length := by
    rw [hx.coordUnity.derivLen, hx.coord.count]
  have hsum := hx.coordUnity.derivSum fun k => p.2.coords.getD k 0
  rw [← hx.coord.count] at hsum
  have ei := Jacobian.C40_entries i3
  have ej := Jacobian.C40_entries j3
  have si := Jacobian.C40_square i3 (i1.trans i2.symm)
  have sj := Jacobian.C40_square j3 (j1.trans j2.symm)
  have hgx : ∀ i d, (gradients x.2 p.2).coef i d = ∑ j ∈ range dim,
      ((x.2.interp.deriv fun k => p.2.coords.getD k 0).getD i []).getD j 0 * p.2.jacobian.inv j d := by
    intro i d
    show p.2.jacobian.transform _ i d = _
    rw [Jacobian.transform, sum_range_list, i2]
  have hgy : ∀ i d, (gradients y.2 q.2).coef i d = ∑ j ∈ range dim,
      ((x.2.interp.deriv fun k => p.2.coords.getD k 0).getD i []).getD j 0 * q.2.jacobian.inv j d := by
    intro i d
    show q.2.jacobian.transform _ i d = _
    rw [Jacobian.transform, sum_range_list, j2, h.dofInterp, hs.coords]
  rw [hlen] at ei ej
  rw [i1] at ei si
  rw [j1] at ej sj
  generalize (x.1.coordElement.interp.deriv fun k => p.2.coords.getD k 0) = dN at *
  generalize q.2.jacobian = J' at *
  generalize p.2.jacobian = J at *
  have hjac : ∀ d < dim, ∀ j, J'.jac d j = ∑ b ∈ range dim, Q d b * J.jac b j := by
    intro d hd j
    rw [ej]
    calc _ = ∑ i ∈ range x.1.coordElement.nodes.length, (t d + ∑ b ∈ range dim, Q d b * component x.1.coordElement i b) *
          (dN.getD i []).getD j 0 := by
          refine sum_congr rfl fun i hi => ?_
          have hi' := mem_range.1 hi
          rw [values_getD (by rw [hc]; exact hi') hd, h.position i hi' d hd]
      _ = t d * ∑ i ∈ range x.1.coordElement.nodes.length, (dN.getD i []).getD j 0 +
          ∑ b ∈ range dim, Q d b * ∑ i ∈ range x.1.coordElement.nodes.length,
            component x.1.coordElement i b * (dN.getD i []).getD j 0 := by
          simp only [add_mul, sum_add_distrib, mul_sum, sum_mul]
          rw [sum_comm]
          congr 1
          exact sum_congr rfl fun b _ => sum_congr rfl fun i _ => by ring
      _ = _ := by
          rw [hsum, mul_zero, zero_add]
          refine sum_congr rfl fun b hb => ?_
          rw [ei]
          congr 1
          refine sum_congr rfl fun i hi => ?_
          rw [values_getD (mem_range.1 hi) (mem_range.1 hb)]
  have hmat : toMat dim dim J'.jac = toMat dim dim Q * toMat dim dim J.jac := by
    ext d j
    rw [Matrix.mul_apply]
    refine (hjac d d.2 j).trans ?_
    rw [← Fin.sum_univ_eq_sum_range (fun b => Q d b * J.jac b j)]
    rfl
  have hdet' : J'.det = J.det := by rw [sj.1, si.1, hmat, Matrix.det_mul, hQ.proper, one_mul]
  refine ⟨hdet', fun i d hd => ?_⟩
  have a1 := (si.2 hdet).1
  have a2 := (sj.2 (by rw [hdet']; exact hdet)).2
  rw [hmat] at a2
  have hinv : toMat dim dim J'.inv = toMat dim dim J.inv * (toMat dim dim Q)ᵀ := by
    calc toMat dim dim J'.inv = toMat dim dim J'.inv * (toMat dim dim Q * (toMat dim dim J.jac * toMat dim dim J.inv) *
          (toMat dim dim Q)ᵀ) := by rw [a1, Matrix.mul_one, hQ.right, Matrix.mul_one]
      _ = (toMat dim dim J'.inv * (toMat dim dim Q * toMat dim dim J.jac)) * (toMat dim dim J.inv * (toMat dim dim Q)ᵀ) := by
          simp only [Matrix.mul_assoc]
      _ = _ := by rw [a2, Matrix.one_mul]
  have hent : ∀ j < dim, J'.inv j d = ∑ e ∈ range dim, J.inv j e * Q d e := by
    intro j hj
    have := congrFun (congrFun hinv ⟨j, hj⟩) ⟨d, hd⟩
    rw [Matrix.mul_apply] at this
    refine this.trans ?_
    rw [← Fin.sum_univ_eq_sum_range (fun e => J.inv j e * Q d e)]
    rfl
  rw [hgy]
  calc _ = ∑ j ∈ range dim, ∑ e ∈ range dim,
        ((x.2.interp.deriv fun k => p.2.coords.getD k 0).getD i []).getD j 0 * J.inv j e * Q d e := by
        refine sum_congr rfl fun j hj => ?_
        rw [hent j (mem_range.1 hj), mul_sum]
        exact sum_congr rfl fun e _ => by ring
    _ = _ := by
        rw [sum_comm]
        refine sum_congr rfl fun e _ => ?_
        rw [hgx, sum_mul]

/-- The displacement gradient of turned vectors is turned. -/
theorem Turned.strain (h : Turned dim Q t x y) (hQ : Rotation dim Q) (hx : Body dim n x) (hy : Body dim n y)
    {pts pts' : List (ℝ × IpData)} (hp : x.1.Points pts) (hp' : y.1.Points pts') {p q : ℝ × IpData} (hpm : p ∈ pts)
    (hqm : q ∈ pts') (hs : SamePoint p q) (hdet : p.2.jacobian.det ≠ 0) {S S' : Nat → ℝ}
    (hS : ∀ i < x.2.nodes.length, ∀ a < dim, S' (number x.2 i a) = ∑ b ∈ range dim, Q a b * S (number x.2 i b)) :
    strains dim (gradients y.2 q.2) (Balance.restrict dim y.2 S') =
      voigt dim (turn dim Q (displacementGradient dim (gradients x.2 p.2) (Balance.restrict dim x.2 S))) := by
  refine strains_voigt dim hx.dim1 hx.dim3 _ _ _ fun a ha d hd => ?_
  obtain ⟨_, hg⟩ := h.gradient hQ hx hy hp hp' hpm hqm hs hdet
  obtain ⟨hc, _⟩ := h.count hx hy
  have r1 : (gradients y.2 q.2).rows = x.2.nodes.length := by rw [← hc, hy.dof.count]; rfl
  have r2 : (gradients x.2 p.2).rows = x.2.nodes.length := by rw [hx.dof.count]; rfl
  rw [displacementGradient, r1, turn]
  calc _ = ∑ i ∈ range x.2.nodes.length, ∑ c ∈ range dim, ∑ e ∈ range dim,
        Q a c * Q d e * (S (number x.2 i c) * (gradients x.2 p.2).coef i e) := by
        refine sum_congr rfl fun i hi => ?_
        have hi' := mem_range.1 hi
        rw [restrict_getD (by rw [hc]; exact hi') ha, h.numbers i hi' a ha, hS i hi' a ha, hg i d hd, sum_mul_sum]
        exact sum_congr rfl fun c _ => sum_congr rfl fun e _ => by ring
    _ = _ := by
        rw [sum_comm]
        refine sum_congr rfl fun c hcm => ?_
        rw [sum_comm]
        refine sum_congr rfl fun e _ => ?_
        rw [displacementGradient, r2, mul_sum]
        refine sum_congr rfl fun i hi => ?_
        rw [restrict_getD (mem_range.1 hi) (mem_range.1 hcm)]

theorem strains_voigt_self (h1 : 1 ≤ dim) (h3 : dim ≤ 3) (G : DMat ℝ) (u : List ℝ) :
    strains dim G u = voigt dim (displacementGradient dim G u) :=
  strains_voigt dim h1 h3 G u _ fun _ _ _ _ => rfl

/-! ### Assembled forces -/

variable {dof : Nat} {s : DofSizes} {law : List ℝ → IpData → Res (List ℝ)} {sigma : List ℝ → IpData → List ℝ}

theorem points_unique {c : Cell} {A B : List (ℝ × IpData)} (h1 : c.Points A) (h2 : c.Points B) : A = B := by
  unfold Cell.Points at h1 h2
  generalize c.rule.zipIdx = L at h1 h2
  induction h1 generalizing B with
  | nil => cases h2; rfl
  | cons a _ ih =>
    cases h2 with
    | cons b t =>
      rw [ih t]
      congr 1
      exact Prod.ext (a.1.trans b.1.symm) (Res.ok.inj (a.2.symm.trans b.2))

theorem momentum_defined (h : Body dim n x) (hr : ∀ pts, x.1.Points pts → ∀ p ∈ pts, ∀ e : List ℝ,
    e.length = voigtSize dim → law e p.2 = .ok (sigma e p.2)) :
    vecCell dof (momentum dof law) x = vecCell dof (momentum dof fun e d => .ok (sigma e d)) x := by
  obtain ⟨pts, hp⟩ := C77_points h
  have key : x.1.integrateVector (momentum dof law x.2) =
      x.1.integrateVector (momentum dof (fun e d => .ok (sigma e d)) x.2) := by
    refine integrateGeneric_congr _ _ _ _ _ pts hp fun p hm => ?_
    obtain ⟨j1, j2, _⟩ := h.point hp p hm
    obtain ⟨B, b1, b2, b3⟩ := strain_ok dim h.dim1 h.dim3 (gradients x.2 p.2) j1
    have hrows : (gradients x.2 p.2).rows = x.2.nodes.length := h.dof.count.symm
    rw [hrows] at b2 b3
    have hu := b3 (values dim x.2) (values_length _ _)
    rw [gradients] at b1
    rw [momentum, momentum, bMatrix, Res.require, if_pos (by rw [h.dofDim, j2]), b1, Res.bind_ok', Res.bind_ok', h.dof.read.1,
      Res.bind_ok', Res.bind_ok', hu, Res.bind_ok', Res.bind_ok',
      hr pts hp p hm _ (strains_length dim h.dim1 h.dim3 _ _)]
  unfold vecCell
  simp only [key]

/-- The internal forces of the displacements `R` and their work. -/
theorem forces_law (hb : ∀ x ∈ cells, Body dim n x) (hd : Defined dim cells law sigma)
    (threads : List (List (Cell × FemElement ℝ))) (hp : threads.flatten.Perm cells) (hs : s.size dof = .ok n)
    (pts : Cell × FemElement ℝ → List (ℝ × IpData)) (hpts : ∀ x ∈ cells, x.1.Points (pts x)) (R : List ℝ) :
    ∃ v f, assembleVector s dof (momentum dof law) (ElasticStep.movedThreads R threads) = .ok v ∧ v.find? dof = some f ∧
      f.length = n ∧ ∀ S : Nat → ℝ, ∑ i ∈ range n, f.getD i 0 * S i =
      (cells.map fun x => ((pts x).map fun p => dot (sigma (DamageRun.strainAt dim R x p.2) p.2)
        (strains dim (gradients x.2 p.2) (Balance.restrict dim x.2 S)) * p.2.jacobian.det * p.1).sum).sum := by
  have hp' : (ElasticStep.movedThreads R threads).flatten.Perm (cells.map fun x => (x.1, ElasticStep.moved R x.2)) := by
    unfold ElasticStep.movedThreads
    rw [← List.map_flatten]
    exact hp.map _
  have hb' : ∀ y ∈ cells.map fun x => (x.1, ElasticStep.moved R x.2), Body dim n y ∧
      ∀ pts, y.1.Points pts → ∀ p ∈ pts, ∀ e : List ℝ, e.length = voigtSize dim → law e p.2 = .ok (sigma e p.2) := by
    intro y hy
    obtain ⟨x, hx, rfl⟩ := List.mem_map.1 hy
    exact ⟨ElasticStep.moved_body (hb x hx) R, hd.value x hx⟩
  have hex : ∀ c : Cell, ∃ q, (∃ x ∈ cells, x.1 = c) → c.Points q := by
    intro c
    by_cases hc : ∃ x ∈ cells, x.1 = c
    · obtain ⟨x, hx, rfl⟩ := hc
      exact ⟨pts x, fun _ => hpts x hx⟩
    · exact ⟨[], fun h => absurd h hc⟩
  choose q hq using hex
  obtain ⟨v, f, h1, h2, h3, h4⟩ := C77_virtual_work s dof dim n sigma hd.length
    (cells.map fun x => (x.1, ElasticStep.moved R x.2)) (ElasticStep.movedThreads R threads) hp' hs (fun y hy => (hb' y hy).1)
    (fun y => q y.1) (by
      intro y hy
      obtain ⟨x, hx, rfl⟩ := List.mem_map.1 hy
      exact hq x.1 ⟨x, hx, rfl⟩)
  refine ⟨v, f, ?_, h2, h3, fun S => ?_⟩
  · rw [← h1]
    unfold assembleVector
    rw [ElasticStep.mapM_congr _ (fun t => t.mapM (vecCell dof (momentum dof fun e d => .ok (sigma e d))))]
    intro t ht
    refine ElasticStep.mapM_congr _ _ _ fun x hx => ?_
    have hy := hb' x (hp'.mem_iff.1 (List.mem_flatten.2 ⟨t, ht, hx⟩))
    exact momentum_defined hy.1 hy.2
  · rw [h4 S, List.map_map]
    congr 1
    refine List.map_congr_left fun x hx => ?_
    simp only [Function.comp_apply]
    rw [points_unique (hq x.1 ⟨x, hx, rfl⟩) (hpts x hx)]
    congr 1
    refine List.map_congr_left fun p _ => ?_
    rw [ElasticStep.moved_values R x.2 (hb x hx).dof, ElasticStep.moved_restrict]
    rfl

theorem all_points (hb : ∀ x ∈ cells, Body dim n x) :
    ∃ pts : Cell × FemElement ℝ → List (ℝ × IpData), ∀ x ∈ cells, x.1.Points (pts x) := by
  have hex : ∀ x : Cell × FemElement ℝ, ∃ pts, x ∈ cells → x.1.Points pts := by
    intro x
    by_cases hx : x ∈ cells
    · obtain ⟨pts, h⟩ := C77_points (hb x hx)
      exact ⟨pts, fun _ => h⟩
    · exact ⟨[], fun h => absurd h hx⟩
  choose pts hpts using hex
  exact ⟨pts, hpts⟩

theorem forall₂_sum {α β : Type} {r : α → β → Prop} (f : α → ℝ) (g : β → ℝ) {A : List α} {B : List β} (h : List.Forall₂ r A B)
    (hr : ∀ a ∈ A, ∀ b ∈ B, r a b → g b = f a) : (B.map g).sum = (A.map f).sum := by
  induction h with
  | nil => rfl
  | @cons a b A B hh _ ih =>
    rw [List.map_cons, List.map_cons, List.sum_cons, List.sum_cons, hr a List.mem_cons_self b List.mem_cons_self hh,
      ih fun a ha b hb => hr a (List.mem_cons_of_mem _ ha) b (List.mem_cons_of_mem _ hb)]

/-- C108 (virtual work): in the turned frame, with the turned displacements, the internal forces of an isotropic law do the
same work on all turned virtual displacements; the schedules of the threads may differ. -/
theorem C108_work (hF : Frames dim n Q t cells cells') (hd : Defined dim cells law sigma) (hd' : Defined dim cells' law sigma)
    (hi : Isotropic dim sigma) (hs : s.size dof = .ok n) (threads threads' : List (List (Cell × FemElement ℝ)))
    (hp : threads.flatten.Perm cells) (hp' : threads'.flatten.Perm cells') (R R' : List ℝ)
    (hR : TurnedVector dim Q cells (fun i => R.getD i 0) fun i => R'.getD i 0) :
    ∃ v v' f f', assembleVector s dof (momentum dof law) (ElasticStep.movedThreads R threads) = .ok v ∧
      assembleVector s dof (momentum dof law) (ElasticStep.movedThreads R' threads') = .ok v' ∧
      v.find? dof = some f ∧ v'.find? dof = some f' ∧ f.length = n ∧ f'.length = n ∧
      ∀ S S', TurnedVector dim Q cells S S' → ∑ i ∈ range n, f'.getD i 0 * S' i = ∑ i ∈ range n, f.getD i 0 * S i := by
  obtain ⟨pts, hpts⟩ := all_points hF.body
  obtain ⟨pts', hpts'⟩ := all_points hF.body'
  obtain ⟨v, f, h1, h2, h3, h4⟩ := forces_law (s := s) (dof := dof) hF.body hd threads hp hs pts hpts R
  obtain ⟨v', f', h1', h2', h3', h4'⟩ := forces_law (s := s) (dof := dof) hF.body' hd' threads' hp' hs pts' hpts' R'
  refine ⟨v, v', f, f', h1, h1', h2, h2', h3, h3', fun S S' hS => ?_⟩
  rw [h4, h4']
  refine forall₂_sum _ _ hF.turned fun x hx y hy hxy => ?_
  have bx := hF.body x hx
  refine forall₂_sum _ _ (hxy.points (hpts x hx) (hpts' y hy)) fun p _ q _ hpq => ?_
  obtain ⟨hsame, hpm, hqm⟩ := hpq
  have hdet := hF.regular x hx _ (hpts x hx) p hpm
  have g := hxy.gradient hF.rotation bx (hF.body' y hy) (hpts x hx) (hpts' y hy) hpm hqm hsame hdet
  have e1 := hxy.strain hF.rotation bx (hF.body' y hy) (hpts x hx) (hpts' y hy) hpm hqm hsame hdet
    (S := fun i => R.getD i 0) (S' := fun i => R'.getD i 0) (hR x hx)
  have e2 := hxy.strain hF.rotation bx (hF.body' y hy) (hpts x hx) (hpts' y hy) hpm hqm hsame hdet (hS x hx)
  rw [DamageRun.strainAt, DamageRun.strainAt, e1, e2, strains_voigt_self bx.dim1 bx.dim3, strains_voigt_self bx.dim1 bx.dim3,
    hi Q hF.rotation _ _ p.2 q.2 hsame.cellId hsame.ipId, g.1, hsame.weight]

/-- The nodes of the mesh: `label x i` is node `i` of the element, `num P a` the number of component `a` of node `P`. -/
structure Labelled (dim : Nat) (cells : List (Cell × FemElement ℝ)) (label : Cell × FemElement ℝ → Nat → Nat)
    (num : Nat → Nat → Nat) : Prop where
  number_eq : ∀ x ∈ cells, ∀ i < x.2.nodes.length, ∀ a < dim, number x.2 i a = num (label x i) a
  inj : ∀ x ∈ cells, ∀ i < x.2.nodes.length, ∀ y ∈ cells, ∀ j < y.2.nodes.length, ∀ a < dim, ∀ b < dim,
    num (label x i) a = num (label y j) b → label x i = label y j ∧ a = b

theorem number_lt (hB : Body dim n x) {i a : Nat} (hi : i < x.2.nodes.length) (ha : a < dim) : number x.2 i a < n := by
  have hmem : x.2.nodes.getD i ⟨[], []⟩ ∈ x.2.nodes := by
    rw [List.getD_eq_getElem _ _ hi]
    exact List.getElem_mem hi
  have hwf := hB.dof.wf _ hmem
  rw [number]
  generalize x.2.nodes.getD i ⟨[], []⟩ = nd at hmem hwf ⊢
  have : nd.dofNumbers.getD a 0 ∈ nd.dofNumbers := by
    rw [List.getD_eq_getElem _ _ (by rw [hwf.2]; exact ha)]
    exact List.getElem_mem _
  have := hB.numbered _ hmem _ this
  omega

/-- Same work on all turned virtual displacements means: the force at every node is turned. -/
theorem turned_forces (hF : Frames dim n Q t cells cells') {label : Cell × FemElement ℝ → Nat → Nat} {num : Nat → Nat → Nat}
    (hL : Labelled dim cells label num) {f f' : List ℝ}
    (h : ∀ S S', TurnedVector dim Q cells S S' → ∑ i ∈ range n, f'.getD i 0 * S' i = ∑ i ∈ range n, f.getD i 0 * S i) :
    TurnedVector dim Q cells (fun i => f.getD i 0) fun i => f'.getD i 0 := by
  intro x0 hx0 i0 hi0 a ha
  have hlt : ∀ b < dim, num (label x0 i0) b < n := fun b hb => by
    rw [← hL.number_eq x0 hx0 i0 hi0 b hb]
    exact number_lt (hF.body x0 hx0) hi0 hb
  have hrow : ∀ c < dim, ∑ b ∈ range dim, Q c b * Q a b = if c = a then 1 else 0 := by
    intro c hc
    have := congrFun (congrFun hF.rotation.right ⟨c, hc⟩) ⟨a, ha⟩
    rw [Matrix.mul_apply, Matrix.one_apply] at this
    rw [← Fin.sum_univ_eq_sum_range (fun b => Q c b * Q a b)]
    simp only [Fin.mk.injEq] at this
    exact this
  have hw := h (fun k => ∑ b ∈ range dim, if k = num (label x0 i0) b then Q a b else 0)
    (fun k => if k = num (label x0 i0) a then 1 else 0) (by
      intro x hx i hi c hc
      rw [hL.number_eq x hx i hi c hc]
      have hS : ∀ b < dim, (∑ b' ∈ range dim, if number x.2 i b = num (label x0 i0) b' then Q a b' else 0) =
          if label x i = label x0 i0 then Q a b else 0 := by
        intro b hb
        rw [hL.number_eq x hx i hi b hb]
        by_cases hl : label x i = label x0 i0
        · rw [if_pos hl, hl, sum_eq_single b, if_pos rfl]
          · intro b' hb' hne
            rw [if_neg]
            intro hh
            exact hne (hL.inj x0 hx0 i0 hi0 x0 hx0 i0 hi0 b hb b' (mem_range.1 hb') hh).2.symm
          · intro hh
            exact absurd (mem_range.2 hb) hh
        · rw [if_neg hl]
          refine sum_eq_zero fun b' hb' => ?_
          rw [if_neg]
          intro hh
          exact hl (hL.inj x hx i hi x0 hx0 i0 hi0 b hb b' (mem_range.1 hb') hh).1
      refine Eq.trans ?_ (sum_congr rfl fun b hb => congrArg (Q c b * ·) (hS b (mem_range.1 hb)).symm)
      beta_reduce
      by_cases hl : label x i = label x0 i0
      · simp only [if_pos hl]
        rw [hrow c hc, hl]
        by_cases hca : c = a
        · rw [hca, if_pos rfl, if_pos rfl]
        · rw [if_neg hca, if_neg]
          intro hh
          exact hca (hL.inj x0 hx0 i0 hi0 x0 hx0 i0 hi0 c hc a ha hh).2
      · simp only [if_neg hl, mul_zero, sum_const_zero]
        rw [if_neg]
        intro hh
        exact hl (hL.inj x hx i hi x0 hx0 i0 hi0 c hc a ha hh).1)
  rw [sum_eq_single (num (label x0 i0) a) (by intro b _ hb; rw [if_neg hb, mul_zero])
    (by intro h; exact absurd (mem_range.2 (hlt a ha)) h), if_pos rfl, mul_one] at hw
  beta_reduce
  rw [hL.number_eq x0 hx0 i0 hi0 a ha, hw]
  simp only [mul_sum]
  rw [sum_comm]
  refine sum_congr rfl fun b hb => ?_
  have hb' := mem_range.1 hb
  rw [sum_eq_single (num (label x0 i0) b) (by intro k _ hk; rw [if_neg hk, mul_zero])
    (by intro h; exact absurd (mem_range.2 (hlt b hb')) h), if_pos rfl, hL.number_eq x0 hx0 i0 hi0 b hb']
  ring

/-- C108 (forces): in the turned frame, with the turned displacements, the internal forces of an isotropic law at all nodes are
turned. -/
theorem C108_forces (hF : Frames dim n Q t cells cells') {label : Cell × FemElement ℝ → Nat → Nat} {num : Nat → Nat → Nat}
    (hL : Labelled dim cells label num) (hd : Defined dim cells law sigma) (hd' : Defined dim cells' law sigma)
    (hi : Isotropic dim sigma) (hs : s.size dof = .ok n) (threads threads' : List (List (Cell × FemElement ℝ)))
    (hp : threads.flatten.Perm cells) (hp' : threads'.flatten.Perm cells') (R R' : List ℝ)
    (hR : TurnedVector dim Q cells (fun i => R.getD i 0) fun i => R'.getD i 0) :
    ∃ v v' f f', assembleVector s dof (momentum dof law) (ElasticStep.movedThreads R threads) = .ok v ∧
      assembleVector s dof (momentum dof law) (ElasticStep.movedThreads R' threads') = .ok v' ∧
      v.find? dof = some f ∧ v'.find? dof = some f' ∧ TurnedVector dim Q cells (fun i => f.getD i 0) fun i => f'.getD i 0 := by
  obtain ⟨v, v', f, f', h1, h2, h3, h4, _, _, h5⟩ := C108_work (s := s) (dof := dof) hF hd hd' hi hs threads threads' hp hp' R R' hR
  exact ⟨v, v', f, f', h1, h2, h3, h4, turned_forces hF hL h5⟩

/-! ### Damage -/

open DamageRun

variable {l l' : LocalDamage (voigtSize dim)}

theorem defined_damage (hm : ∀ x ∈ cells, ∀ pts, x.1.Points pts → ∀ p ∈ pts, l.history.InRange p.2.cellId p.2.ipId) :
    Defined dim cells (DamageRun.stress l) (DamageRun.sigma l) :=
  ⟨sigma_length l, fun x hx pts hp p hpm _ he => stress_ok l _ _ he (hm x hx pts hp p hpm)⟩

theorem update_eq (hb : Body dim n x) {pts : List (ℝ × IpData)} (hp : x.1.Points pts) (R : List ℝ) (p : ℝ × IpData)
    (hpm : p ∈ pts) (l : LocalDamage (voigtSize dim)) : DamageRun.update (ElasticStep.moved R x.2) l p.2 =
      l.update (comps (strainAt dim R x p.2)) p.2.cellId p.2.ipId := by
  have h' := ElasticStep.moved_body hb R
  obtain ⟨j1, j2, _⟩ := hb.point hp p hpm
  obtain ⟨B, b1, b2, b3⟩ := strain_ok dim hb.dim1 hb.dim3 (gradients (ElasticStep.moved R x.2) p.2) j1
  have hrows : (gradients (ElasticStep.moved R x.2) p.2).rows = (ElasticStep.moved R x.2).nodes.length := h'.dof.count.symm
  rw [hrows] at b2 b3
  have hu := b3 (values dim (ElasticStep.moved R x.2)) (values_length _ _)
  rw [gradients] at b1
  have he : strains dim (gradients (ElasticStep.moved R x.2) p.2) (values dim (ElasticStep.moved R x.2)) =
      strainAt dim R x p.2 := by
    rw [ElasticStep.moved_values R x.2 hb.dof]
    rfl
  rw [he] at hu
  rw [DamageRun.update, bMatrix, Res.require, if_pos (by exact h'.dofDim.trans j2.symm), b1, Res.bind_ok', h'.dof.read.1,
    Res.bind_ok', hu, Res.bind_ok', Res.require, if_pos (strainAt_length hb R p.2)]
  rfl

theorem applyCell_eq {S : Type} {c : Cell} {f : S → IpData → Res S} {pts : List (ℝ × IpData)} (hp : c.Points pts) (z : S) :
    applyCell c f z = Res.foldlM (fun (z : S) (p : ℝ × IpData) => f z p.2) z pts := by
  unfold applyCell
  unfold Cell.Points at hp
  generalize c.rule.zipIdx = L at hp
  induction hp generalizing z with
  | nil => rfl
  | @cons ip p L P hh _ ih =>
    rw [Res.foldlM_cons, Res.foldlM_cons, applyStep, hh.2, Res.bind_ok']
    cases f z p.2 with
    | ok a => exact ih a
    | throw => rfl
    | ub => rfl

theorem foldlM_forall₂ {S α β : Type} {r : α → β → Prop} (f : S → α → Res S) (g : S → β → Res S) (P : S → Prop) {A : List α}
    {B : List β} (h : List.Forall₂ r A B) (hP : ∀ a ∈ A, ∀ z z', f z a = .ok z' → P z → P z')
    (hr : ∀ a ∈ A, ∀ b ∈ B, r a b → ∀ z, P z → g z b = f z a) (z : S) (hz : P z) :
    Res.foldlM g z B = Res.foldlM f z A := by
  induction h generalizing z with
  | nil => rfl
  | @cons a b A B hh _ ih =>
    rw [Res.foldlM_cons, Res.foldlM_cons, hr a List.mem_cons_self b List.mem_cons_self hh z hz]
    cases hf : f z a with
    | ok z' =>
      have hz' := hP a List.mem_cons_self z z' hf hz
      exact ih (fun a ha => hP a (List.mem_cons_of_mem _ ha))
        (fun a ha b hb => hr a (List.mem_cons_of_mem _ ha) b (List.mem_cons_of_mem _ hb)) z' hz'
    | throw => rfl
    | ub => rfl

/-- C108 (history): the update of the history data gives the same in the two frames. -/
theorem C108_history (hF : Frames dim n Q t cells cells') (l : LocalDamage (voigtSize dim)) (hn : NormIsotropic dim l.norm)
    (R R' : List ℝ) (hR : TurnedVector dim Q cells (fun i => R.getD i 0) fun i => R'.getD i 0) :
    updateHistory cells' l R' = updateHistory cells l R := by
  obtain ⟨pts, hpts⟩ := all_points hF.body
  obtain ⟨pts', hpts'⟩ := all_points hF.body'
  have hnorm : ∀ (l1 l2 : LocalDamage (voigtSize dim)) (e : Fin (voigtSize dim) → ℝ) (c i : Int),
      l1.update e c i = .ok l2 → l1.norm = l.norm → l2.norm = l.norm := by
    intro l1 l2 e c i h h1
    rw [LocalDamage.update] at h
    obtain ⟨hh, _, h⟩ := Res.bind_eq_ok h
    rw [← Res.ok.inj h]
    exact h1
  have hpt : ∀ x ∈ cells, ∀ p ∈ pts x, ∀ l1 l2, DamageRun.update (ElasticStep.moved R x.2) l1 p.2 = .ok l2 → l1.norm = l.norm →
      l2.norm = l.norm := by
    intro x hx p hpm l1 l2 h
    rw [update_eq (hF.body x hx) (hpts x hx) R p hpm] at h
    exact hnorm _ _ _ _ _ h
  have hcell : ∀ x ∈ cells, ∀ l1 l2, updateStep R l1 x = .ok l2 → l1.norm = l.norm → l2.norm = l.norm := by
    intro x hx l1 l2 h
    rw [updateStep, applyCell_eq (hpts x hx)] at h
    have key : ∀ (P : List (ℝ × IpData)), (∀ p ∈ P, p ∈ pts x) → ∀ l1, Res.foldlM (fun (z : LocalDamage (voigtSize dim))
        (p : ℝ × IpData) => DamageRun.update (ElasticStep.moved R x.2) z p.2) l1 P = .ok l2 → l1.norm = l.norm →
        l2.norm = l.norm := by
      intro P
      induction P with
      | nil => intro _ l1 h h1; rw [← Res.ok.inj h]; exact h1
      | cons p P ih =>
        intro hsub l1 h h1
        rw [Res.foldlM_cons] at h
        obtain ⟨l3, h3, h⟩ := Res.bind_eq_ok h
        exact ih (fun q hq => hsub q (List.mem_cons_of_mem _ hq)) l3 h (hpt x hx p (hsub p List.mem_cons_self) l1 l3 h3 h1)
    exact key _ (fun p hp => hp) l1 h
  refine foldlM_forall₂ (updateStep R) (updateStep R') (fun z => z.norm = l.norm) hF.turned hcell (fun x hx y hy hxy z hz => ?_) l rfl
  rw [updateStep, updateStep, applyCell_eq (hpts x hx), applyCell_eq (hpts' y hy)]
  refine foldlM_forall₂ _ _ (fun z => z.norm = l.norm) (hxy.points (hpts x hx) (hpts' y hy)) (hpt x hx)
    (fun p _ q _ hpq z hz => ?_) z hz
  obtain ⟨hsame, hpm, hqm⟩ := hpq
  have bx := hF.body x hx
  have e1 := hxy.strain hF.rotation bx (hF.body' y hy) (hpts x hx) (hpts' y hy) hpm hqm hsame
    (hF.regular x hx _ (hpts x hx) p hpm) (S := fun i => R.getD i 0) (S' := fun i => R'.getD i 0) (hR x hx)
  show DamageRun.update (ElasticStep.moved R' y.2) z q.2 = DamageRun.update (ElasticStep.moved R x.2) z p.2
  rw [update_eq bx (hpts x hx) R p hpm, update_eq (hF.body' y hy) (hpts' y hy) R' q hqm, LocalDamage.update, LocalDamage.update,
    hsame.cellId, hsame.ipId, strainAt, strainAt, e1, strains_voigt_self bx.dim1 bx.dim3, hz, hn Q hF.rotation]

theorem mesh_turned (hF : Frames dim n Q t cells cells') {h : History} (hm : Mesh dim n h cells) : Mesh dim n h cells' := by
  have hmem : ∀ y ∈ cells', ∃ x ∈ cells, Turned dim Q t x y := by
    intro y hy
    have := hF.turned
    clear hF hm
    induction this with
    | nil => cases hy
    | @cons a b A B hh _ ih =>
      rcases List.mem_cons.1 hy with rfl | hy
      · exact ⟨a, List.mem_cons_self, hh⟩
      · obtain ⟨x, hx, hxy⟩ := ih hy
        exact ⟨x, List.mem_cons_of_mem _ hx, hxy⟩
  have hpt : ∀ y ∈ cells', ∀ pts', y.1.Points pts' → ∀ q ∈ pts', ∃ x ∈ cells, ∃ pts, x.1.Points pts ∧ ∃ p ∈ pts,
      SamePoint p q ∧ q.2.jacobian.det = p.2.jacobian.det := by
    intro y hy pts' hp' q hq
    obtain ⟨x, hx, hxy⟩ := hmem y hy
    obtain ⟨pts, hp⟩ := C77_points (hF.body x hx)
    have hall := hxy.points hp hp'
    have : ∃ p ∈ pts, SamePoint p q := by
      have key : ∀ (A B : List (ℝ × IpData)), List.Forall₂ (fun p q => SamePoint p q ∧ p ∈ pts ∧ q ∈ pts') A B → q ∈ B →
          ∃ p ∈ pts, SamePoint p q := by
        intro A B h
        induction h with
        | nil => intro h; cases h
        | @cons a b A B hh _ ih =>
          intro hm
          rcases List.mem_cons.1 hm with rfl | hm
          · exact ⟨a, hh.2.1, hh.1⟩
          · exact ih hm
      exact key _ _ hall hq
    obtain ⟨p, hpm, hsame⟩ := this
    exact ⟨x, hx, pts, hp, p, hpm, hsame, (hxy.gradient hF.rotation (hF.body x hx) (hF.body' y hy) hp hp' hpm hq hsame
      (hF.regular x hx pts hp p hpm)).1⟩
  refine ⟨hF.body', fun y hy pts' hp' q hq => ?_, fun y hy pts' hp' q hq => ?_⟩
  · obtain ⟨x, hx, pts, hp, p, hpm, hsame, hdet⟩ := hpt y hy pts' hp' q hq
    rw [hdet, hsame.weight]
    exact hm.weights x hx pts hp p hpm
  · obtain ⟨x, hx, pts, hp, p, hpm, hsame, _⟩ := hpt y hy pts' hp' q hq
    rw [hsame.cellId, hsame.ipId]
    exact hm.history x hx pts hp p hpm

/-- C108 (load history): a structure with local damage and an isotropic strain norm, loaded with turned displacements in the
turned frame, answers in every step with the turned forces. -/
theorem C108_run (hF : Frames dim n Q t cells cells') {label : Cell × FemElement ℝ → Nat → Nat} {num : Nat → Nat → Nat}
    (hL : Labelled dim cells label num) (hl : Law dim l) (hn : NormIsotropic dim l.norm) (hm : Mesh dim n l.history cells)
    (hs : s.size dof = .ok n) (steps steps' : List (List (List (Cell × FemElement ℝ)) × List ℝ))
    (hst : List.Forall₂ (fun a b => a.1.flatten.Perm cells ∧ b.1.flatten.Perm cells' ∧
      TurnedVector dim Q cells (fun i => a.2.getD i 0) fun i => b.2.getD i 0) steps steps') :
    ∃ r r', run s dof cells l steps = .ok r ∧ run s dof cells' l steps' = .ok r' ∧ List.Forall₂ (fun y y' =>
      TurnedVector dim Q cells (fun i => y.1.getD i 0) (fun i => y'.1.getD i 0) ∧
      TurnedVector dim Q cells (fun i => y.2.getD i 0) fun i => y'.2.getD i 0) r r' := by
  induction hst generalizing l with
  | nil => exact ⟨[], [], rfl, rfl, .nil⟩
  | @cons a b A B hh _ ih =>
    obtain ⟨p1, p2, hR⟩ := hh
    have hm' := mesh_turned hF hm
    obtain ⟨v, v', f, f', h1, h2, h3, h4, h5⟩ := C108_forces (s := s) (dof := dof) hF hL (defined_damage hm.history)
      (defined_damage hm'.history) (C108_damage l hl hn) hs a.1 b.1 p1 p2 a.2 b.2 hR
    obtain ⟨pts, hpts⟩ := all_points hF.body
    obtain ⟨l1, u1, u2, _⟩ := updateHistory_ok (l := l) hm pts hpts a.2
    have u1' := (C108_history hF l hn a.2 b.2 hR).trans u1
    obtain ⟨r, r', r1, r2, r3⟩ := ih (u2.admissible hl) (by rw [u2.norm]; exact hn) (u2.mesh hm)
    have e1 : forces s dof a.1 l a.2 = .ok f := by rw [forces, h1, Res.bind_ok', OMap.at', h3]
    have e2 : forces s dof b.1 l b.2 = .ok f' := by rw [forces, h2, Res.bind_ok', OMap.at', h4]
    refine ⟨(a.2, f) :: r, (b.2, f') :: r', ?_, ?_, .cons ⟨hR, h5⟩ r3⟩
    · rw [run, step, e1, Res.bind_ok', u1, Res.bind_ok', Res.bind_ok', r1, Res.bind_ok']
    · rw [run, step, e2, Res.bind_ok', u1', Res.bind_ok', Res.bind_ok', r2, Res.bind_ok']

/-- C108 (linear elasticity): the internal forces of linear elastic bodies are turned, in all dimensions and plane states. -/
theorem C108_elastic_forces (hF : Frames dim n Q t cells cells') {label : Cell × FemElement ℝ → Nat → Nat} {num : Nat → Nat → Nat}
    (hL : Labelled dim cells label num) (h1 : 1 ≤ dim) (h3 : dim ≤ 3) (E nu : ℝ) (ps : PlaneState) (hE : 0 < E) (hn1 : -1 < nu)
    (hn2 : nu < 1 / 2) (hs : s.size dof = .ok n) (threads threads' : List (List (Cell × FemElement ℝ)))
    (hp : threads.flatten.Perm cells) (hp' : threads'.flatten.Perm cells') (R R' : List ℝ)
    (hR : TurnedVector dim Q cells (fun i => R.getD i 0) fun i => R'.getD i 0) :
    ∃ v v' f f',
      assembleVector s dof (momentum dof fun e _ => elasticStress dim E nu ps e) (ElasticStep.movedThreads R threads) = .ok v ∧
      assembleVector s dof (momentum dof fun e _ => elasticStress dim E nu ps e) (ElasticStep.movedThreads R' threads') = .ok v' ∧
      v.find? dof = some f ∧ v'.find? dof = some f' ∧ TurnedVector dim Q cells (fun i => f.getD i 0) fun i => f'.getD i 0 := by
  obtain ⟨_, _, _, e4⟩ := C95_elastic dim h1 h3 E nu ps hE hn1 hn2
  exact C108_forces (sigma := fun e _ => apply (elasticTangent dim E nu ps) e) hF hL
    ⟨fun e _ => apply_length _ e, fun _ _ _ _ _ _ => e4⟩ ⟨fun e _ => apply_length _ e, fun _ _ _ _ _ _ => e4⟩
    (C108_elastic h1 h3 E nu ps hE hn1 hn2) hs threads threads' hp hp' R R' hR

/-- A quarter turn. -/
def quarter (a b : Nat) : ℝ := if a = 0 ∧ b = 1 then -1 else if a = 1 ∧ b = 0 then 1 else 0

/-- The example triangle after a quarter turn and a shift by `(5, 7)`. -/
noncomputable def turnedBody : Cell × FemElement ℝ :=
  (⟨0, ⟨nodesAt [[5, 7], [5, 9], [2, 7]], Interpolation.triangleLinear⟩, [(1 / 2, [1 / 3, 1 / 3])]⟩,
   ⟨[⟨[[0, 0]], [0, 1]⟩, ⟨[[0, 0]], [2, 3]⟩, ⟨[[0, 0]], [4, 5]⟩], Interpolation.triangleLinear⟩)

/-- The triangle and the turned triangle meet the hypotheses. -/
example : Frames 2 6 quarter (fun a => if a = 0 then 5 else 7) [exampleBody] [turnedBody] ∧
    Labelled 2 [exampleBody] (fun _ i => i) (fun P a => 2 * P + a) ∧
    TurnedVector 2 quarter [exampleBody] (fun i => [1, 2, 3, 4, 5, 6].getD i 0) fun i => [-2, 1, -4, 3, -6, 5].getD i 0 := by
  refine ⟨⟨⟨?_, ?_⟩, by simpa using exampleBody_ok, ?_, .cons ⟨rfl, rfl, rfl, rfl, ?_, ?_⟩ .nil, ?_⟩, ⟨?_, ?_⟩, ?_⟩
  · intro c hc e he
    interval_cases c <;> interval_cases e <;> simp [quarter]
  · rw [Matrix.det_fin_two]
    simp [Jacobian.toMat, quarter]
  · simp only [List.mem_singleton, forall_eq]
    exact {
      dim1 := by norm_num
      dim3 := by norm_num
      dof := ⟨by simp [turnedBody], rfl, by simp [turnedBody, Node.WF]⟩
      coord := ⟨by simp [turnedBody, nodesAt], rfl, by simp [turnedBody, nodesAt, Node.ofVector, Node.WF]⟩
      dofDim := rfl
      coordDim := rfl
      dofUnity := C77_types _ (by simp [exactTypes, turnedBody])
      coordUnity := C77_types _ (by simp [exactTypes, turnedBody])
      numbered := by simp [turnedBody, Numbered] }
  · intro i hi a ha
    have hi : i < 3 := hi
    interval_cases i <;> interval_cases a <;>
      simp [exampleBody, turnedBody, component, nodesAt, Node.ofVector, quarter] <;> norm_num
  · intro i hi a ha
    have hi : i < 3 := hi
    interval_cases i <;> interval_cases a <;> rfl
  · intro x hx pts hp p hm
    obtain rfl := List.mem_singleton.1 hx
    exact fun h => (exampleMesh_weights exampleBody (by simp) pts hp p hm).ne' (by rw [h, zero_mul])
  · intro x hx i hi a ha
    obtain rfl := List.mem_singleton.1 hx
    have hi : i < 3 := hi
    interval_cases i <;> interval_cases a <;> rfl
  · intro x _ i _ y _ j _ a ha b hb h
    omega
  · intro x hx i hi a ha
    obtain rfl := List.mem_singleton.1 hx
    have hi : i < 3 := hi
    interval_cases i <;> interval_cases a <;> simp [exampleBody, number, quarter]

end Frame

end NuTo
