/-
C95, continued: on face-connected meshes of linear simplices the kernel of the stiffness matrix consists of the rigid
motions only; with too few integration points it does not; the matrix is the derivative of the internal forces.
-/
import Verif.Props.Stiffness
import Mathlib.Logic.Relation
import Mathlib.Analysis.Calculus.Deriv.Add
import Mathlib.Analysis.Calculus.Deriv.Mul

namespace NuTo

open Assembly Finset

namespace Balance

/-! ### Specification -/

/-- Interpolation of a linear simplex: node 0 at the origin, node `c + 1` on the axis `c`. -/
def Simplex (dim : Nat) (I : Interpolation ℝ) : Prop :=
  I.numNodes = dim + 1 ∧ ∀ x, ∀ i ≤ dim, ∀ c < dim,
    ((I.deriv x).getD i []).getD c 0 = if i = 0 then -1 else if i = c + 1 then 1 else 0

/-- All nodes of `y` but one are nodes of `x` too: same dof numbers, same coordinates. -/
def Adjacent (dim : Nat) (x y : Cell × FemElement ℝ) : Prop :=
  ∃ k ≤ dim, ∀ i ≤ dim, i ≠ k → ∃ j ≤ dim, ∀ a < dim, number x.2 j a = number y.2 i a ∧
    component x.1.coordElement j a = component y.1.coordElement i a

/-- From the cell `x₀` all cells can be reached through adjacent cells. -/
def FaceConnected (dim : Nat) (cells : List (Cell × FemElement ℝ)) (x₀ : Cell × FemElement ℝ) : Prop :=
  x₀ ∈ cells ∧ ∀ y ∈ cells, Relation.ReflTransGen (fun x y => y ∈ cells ∧ Adjacent dim x y) x₀ y

/-- `R` is the rigid motion `t + W x` on an element. -/
def RigidOn (dim : Nat) (x : Cell × FemElement ℝ) (t : Nat → ℝ) (W : Nat → Nat → ℝ) (R : Nat → ℝ) : Prop :=
  ∀ i ≤ dim, ∀ a < dim, R (number x.2 i a) = t a + ∑ c ∈ range dim, W a c * component x.1.coordElement i c

theorem triangleLinear_simplex : Simplex 2 Interpolation.triangleLinear := by
  refine ⟨rfl, fun x i hi c hc => ?_⟩
  interval_cases i <;> interval_cases c <;> simp [Interpolation.triangleLinear, Interpolation.triangleLinearDeriv]

theorem tetrahedronLinear_simplex : Simplex 3 Interpolation.tetrahedronLinear := by
  refine ⟨rfl, fun x i hi c hc => ?_⟩
  interval_cases i <;> interval_cases c <;> simp [Interpolation.tetrahedronLinear, Interpolation.tetrahedronLinearDeriv]

/-! ### One element -/

theorem simplex_sum {dim : Nat} {I : Interpolation ℝ} (hI : Simplex dim I) (x : Nat → ℝ) (c : Nat) (hc : c < dim)
    (f : Nat → ℝ) : ∑ i ∈ range (dim + 1), f i * ((I.deriv x).getD i []).getD c 0 = f (c + 1) - f 0 := by
  rw [sum_range_succ', hI.2 x 0 (Nat.zero_le _) c hc, if_pos rfl]
  have : ∀ i ∈ range dim, f (i + 1) * ((I.deriv x).getD (i + 1) []).getD c 0 = if i = c then f (c + 1) else 0 := by
    intro i hi
    rw [hI.2 x (i + 1) (mem_range.1 hi) c hc, if_neg (by omega)]
    by_cases h : i = c
    · subst h
      simp
    · rw [if_neg (by omega), if_neg h, mul_zero]
  rw [sum_congr rfl this, sum_ite_eq' (range dim) c, if_pos (mem_range.2 hc)]
  ring

/-- The data of a simplex at an integration point. -/
theorem simplex_point {dim n : Nat} {x : Cell × FemElement ℝ} (h : Body dim n x)
    (hiso : x.2.interp = x.1.coordElement.interp) (hI : Simplex dim x.2.interp) {pts : List (ℝ × IpData)}
    (hp : x.1.Points pts) (p : ℝ × IpData) (hm : p ∈ pts) (hdet : p.2.jacobian.det ≠ 0) :
    (∀ v : Nat → ℝ, (∀ c < dim, ∑ a ∈ range dim, v a *
      (component x.1.coordElement (c + 1) a - component x.1.coordElement 0 a) = 0) → ∀ a < dim, v a = 0) ∧
    ∀ R : Nat → ℝ, ∀ a < dim, ∀ c < dim,
      ∑ b ∈ range dim, displacementGradient dim (gradients x.2 p.2) (restrict dim x.2 R) a b *
        (component x.1.coordElement (c + 1) b - component x.1.coordElement 0 b) =
      R (number x.2 (c + 1) a) - R (number x.2 0 a) := by
  obtain ⟨j1, j2, j3⟩ := h.point hp p hm
  have hsq := (Jacobian.C40_square j3 (by rw [j1, j2])).2 hdet
  have hent := Jacobian.C40_entries j3
  have hn : x.2.nodes.length = dim + 1 := by rw [h.dof.count, hI.1]
  have hnc : x.1.coordElement.nodes.length = dim + 1 := by rw [h.coord.count, ← hiso, hI.1]
  have hlen : (x.1.coordElement.interp.deriv fun k => p.2.coords.getD k 0).length = dim + 1 := by
    rw [h.coordUnity.derivLen, ← h.coord.count, hnc]
  have hjac : ∀ b < dim, ∀ c < dim, p.2.jacobian.jac b c =
      component x.1.coordElement (c + 1) b - component x.1.coordElement 0 b := by
    intro b hb c hc
    rw [hent, hlen, j1, ← hiso]
    rw [simplex_sum hI _ c hc fun i => (values dim x.1.coordElement).getD (dim * i + b) 0,
      values_getD (by omega) hb, values_getD (by omega) hb]
  have hdelta : ∀ A B : Nat → Nat → ℝ, Jacobian.toMat p.2.jacobian.rows p.2.jacobian.rows A *
      Jacobian.toMat p.2.jacobian.rows p.2.jacobian.rows B = 1 → ∀ a < dim, ∀ b < dim,
      ∑ j ∈ range dim, A a j * B j b = if a = b then 1 else 0 := by
    intro A B hAB a ha b hb
    rw [j1] at hAB
    have := congrFun (congrFun hAB ⟨a, ha⟩) ⟨b, hb⟩
    rw [Matrix.mul_apply, Matrix.one_apply] at this
    rw [← Fin.sum_univ_eq_sum_range (fun j => A a j * B j b)]
    rw [show (∑ j : Fin dim, A a j * B j b) = _ from this]
    simp [Fin.ext_iff]
  have hJI := hdelta _ _ hsq.1
  have hIJ := hdelta _ _ hsq.2
  constructor
  · intro v hv a ha
    calc v a = ∑ b ∈ range dim, v b * (if b = a then 1 else 0) := by simp [ha]
      _ = ∑ b ∈ range dim, ∑ j ∈ range dim, v b * p.2.jacobian.jac b j * p.2.jacobian.inv j a := by
          refine sum_congr rfl fun b hb => ?_
          rw [← hJI b (mem_range.1 hb) a ha, mul_sum]
          exact sum_congr rfl fun j _ => by ring
      _ = ∑ j ∈ range dim, (∑ b ∈ range dim, v b * p.2.jacobian.jac b j) * p.2.jacobian.inv j a := by
          rw [sum_comm]
          exact sum_congr rfl fun j _ => by rw [sum_mul]
      _ = 0 := by
          refine sum_eq_zero fun j hj => ?_
          have : ∑ b ∈ range dim, v b * p.2.jacobian.jac b j = 0 := by
            rw [← hv j (mem_range.1 hj)]
            exact sum_congr rfl fun b hb => by rw [hjac b (mem_range.1 hb) j (mem_range.1 hj)]
          rw [this, zero_mul]
  · intro R a ha c hc
    calc _ = ∑ b ∈ range dim, (∑ j ∈ range dim, (R (number x.2 (j + 1) a) - R (number x.2 0 a)) *
          p.2.jacobian.inv j b) * p.2.jacobian.jac b c := by
          refine sum_congr rfl fun b hb => ?_
          rw [hjac b (mem_range.1 hb) c hc]
          congr 1
          calc displacementGradient dim (gradients x.2 p.2) (restrict dim x.2 R) a b
              = ∑ i ∈ range (dim + 1), R (number x.2 i a) * ∑ j ∈ range dim,
                  ((x.2.interp.deriv fun k => p.2.coords.getD k 0).getD i []).getD j 0 * p.2.jacobian.inv j b := by
                rw [displacementGradient]
                simp only [gradients]
                rw [hI.1]
                refine sum_congr rfl fun i hi => ?_
                rw [restrict_getD (by rw [hn]; exact mem_range.1 hi) ha, Jacobian.transform, sum_range_list, j2]
            _ = ∑ j ∈ range dim, (∑ i ∈ range (dim + 1), R (number x.2 i a) *
                  ((x.2.interp.deriv fun k => p.2.coords.getD k 0).getD i []).getD j 0) * p.2.jacobian.inv j b := by
                simp only [mul_sum, sum_mul]
                rw [sum_comm]
                exact sum_congr rfl fun j _ => sum_congr rfl fun i _ => by ring
            _ = _ := by
                refine sum_congr rfl fun j hj => ?_
                rw [simplex_sum hI _ j (mem_range.1 hj) fun i => R (number x.2 i a)]
      _ = ∑ j ∈ range dim, (R (number x.2 (j + 1) a) - R (number x.2 0 a)) *
            ∑ b ∈ range dim, p.2.jacobian.inv j b * p.2.jacobian.jac b c := by
          simp only [sum_mul, mul_sum]
          rw [sum_comm]
          exact sum_congr rfl fun j _ => sum_congr rfl fun b _ => by ring
      _ = _ := by
          rw [sum_congr rfl fun j hj => by rw [hIJ j (mem_range.1 hj) c hc], sum_eq_single c]
          · simp
          · intro j _ hj
            simp [hj]
          · intro h
            exact absurd (mem_range.2 hc) h

/-- Vanishing strains: the displacement gradient is antisymmetric. -/
theorem strains_zero (dim : Nat) (h1 : 1 ≤ dim) (h3 : dim ≤ 3) (G : DMat ℝ) (u : List ℝ)
    (h : ∀ y ∈ strains dim G u, y = 0) (a : Nat) (ha : a < dim) (b : Nat) (hb : b < dim) :
    displacementGradient dim G u a b = -displacementGradient dim G u b a := by
  interval_cases dim
  · simp only [strains, List.mem_singleton, forall_eq] at h
    interval_cases a
    interval_cases b
    linarith
  · simp only [strains, List.mem_cons, List.not_mem_nil, or_false, forall_eq_or_imp, forall_eq] at h
    obtain ⟨e1, e2, e3⟩ := h
    interval_cases a <;> interval_cases b <;> linarith
  · simp only [strains, List.mem_cons, List.not_mem_nil, or_false, forall_eq_or_imp, forall_eq] at h
    obtain ⟨e1, e2, e3, e4, e5, e6⟩ := h
    interval_cases a <;> interval_cases b <;> linarith

/-- C95: a vector without strains at one integration point of a linear simplex is a rigid motion of its nodes. -/
theorem C95_simplex_rigid {dim n : Nat} {x : Cell × FemElement ℝ} (h : Body dim n x)
    (hiso : x.2.interp = x.1.coordElement.interp) (hI : Simplex dim x.2.interp) {pts : List (ℝ × IpData)}
    (hp : x.1.Points pts) (p : ℝ × IpData) (hm : p ∈ pts) (hdet : p.2.jacobian.det ≠ 0) (R : Nat → ℝ)
    (h0 : ∀ y ∈ strains dim (gradients x.2 p.2) (restrict dim x.2 R), y = 0) :
    ∃ (t : Nat → ℝ) (W : Nat → Nat → ℝ), (∀ a b, W a b = -W b a) ∧ RigidOn dim x t W R := by
  obtain ⟨_, hg⟩ := simplex_point h hiso hI hp p hm hdet
  have hanti := strains_zero dim h.dim1 h.dim3 _ _ h0
  obtain ⟨g, hgd⟩ : ∃ g, g = displacementGradient dim (gradients x.2 p.2) (restrict dim x.2 R) := ⟨_, rfl⟩
  rw [← hgd] at hanti
  have hg := hg R
  rw [← hgd] at hg
  refine ⟨fun a => R (number x.2 0 a) - ∑ c ∈ range dim, g a c * component x.1.coordElement 0 c,
    fun a b => if a < dim ∧ b < dim then g a b else 0, ?_, ?_⟩
  · intro a b
    by_cases ha : a < dim <;> by_cases hb : b < dim <;> simp [ha, hb]
    exact hanti a ha b hb
  · intro i hi a ha
    have hs : ∑ c ∈ range dim, (if a < dim ∧ c < dim then g a c else 0) * component x.1.coordElement i c =
        ∑ c ∈ range dim, g a c * component x.1.coordElement i c :=
      sum_congr rfl fun c hc => by rw [if_pos ⟨ha, mem_range.1 hc⟩]
    rw [hs]
    rcases i with _ | c
    · ring
    · have := hg a ha c hi
      simp only [mul_sub, sum_sub_distrib] at this
      linarith

/-- Two rigid motions that agree on all nodes but one of a simplex agree on all nodes. -/
theorem rigid_extend {dim n : Nat} {x y : Cell × FemElement ℝ} (h : Body dim n y)
    (hiso : y.2.interp = y.1.coordElement.interp) (hI : Simplex dim y.2.interp) {pts : List (ℝ × IpData)}
    (hp : y.1.Points pts) (p : ℝ × IpData) (hm : p ∈ pts) (hdet : p.2.jacobian.det ≠ 0) (R : Nat → ℝ)
    (hadj : Adjacent dim x y) (t : Nat → ℝ) (W : Nat → Nat → ℝ) (hW : ∀ a b, W a b = -W b a)
    (hx : RigidOn dim x t W R) (t' : Nat → ℝ) (W' : Nat → Nat → ℝ) (hW' : ∀ a b, W' a b = -W' b a)
    (hy : RigidOn dim y t' W' R) : RigidOn dim y t W R := by
  obtain ⟨k, hk, hadj⟩ := hadj
  obtain ⟨hreg, _⟩ := simplex_point h hiso hI hp p hm hdet
  obtain ⟨P, hP⟩ : ∃ P, P = component y.1.coordElement := ⟨_, rfl⟩
  obtain ⟨q, hq⟩ : ∃ q : Nat → Nat → ℝ, q = fun i a => (t a - t' a) + ∑ c ∈ range dim, (W a c - W' a c) * P i c :=
    ⟨_, rfl⟩
  have hdiff : ∀ i ≤ dim, ∀ a < dim, R (number y.2 i a) = t a + ∑ c ∈ range dim, W a c * P i c - q i a := by
    intro i hi a ha
    rw [hy i hi a ha, hq, ← hP]
    simp only [sub_mul, sum_sub_distrib]
    ring
  have hshared : ∀ i ≤ dim, i ≠ k → ∀ a < dim, q i a = 0 := by
    intro i hi hne a ha
    obtain ⟨j, hj, hs⟩ := hadj i hi hne
    have e1 := hx j hj a ha
    rw [(hs a ha).1, sum_congr rfl fun c hc => by rw [(hs c (mem_range.1 hc)).2], ← hP, hdiff i hi a ha] at e1
    linarith
  have hquad : ∀ i j, ∑ a ∈ range dim, (q i a - q j a) * (P i a - P j a) = 0 := by
    intro i j
    have hZ : ∀ a, q i a - q j a = ∑ c ∈ range dim, (W a c - W' a c) * (P i c - P j c) := by
      intro a
      rw [hq]
      simp only [mul_sub, sum_sub_distrib]
      ring
    have h2 : ∑ a ∈ range dim, (q i a - q j a) * (P i a - P j a) =
        -∑ a ∈ range dim, (q i a - q j a) * (P i a - P j a) := by
      conv_lhs => simp only [hZ, sum_mul]
      rw [sum_comm, ← sum_neg_distrib]
      refine sum_congr rfl fun c _ => ?_
      rw [hZ, sum_mul, ← sum_neg_distrib]
      refine sum_congr rfl fun a _ => ?_
      rw [hW c a, hW' c a]
      ring
    linarith
  have hk0 : ∀ a < dim, q k a = 0 := by
    have hperp : ∀ i ≤ dim, ∑ a ∈ range dim, q k a * (P k a - P i a) = 0 := by
      intro i hi
      by_cases hik : i = k
      · subst hik
        simp
      · rw [← hquad k i]
        refine sum_congr rfl fun a ha => ?_
        rw [hshared i hi hik a (mem_range.1 ha), sub_zero]
    refine hreg _ fun c hc => ?_
    rw [← hP]
    have e1 := hperp (c + 1) hc
    have e2 := hperp 0 (Nat.zero_le _)
    calc _ = ∑ a ∈ range dim, q k a * (P k a - P 0 a) - ∑ a ∈ range dim, q k a * (P k a - P (c + 1) a) := by
          rw [← sum_sub_distrib]
          exact sum_congr rfl fun a _ => by ring
      _ = 0 := by rw [e1, e2, sub_zero]
  intro i hi a ha
  rw [hdiff i hi a ha, hP]
  have : q i a = 0 := by
    by_cases hik : i = k
    · subst hik
      exact hk0 a ha
    · exact hshared i hi hik a ha
  rw [this, sub_zero]

variable {dof dim n : Nat} {T : List ℝ → IpData → DMat ℝ} {cells : List (Cell × FemElement ℝ)} {m : SpMat ℝ}

/-- C95: on a face-connected mesh of linear simplices, each with at least one integration point, a vector without strains
is one rigid motion of the whole mesh. -/
theorem C95_unstrained_rigid (hb : ∀ x ∈ cells, Body dim n x) (hiso : ∀ x ∈ cells, x.2.interp = x.1.coordElement.interp)
    (hI : ∀ x ∈ cells, Simplex dim x.2.interp) (hne : ∀ x ∈ cells, x.1.rule ≠ [])
    (hdet : ∀ x ∈ cells, ∀ pts, x.1.Points pts → ∀ p ∈ pts, p.2.jacobian.det ≠ 0) (x₀ : Cell × FemElement ℝ)
    (hc : FaceConnected dim cells x₀) (R : Nat → ℝ) (h0 : Unstrained dim cells R) :
    ∃ (t : Nat → ℝ) (W : Nat → Nat → ℝ), (∀ a b, W a b = -W b a) ∧ ∀ x ∈ cells, RigidOn dim x t W R := by
  have hpoint : ∀ x ∈ cells, ∃ pts, x.1.Points pts ∧ ∃ p, p ∈ pts := by
    intro x hx
    obtain ⟨pts, hp⟩ := C77_points (hb x hx)
    refine ⟨pts, hp, ?_⟩
    have hl := hp.length_eq
    rw [List.length_zipIdx] at hl
    exact List.exists_mem_of_length_pos (by rw [← hl]; exact List.length_pos_iff.2 (hne x hx))
  have hown : ∀ x ∈ cells, ∃ (t : Nat → ℝ) (W : Nat → Nat → ℝ), (∀ a b, W a b = -W b a) ∧ RigidOn dim x t W R := by
    intro x hx
    obtain ⟨pts, hp, p, hm⟩ := hpoint x hx
    exact C95_simplex_rigid (hb x hx) (hiso x hx) (hI x hx) hp p hm (hdet x hx pts hp p hm) R (h0 x hx pts hp p hm)
  obtain ⟨t, W, hW, h1⟩ := hown x₀ hc.1
  refine ⟨t, W, hW, fun y hy => ?_⟩
  have := hc.2 y hy
  induction this with
  | refl => exact h1
  | @tail y z hyz hz ih =>
    by_cases hym : y ∈ cells
    · obtain ⟨t', W', hW', h2⟩ := hown z hy
      obtain ⟨pts, hp, p, hm⟩ := hpoint z hy
      exact rigid_extend (hb z hy) (hiso z hy) (hI z hy) hp p hm (hdet z hy pts hp p hm) R hz.2 t W hW (ih hym) t' W' hW' h2
    · exfalso
      rcases Relation.ReflTransGen.cases_tail hyz with h | ⟨w, _, hw⟩
      · exact hym (h ▸ hc.1)
      · exact hym hw.1

/-- C95 (kernel): on a face-connected mesh of linear triangles or tetrahedra with definite tangents the stiffness matrix
maps exactly the rigid motions to zero. -/
theorem C95_kernel (k : Stiff dof dim n T cells m) (hpd : Definite dim T)
    (hw : ∀ x ∈ cells, ∀ pts, x.1.Points pts → ∀ p ∈ pts, 0 < p.2.jacobian.det * p.1)
    (hiso : ∀ x ∈ cells, x.2.interp = x.1.coordElement.interp) (hI : ∀ x ∈ cells, Simplex dim x.2.interp)
    (hne : ∀ x ∈ cells, x.1.rule ≠ []) (x₀ : Cell × FemElement ℝ) (hc : FaceConnected dim cells x₀) (R : Nat → ℝ) :
    (∀ i < n, ∑ j ∈ range n, m.entry i j * R j = 0) ↔
      ∃ (t : Nat → ℝ) (W : Nat → Nat → ℝ), (∀ a b, W a b = -W b a) ∧ ∀ x ∈ cells, RigidOn dim x t W R := by
  have hdet : ∀ x ∈ cells, ∀ pts, x.1.Points pts → ∀ p ∈ pts, p.2.jacobian.det ≠ 0 := by
    intro x hx pts hp p hm h0
    have := hw x hx pts hp p hm
    rw [h0, zero_mul] at this
    exact lt_irrefl _ this
  constructor
  · intro h
    refine C95_unstrained_rigid k.body hiso hI hne hdet x₀ hc R ((C95_energy_zero k hpd hw R).1 ?_)
    refine sum_eq_zero fun i hi => ?_
    have : ∑ j ∈ range n, R i * m.entry i j * R j = R i * ∑ j ∈ range n, m.entry i j * R j := by
      rw [mul_sum]
      exact sum_congr rfl fun j _ => by ring
    rw [this, h i (mem_range.1 hi), mul_zero]
  · rintro ⟨t, W, hW, h⟩ i hi
    refine C95_rigid k hiso hdet t W hW R (fun x hx j hj a ha => h x hx j ?_ a ha) i hi
    rw [(k.body x hx).dof.count, (hI x hx).1] at hj
    omega

end Balance

end NuTo
