/-
C114: the reactions of computed states balance the loads; work and reciprocity of elastic bodies.
-/
import Verif.Props.ElasticStep

namespace NuTo

open Assembly Finset Balance Solve Statics Quasistatic ElasticStep

namespace Reactions

/-! ### Specification -/

/-- The vector is a rigid motion of the body: a translation and a linearised rotation. -/
def Rigid (dim : Nat) (cells : List (Cell × FemElement ℝ)) (R : Nat → ℝ) : Prop :=
  ∃ (t : Nat → ℝ) (W : Nat → Nat → ℝ), (∀ a b, W a b = -W b a) ∧
    ∀ x ∈ cells, ∀ i < x.2.nodes.length, ∀ a < dim, R (number x.2 i a) =
      t a + ∑ c ∈ range dim, W a c * component x.1.coordElement i c

/-- No constraint equation mentions the dof. -/
def Free (c : Constraints ℝ) (dof : Nat) (num : Term ℝ → Nat) (i : Nat) : Prop :=
  ∀ e ∈ c.equations dof, num e.dep ≠ i ∧ ∀ t ∈ e.ind, num t ≠ i

/-- Work of forces on displacements. -/
def work (n : Nat) (F u : List ℝ) : ℝ := ∑ i ∈ range n, F.getD i 0 * u.getD i 0

/-! ### Proofs -/

variable {dof dim n : Nat} {E nu : ℝ} {ps : PlaneState} {s : DofSizes} {cells : List (Cell × FemElement ℝ)}
  {threads : List (List (Cell × FemElement ℝ))} {st : NodeStore ℝ} {c : Constraints ℝ} {num : Term ℝ → Nat}

/-- A quadratic function that is nonnegative everywhere and zero at the origin has no linear part. -/
theorem linear_zero {a b : ℝ} (h : ∀ t : ℝ, 0 ≤ t * a + t * t * b) : a = 0 := by
  by_contra hne
  have hb : 0 ≤ b := by
    have h1 := h 1
    have h2 := h (-1)
    linarith
  have := h (-a / (b + 1))
  have hpos : 0 < b + 1 := by linarith
  have e : -a / (b + 1) * a + -a / (b + 1) * (-a / (b + 1)) * b = -(a * a) / ((b + 1) * (b + 1)) := by
    field_simp
    ring
  rw [e] at this
  have h3 : -(a * a) / ((b + 1) * (b + 1)) < 0 := div_neg_of_neg_of_pos (by
    have := mul_self_pos.2 hne
    linarith) (mul_pos hpos hpos)
  linarith

theorem form_add (m : SpMat ℝ) (hsym : ∀ i < n, ∀ j < n, m.entry i j = m.entry j i) (u w : Nat → ℝ) (t : ℝ) :
    form m n (fun i => u i + t * w i) =
      form m n u + 2 * t * ∑ i ∈ range n, w i * ∑ j ∈ range n, m.entry i j * u j + t * t * form m n w := by
  have h2 : ∑ i ∈ range n, ∑ j ∈ range n, u i * m.entry i j * w j =
      ∑ i ∈ range n, ∑ j ∈ range n, w i * m.entry i j * u j := by
    rw [sum_comm]
    refine sum_congr rfl fun i hi => sum_congr rfl fun j hj => ?_
    rw [hsym j (mem_range.1 hj) i (mem_range.1 hi)]
    ring
  have h3 : ∑ i ∈ range n, w i * ∑ j ∈ range n, m.entry i j * u j =
      ∑ i ∈ range n, ∑ j ∈ range n, w i * m.entry i j * u j := by
    refine sum_congr rfl fun i _ => ?_
    rw [mul_sum]
    exact sum_congr rfl fun j _ => by ring
  have h4 : 2 * t * ∑ i ∈ range n, ∑ j ∈ range n, w i * m.entry i j * u j =
      t * ∑ i ∈ range n, ∑ j ∈ range n, w i * m.entry i j * u j + t * ∑ i ∈ range n, ∑ j ∈ range n, u i * m.entry i j * w j := by
    rw [h2]
    ring
  rw [h3, h4]
  simp only [form, mul_sum, ← sum_add_distrib]
  exact sum_congr rfl fun i _ => sum_congr rfl fun j _ => by ring

theorem getD_axpy (n : Nat) (u w : List ℝ) (a t : ℝ) (hu : u.length = n) (hw : w.length = n) :
    ∃ v : List ℝ, v.length = n ∧ ∀ i, v.getD i 0 = a * u.getD i 0 + t * w.getD i 0 := by
  refine ⟨List.zipWith (fun x y => a * x + t * y) u w, by simp [hw, hu], fun i => ?_⟩
  by_cases hi : i < n
  · simp [List.getD_eq_getElem?_getD, hw, hu, hi]
  · simp [List.getD_eq_getElem?_getD, hw, hu, hi]

theorem lhs_axpy (u w : Nat → ℝ) (a t : ℝ) (e : Equation ℝ) :
    e.lhs num (fun i => a * u i + t * w i) = a * e.lhs num u + t * e.lhs num w := by
  simp only [Equation.lhs]
  rw [mul_add a, mul_add t, ← List.sum_map_mul_left, ← List.sum_map_mul_left]
  have : (e.ind.map fun x => x.coef * (a * u (num x) + t * w (num x))).sum =
      (e.ind.map fun x => a * (x.coef * u (num x))).sum + (e.ind.map fun x => t * (x.coef * w (num x))).sum := by
    rw [← List.sum_map_add]
    congr 1
    exact List.map_congr_left fun x _ => by ring
  rw [this]
  ring

theorem satisfies_axpy {rhs rhs' : Equation ℝ → ℝ} {v u w : List ℝ} {a t : ℝ} (hu : Satisfies c dof num rhs u)
    (hw : Satisfies c dof num rhs' w) (hv : ∀ i, v.getD i 0 = a * u.getD i 0 + t * w.getD i 0) :
    Satisfies c dof num (fun e => a * rhs e + t * rhs' e) v := by
  intro e he
  show e.lhs num (fun i => v.getD i 0) = _
  simp only [hv]
  rw [lhs_axpy, hu e he, hw e he]

/-- A state is an equilibrium exactly if it satisfies the constraints and the forces that are not balanced do no work on
the motions that the constraints allow. -/
theorem equilibrium_iff (P : Problem dof dim n E nu s cells threads st c num) (ps : PlaneState)
    (pts : Cell × FemElement ℝ → List (ℝ × IpData)) (hpts : ∀ x ∈ cells, x.1.Points (pts x)) {h : DofSpMat ℝ} {m : SpMat ℝ}
    (h1 : assembleMatrix s dof (stiffness dof fun _ _ => .ok (elasticTangent dim E nu ps)) threads = .ok h)
    (h2 : h.find? (toLex (dof, dof)) = some m) {F u : List ℝ} (hF : F.length = n) {rhs : Equation ℝ → ℝ} :
    Equilibrium dof dim n (elasticTangent dim E nu ps) cells pts c num F rhs u ↔
      u.length = n ∧ Satisfies c dof num rhs u ∧ ∀ w : List ℝ, w.length = n → Satisfies c dof num (fun _ => 0) w →
        ∑ i ∈ range n, w.getD i 0 * (∑ j ∈ range n, m.entry i j * u.getD j 0 - F.getD i 0) = 0 := by
  obtain ⟨h', m', g1, g2, _, _, _, _, a7, a8, a9, a10⟩ := P.matrix ps
  obtain rfl : h = h' := Res.ok.inj (h1.symm.trans g1)
  obtain rfl : m = m' := Option.some.inj (h2.symm.trans g2)
  constructor
  · intro hu
    refine ⟨hu.length, hu.holds, fun w hw hws => linear_zero (b := 1 / 2 * form m n fun i => w.getD i 0) fun t => ?_⟩
    obtain ⟨v, v1, v2⟩ := getD_axpy n u w 1 t hu.length hw
    have hsat : Satisfies c dof num rhs v := fun e he =>
      (satisfies_axpy hu.holds hws v2 e he).trans (by ring)
    have hl := hu.least v v1 hsat
    rw [potential, potential, a10 pts hpts, a10 pts hpts, hF] at hl
    simp only [v2, one_mul] at hl
    rw [form_add m a7 (fun i => u.getD i 0) (fun i => w.getD i 0) t] at hl
    have e1 : ∑ i ∈ range n, F.getD i 0 * (u.getD i 0 + t * w.getD i 0) =
        ∑ i ∈ range n, F.getD i 0 * u.getD i 0 + t * ∑ i ∈ range n, w.getD i 0 * F.getD i 0 := by
      rw [mul_sum, ← sum_add_distrib]
      exact sum_congr rfl fun i _ => by ring
    have e2 : ∑ i ∈ range n, w.getD i 0 * (∑ j ∈ range n, m.entry i j * u.getD j 0 - F.getD i 0) =
        ∑ i ∈ range n, w.getD i 0 * ∑ j ∈ range n, m.entry i j * u.getD j 0 - ∑ i ∈ range n, w.getD i 0 * F.getD i 0 := by
      rw [← sum_sub_distrib]
      exact sum_congr rfl fun i _ => by ring
    rw [e1] at hl
    rw [e2]
    linarith
  · rintro ⟨hu, hsat, horth⟩
    exact ⟨hu, hsat, fun w hw hws => (P.least ps a7 a8 a9 pts (a10 pts hpts) hF hu hsat horth w hw hws).1⟩

/-- C114: the reactions of an equilibrium, i.e. the residual `Gradient` of the state, exist; they do no work on the
motions that the constraints allow, and vanish at the dofs that no constraint mentions. -/
theorem C114_reactions (P : Problem dof dim n E nu s cells threads st c num) (ps : PlaneState)
    (pts : Cell × FemElement ℝ → List (ℝ × IpData)) (hpts : ∀ x ∈ cells, x.1.Points (pts x)) (load : ℝ → List ℝ)
    (hload : ∀ t, (load t).length = n) (t : ℝ) (u : List ℝ) (rhs : Equation ℝ → ℝ)
    (hu : Equilibrium dof dim n (elasticTangent dim E nu ps) cells pts c num (load t) rhs u) :
    ∃ r, gradient (setup dof dim E nu ps s threads load) [(dof, u)] t = .ok [(dof, r)] ∧ r.length = n ∧
      (∀ w : List ℝ, w.length = n → Satisfies c dof num (fun _ => 0) w → work n r w = 0) ∧
      ∀ i < n, Free c dof num i → r.getD i 0 = 0 := by
  obtain ⟨h, m, a1, a2, _⟩ := P.matrix ps
  obtain ⟨_, r, r1, r2, r3⟩ := gradient_eq P ps a1 a2 load hload u t
  obtain ⟨_, _, horth⟩ := (equilibrium_iff P ps pts hpts a1 a2 (hload t)).1 hu
  have hw : ∀ w : List ℝ, w.length = n → Satisfies c dof num (fun _ => 0) w → work n r w = 0 := by
    intro w h1 h2
    rw [← horth w h1 h2, work]
    refine sum_congr rfl fun i hi => ?_
    rw [r3 i (mem_range.1 hi), mul_comm]
  refine ⟨r, r1, r2, hw, fun i hi hfree => ?_⟩
  obtain ⟨e, e1, e2⟩ := ofFun n fun l => if l = i then (1 : ℝ) else 0
  have hz : ∀ l, l ≠ i → e.getD l 0 = 0 := by
    intro l hl
    by_cases hln : l < n
    · rw [e2 l hln, if_neg hl]
    · rw [List.getD_eq_default _ _ (by omega)]
  have := hw e e1 (by
    intro q hq
    obtain ⟨f1, f2⟩ := hfree q hq
    rw [Equation.lhs, hz _ f1, mul_zero, zero_add]
    refine List.sum_eq_zero fun y hy => ?_
    obtain ⟨t, ht, rfl⟩ := List.mem_map.1 hy
    rw [hz _ (f2 t ht), mul_zero])
  rw [work, sum_eq_single_of_mem i (mem_range.2 hi) fun l _ hl => by rw [hz l hl, mul_zero], e2 i hi, if_pos rfl, mul_one] at this
  exact this

/-- C114: for every state, in equilibrium or not, forces and moments of the residual are those of the loads with opposite
sign. -/
theorem C114_balance (P : Problem dof dim n E nu s cells threads st c num) (ps : PlaneState)
    (hiso : ∀ x ∈ cells, x.2.interp = x.1.coordElement.interp) (load : ℝ → List ℝ) (hload : ∀ t, (load t).length = n) (t : ℝ)
    (u R : List ℝ) (hR : Rigid dim cells fun i => R.getD i 0) :
    ∃ r, gradient (setup dof dim E nu ps s threads load) [(dof, u)] t = .ok [(dof, r)] ∧
      work n r R + work n (load t) R = 0 := by
  obtain ⟨e1, _, _, _⟩ := C95_elastic dim P.dim1 P.dim3 E nu ps P.stiff P.poisson.1 P.poisson.2
  obtain ⟨h', m', b1, b2, _, _, k⟩ := C95_exists s dof dim n (fun _ _ => elasticTangent dim E nu ps)
    (fun e _ he => by rw [he]; exact e1) cells threads P.schedule P.size P.body
  obtain ⟨h, m, a1, a2, _, _, _, _, a7, _⟩ := P.matrix ps
  obtain rfl : h = h' := Res.ok.inj (a1.symm.trans b1)
  obtain rfl : m = m' := Option.some.inj (a2.symm.trans b2)
  obtain ⟨_, r, r1, r2, r3⟩ := gradient_eq P ps a1 a2 load hload u t
  refine ⟨r, r1, ?_⟩
  obtain ⟨tr, W, hW, hR⟩ := hR
  have hker := C95_rigid k hiso (fun x hx pts hp p hm h0 => by
    have := P.positive x hx pts hp p hm
    rw [h0, zero_mul] at this
    exact lt_irrefl _ this) tr W hW (fun i => R.getD i 0) hR
  rw [work, work, ← sum_add_distrib]
  calc _ = ∑ i ∈ range n, ∑ j ∈ range n, m.entry i j * u.getD j 0 * R.getD i 0 := by
        refine sum_congr rfl fun i hi => ?_
        rw [r3 i (mem_range.1 hi), ← sum_mul]
        ring
    _ = ∑ j ∈ range n, u.getD j 0 * ∑ i ∈ range n, m.entry j i * R.getD i 0 := by
        rw [sum_comm]
        refine sum_congr rfl fun j hj => ?_
        rw [mul_sum]
        refine sum_congr rfl fun i hi => ?_
        rw [a7 i (mem_range.1 hi) j (mem_range.1 hj)]
        ring
    _ = 0 := sum_eq_zero fun j hj => by rw [hker j (mem_range.1 hj), mul_zero]

/-- C114: in equilibrium the reactions of the supports alone have the forces and moments of the loads with opposite
sign. -/
theorem C114_supports (P : Problem dof dim n E nu s cells threads st c num) (ps : PlaneState)
    (hiso : ∀ x ∈ cells, x.2.interp = x.1.coordElement.interp)
    (pts : Cell × FemElement ℝ → List (ℝ × IpData)) (hpts : ∀ x ∈ cells, x.1.Points (pts x)) (load : ℝ → List ℝ)
    (hload : ∀ t, (load t).length = n) (t : ℝ) (u R : List ℝ) (rhs : Equation ℝ → ℝ)
    (hu : Equilibrium dof dim n (elasticTangent dim E nu ps) cells pts c num (load t) rhs u)
    (hR : Rigid dim cells fun i => R.getD i 0) (S : Finset Nat) (hS : S ⊆ range n)
    (hfree : ∀ i < n, i ∉ S → Free c dof num i) :
    ∃ r, gradient (setup dof dim E nu ps s threads load) [(dof, u)] t = .ok [(dof, r)] ∧
      ∑ i ∈ S, r.getD i 0 * R.getD i 0 + work n (load t) R = 0 := by
  obtain ⟨r, r1, r2, _, r4⟩ := C114_reactions P ps pts hpts load hload t u rhs hu
  obtain ⟨r', g1, g2⟩ := C114_balance P ps hiso load hload t u R hR
  obtain rfl : r = r' := by
    have := Res.ok.inj (r1.symm.trans g1)
    simpa using this
  refine ⟨r, r1, ?_⟩
  refine Eq.trans ?_ g2
  congr 1
  refine sum_subset (f := fun i => r.getD i 0 * R.getD i 0) hS fun i hi hn => ?_
  beta_reduce
  rw [r4 i (mem_range.1 hi) (hfree i (mem_range.1 hi) hn), zero_mul]

/-- C114 (Clapeyron): loads and reactions do twice the work of the strain energy; with homogeneous constraints the
reactions do none. -/
theorem C114_work (P : Problem dof dim n E nu s cells threads st c num) (ps : PlaneState)
    (pts : Cell × FemElement ℝ → List (ℝ × IpData)) (hpts : ∀ x ∈ cells, x.1.Points (pts x)) (load : ℝ → List ℝ)
    (hload : ∀ t, (load t).length = n) (t : ℝ) (u : List ℝ) (rhs : Equation ℝ → ℝ)
    (hu : Equilibrium dof dim n (elasticTangent dim E nu ps) cells pts c num (load t) rhs u) :
    ∃ r, gradient (setup dof dim E nu ps s threads load) [(dof, u)] t = .ok [(dof, r)] ∧
      work n (load t) u + work n r u = 2 * strainEnergy dim (elasticTangent dim E nu ps) cells pts (fun i => u.getD i 0) ∧
      (Satisfies c dof num (fun _ => 0) u → work n r u = 0) := by
  obtain ⟨r, r1, r2, r3, _⟩ := C114_reactions P ps pts hpts load hload t u rhs hu
  obtain ⟨h, m, a1, a2, _, _, _, _, _, _, _, a10⟩ := P.matrix ps
  obtain ⟨_, r', g1, g2, g3⟩ := gradient_eq P ps a1 a2 load hload u t
  obtain rfl : r = r' := by
    have := Res.ok.inj (r1.symm.trans g1)
    simpa using this
  refine ⟨r, r1, ?_, fun h0 => r3 u hu.length h0⟩
  rw [a10 pts hpts, work, work, ← sum_add_distrib, form]
  rw [show ∀ y : ℝ, 2 * (1 / 2 * y) = y from fun y => by ring]
  refine sum_congr rfl fun i hi => ?_
  rw [g3 i (mem_range.1 hi), ← add_mul, add_sub_cancel, sum_mul]
  exact sum_congr rfl fun j _ => by ring

/-- C114 (Betti): loads and reactions of one equilibrium do on the displacements of a second one the same work as those of
the second on the displacements of the first. -/
theorem C114_reciprocal (P : Problem dof dim n E nu s cells threads st c num) (ps : PlaneState) (load : ℝ → List ℝ)
    (hload : ∀ t, (load t).length = n) (t t' : ℝ) (u v : List ℝ) :
    ∃ r q, gradient (setup dof dim E nu ps s threads load) [(dof, u)] t = .ok [(dof, r)] ∧
      gradient (setup dof dim E nu ps s threads load) [(dof, v)] t' = .ok [(dof, q)] ∧
      work n (load t) v + work n r v = work n (load t') u + work n q u := by
  obtain ⟨h, m, a1, a2, _, _, _, _, a7, _⟩ := P.matrix ps
  obtain ⟨_, r, g1, g2, g3⟩ := gradient_eq P ps a1 a2 load hload u t
  obtain ⟨_, q, q1, q2, q3⟩ := gradient_eq P ps a1 a2 load hload v t'
  refine ⟨r, q, g1, q1, ?_⟩
  simp only [work, ← sum_add_distrib]
  calc _ = ∑ i ∈ range n, ∑ j ∈ range n, m.entry i j * u.getD j 0 * v.getD i 0 := by
        refine sum_congr rfl fun i hi => ?_
        rw [g3 i (mem_range.1 hi), ← sum_mul]
        ring
    _ = ∑ j ∈ range n, ∑ i ∈ range n, m.entry j i * v.getD i 0 * u.getD j 0 := by
        rw [sum_comm]
        refine sum_congr rfl fun j hj => sum_congr rfl fun i hi => ?_
        rw [a7 i (mem_range.1 hi) j (mem_range.1 hj)]
        ring
    _ = _ := by
        refine sum_congr rfl fun i hi => ?_
        rw [q3 i (mem_range.1 hi), ← sum_mul]
        ring

/-- C114: with homogeneous constraints the loads alone have this symmetry, so the displacement at one dof by a unit load at
another one is that with the dofs exchanged. -/
theorem C114_reciprocal_loads (P : Problem dof dim n E nu s cells threads st c num) (ps : PlaneState)
    (pts : Cell × FemElement ℝ → List (ℝ × IpData)) (hpts : ∀ x ∈ cells, x.1.Points (pts x)) (F G u v : List ℝ)
    (hF : F.length = n) (hG : G.length = n)
    (hu : Equilibrium dof dim n (elasticTangent dim E nu ps) cells pts c num F (fun _ => 0) u)
    (hv : Equilibrium dof dim n (elasticTangent dim E nu ps) cells pts c num G (fun _ => 0) v) :
    work n F v = work n G u := by
  have hload : ∀ t : ℝ, (if t = 0 then F else G).length = n := fun t => by split_ifs <;> assumption
  have h0 : (fun t : ℝ => if t = 0 then F else G) 0 = F := if_pos rfl
  have h1 : (fun t : ℝ => if t = 0 then F else G) 1 = G := if_neg one_ne_zero
  obtain ⟨r, q, r1, q1, e⟩ := C114_reciprocal P ps (fun t => if t = 0 then F else G) hload 0 1 u v
  obtain ⟨r', a1, _, a3, _⟩ := C114_reactions P ps pts hpts _ hload 0 u _ (h0.symm ▸ hu)
  obtain ⟨q', b1, _, b3, _⟩ := C114_reactions P ps pts hpts _ hload 1 v _ (h1.symm ▸ hv)
  obtain rfl : r = r' := by simpa using Res.ok.inj (r1.symm.trans a1)
  obtain rfl : q = q' := by simpa using Res.ok.inj (q1.symm.trans b1)
  rw [a3 v hv.length hv.holds, b3 u hu.length hu.holds, add_zero, add_zero] at e
  simpa using e

/-- C114: equilibria can be superposed. -/
theorem C114_superposition (P : Problem dof dim n E nu s cells threads st c num) (ps : PlaneState)
    (pts : Cell × FemElement ℝ → List (ℝ × IpData)) (hpts : ∀ x ∈ cells, x.1.Points (pts x)) (F G H u v w : List ℝ)
    (a b : ℝ) (rhs rhs' : Equation ℝ → ℝ) (hF : F.length = n) (hG : G.length = n) (hH : H.length = n) (hw : w.length = n)
    (hHv : ∀ i < n, H.getD i 0 = a * F.getD i 0 + b * G.getD i 0)
    (hwv : ∀ i < n, w.getD i 0 = a * u.getD i 0 + b * v.getD i 0)
    (hu : Equilibrium dof dim n (elasticTangent dim E nu ps) cells pts c num F rhs u)
    (hv : Equilibrium dof dim n (elasticTangent dim E nu ps) cells pts c num G rhs' v) :
    Equilibrium dof dim n (elasticTangent dim E nu ps) cells pts c num H (fun e => a * rhs e + b * rhs' e) w := by
  obtain ⟨h, m, a1, a2, _⟩ := P.matrix ps
  obtain ⟨u1, u2, u3⟩ := (equilibrium_iff P ps pts hpts a1 a2 hF).1 hu
  obtain ⟨v1, v2, v3⟩ := (equilibrium_iff P ps pts hpts a1 a2 hG).1 hv
  have hall : ∀ i, w.getD i 0 = a * u.getD i 0 + b * v.getD i 0 := by
    intro i
    by_cases hi : i < n
    · exact hwv i hi
    · rw [List.getD_eq_default _ _ (by omega), List.getD_eq_default u _ (by omega), List.getD_eq_default v _ (by omega)]
      ring
  refine (equilibrium_iff P ps pts hpts a1 a2 hH).2 ⟨hw, satisfies_axpy u2 v2 hall, fun z hz hzs => ?_⟩
  have h1 := u3 z hz hzs
  have h2 := v3 z hz hzs
  calc _ = a * ∑ i ∈ range n, z.getD i 0 * (∑ j ∈ range n, m.entry i j * u.getD j 0 - F.getD i 0) +
      b * ∑ i ∈ range n, z.getD i 0 * (∑ j ∈ range n, m.entry i j * v.getD j 0 - G.getD i 0) := by
        rw [mul_sum, mul_sum, ← sum_add_distrib]
        refine sum_congr rfl fun i hi => ?_
        rw [hHv i (mem_range.1 hi)]
        have : ∑ j ∈ range n, m.entry i j * w.getD j 0 =
            a * ∑ j ∈ range n, m.entry i j * u.getD j 0 + b * ∑ j ∈ range n, m.entry i j * v.getD j 0 := by
          rw [mul_sum, mul_sum, ← sum_add_distrib]
          refine sum_congr rfl fun j _ => ?_
          rw [hall]
          ring
        rw [this]
        ring
    _ = 0 := by rw [h1, h2]; ring

/-- C114: what `Solve` returns is an equilibrium, so all of the above holds for it. -/
theorem C114_solve (P : Problem dof dim n E nu s cells threads st c num) (ps : PlaneState)
    (pts : Cell × FemElement ℝ → List (ℝ × IpData)) (hpts : ∀ x ∈ cells, x.1.Points (pts x)) :
    ∃ h, assembleMatrix s dof (stiffness dof fun _ _ => .ok (elasticTangent dim E nu ps)) threads = .ok h ∧
      ∀ lin, LinSolver lin → ∀ (toFloat : ℝ → ℝ) (F : List ℝ), F.length = n → ∀ res,
        Solve.solve lin (c.bcs toFloat st) h [(dof, F)] [dof] = .ok res →
        ∃ u, res.find? dof = some u ∧
          Equilibrium dof dim n (elasticTangent dim E nu ps) cells pts c num F (fun _ => 0) u := by
  obtain ⟨h, h1, h2⟩ := C101_minimum P ps pts hpts
  refine ⟨h, h1, fun lin hlin toFloat F hF res hres => ?_⟩
  obtain ⟨u, u1, u2, u3, u4⟩ := h2 lin hlin toFloat F hF res hres
  exact ⟨u, u1, u2, u3, fun w hw hws => (u4 w hw hws).1⟩

/-- C114: the displacement under a unit load does not change if the dof of the load and that of the displacement are
exchanged, for the results of `Solve`. -/
theorem C114_maxwell (P : Problem dof dim n E nu s cells threads st c num) (ps : PlaneState) :
    ∃ h, assembleMatrix s dof (stiffness dof fun _ _ => .ok (elasticTangent dim E nu ps)) threads = .ok h ∧
      ∀ lin, LinSolver lin → ∀ (toFloat : ℝ → ℝ) (k l : Nat), k < n → l < n → ∀ res res',
        Solve.solve lin (c.bcs toFloat st) h [(dof, (List.replicate n 0).set k 1)] [dof] = .ok res →
        Solve.solve lin (c.bcs toFloat st) h [(dof, (List.replicate n 0).set l 1)] [dof] = .ok res' →
        ∃ u v, res.find? dof = some u ∧ res'.find? dof = some v ∧ u.getD l 0 = v.getD k 0 := by
  obtain ⟨pts, hpts⟩ := points_choice P
  obtain ⟨h, h1, h2⟩ := C114_solve P ps pts hpts
  refine ⟨h, h1, fun lin hlin toFloat k l hk hl res res' e e' => ?_⟩
  obtain ⟨u, u1, u2⟩ := h2 lin hlin toFloat _ (by simp) res e
  obtain ⟨v, v1, v2⟩ := h2 lin hlin toFloat _ (by simp) res' e'
  refine ⟨u, v, u1, v1, ?_⟩
  have := C114_reciprocal_loads P ps pts hpts _ _ u v (by simp) (by simp) u2 v2
  have hwork : ∀ (k : Nat), k < n → ∀ w : List ℝ, work n ((List.replicate n 0).set k 1) w = w.getD k 0 := by
    intro k hk w
    rw [work, sum_eq_single_of_mem k (mem_range.2 hk) fun i hi hne => by
      simp [List.getD_eq_getElem?_getD, List.getElem?_set, hne.symm, mem_range.1 hi]]
    simp [List.getD_eq_getElem?_getD, hk]
  rw [hwork k hk, hwork l hl] at this
  exact this.symm

/-- C114: forces and moments of the support reactions balance the loads for all converged time steps. -/
theorem C114_step (P : Problem dof dim n E nu s cells threads st c num) (hsup : Held dim dof n cells c num) (ps : PlaneState)
    (hiso : ∀ x ∈ cells, x.2.interp = x.1.coordElement.interp) (load : ℝ → List ℝ)
    (hload : ∀ t, (load t).length = n) (toFloat : ℝ → ℝ) (hfl : ∀ e ∈ c.equations dof, ∀ t, toFloat (e.rhs t) = e.rhs t)
    (c0 : DofSpMat ℝ) (tol : ℝ) (htol : 0 < tol) (S : Finset Nat) (hS : S ⊆ range n)
    (hfree : ∀ i < n, i ∉ S → Free c dof num i) :
    ∃ C cmat, c.buildUnitConstraintMatrix st dof n = .ok C ∧
      setConstraints (c.bcs toFloat st) (fun _ => n) c0 [dof] = .ok cmat ∧
      ∀ (R0 : List ℝ), R0.length = n → ∀ t0 t1 : ℝ, ∃ u : List ℝ, u.length = n ∧
        (∀ lin, SolvesSpd lin → ∀ step : ℝ, freeNorm C u ≤ 10000000000 →
          doStep (env (setup dof dim E nu ps s threads load) lin (c.bcs toFloat st) cmat tol) ⟨[(dof, R0)], t0, step, ()⟩ t1 =
            (⟨[(dof, u)], t1, t1 - t0, ()⟩, .converged 0)) ∧
        ∃ r, gradient (setup dof dim E nu ps s threads load) [(dof, u)] t1 = .ok [(dof, r)] ∧
          (∀ i < n, i ∉ S → r.getD i 0 = 0) ∧
          ∀ R : List ℝ, Rigid dim cells (fun i => R.getD i 0) →
            ∑ i ∈ S, r.getD i 0 * R.getD i 0 + work n (load t1) R = 0 := by
  obtain ⟨pts, hpts⟩ := points_choice P
  obtain ⟨C, cmat, c1, c2, c3⟩ := C105_step_partial P hsup ps pts hpts load hload toFloat hfl c0 tol htol
  refine ⟨C, cmat, c1, c2, fun R0 hR0 t0 t1 => ?_⟩
  obtain ⟨u, u1, _, u3⟩ := c3 R0 hR0 t0 t1
  refine ⟨u, u1.length, fun lin hlin step hb => (u3 lin hlin step).2.1 hb, ?_⟩
  obtain ⟨r, r1, r2, r3, r4⟩ := C114_reactions P ps pts hpts load hload t1 u _ u1
  refine ⟨r, r1, fun i hi hn => r4 i hi (hfree i hi hn), fun R hR => ?_⟩
  obtain ⟨r', g1, g2⟩ := C114_supports P ps hiso pts hpts load hload t1 u R _ u1 hR S hS hfree
  obtain rfl : r = r' := by simpa using Res.ok.inj (r1.symm.trans g1)
  exact g2

/-! ### Example -/

/-- The two triangles of C101 under a force at the free corner: an equilibrium, the supported dofs, and the translation in
the direction x, on which the force does work. -/
example : Problem 0 2 8 1 0 ⟨[(0, 8)], [(0, 0)]⟩ [exampleBody, exampleBody2] [[exampleBody2], [exampleBody]] exStore101
      (exC101 fun t => t) (fun t => t.comp.toNat) ∧
    (∀ x ∈ [exampleBody, exampleBody2], x.2.interp = x.1.coordElement.interp) ∧
    (∃ pts : Cell × FemElement ℝ → List (ℝ × IpData), (∀ x ∈ [exampleBody, exampleBody2], x.1.Points (pts x)) ∧
      ∀ ps, ∃ u, Equilibrium 0 2 8 (elasticTangent 2 1 0 ps) [exampleBody, exampleBody2] pts (exC101 fun t => t)
        (fun t => t.comp.toNat) [0, 0, 0, 0, 0, 0, 1, 2] (fun e => e.lhs (fun t => t.comp.toNat)
          (fun i => (List.replicate 8 0).getD i 0) + (e.rhs 1 - e.rhs 0)) u) ∧
    Rigid 2 [exampleBody, exampleBody2] (fun i => [1, 0, 1, 0, 1, 0, 1, 0].getD i 0) ∧
    work 8 [0, 0, 0, 0, 0, 0, 1, 2] [1, 0, 1, 0, 1, 0, 1, 0] = 1 ∧
    ∀ i < 8, i ∉ ({0, 1, 3} : Finset Nat) → Free (exC101 fun t => t) 0 (fun t => t.comp.toNat) i := by
  have P := exC101_problem fun t => t
  obtain ⟨pts, hpts⟩ := points_choice P
  refine ⟨P, ?_, ⟨pts, hpts, fun ps => ?_⟩, ⟨fun a => if a = 0 then 1 else 0, fun _ _ => 0, by simp, ?_⟩, ?_, ?_⟩
  · intro x hx
    simp only [List.mem_cons, List.not_mem_nil, or_false] at hx
    rcases hx with rfl | rfl <;> rfl
  · obtain ⟨C, cmat, _, _, c3⟩ := C105_step_partial P (exC101_held _) ps pts hpts (fun _ => [0, 0, 0, 0, 0, 0, 1, 2])
      (fun _ => rfl) id (fun _ _ _ => rfl) [] 1 one_pos
    obtain ⟨u, u1, _⟩ := c3 (List.replicate 8 0) (by simp) 0 1
    exact ⟨u, u1⟩
  · intro x hx i hi a ha
    simp only [List.mem_cons, List.not_mem_nil, or_false] at hx
    rcases hx with rfl | rfl
    · have hi' : i < 3 := hi
      interval_cases i <;> interval_cases a <;> simp [exampleBody, number]
    · have hi' : i < 3 := hi
      interval_cases i <;> interval_cases a <;> simp [exampleBody2, number]
  · simp [work, sum_range_succ]
  · intro i hi hn e he
    rw [exC101_eqs] at he
    simp only [List.mem_cons, List.not_mem_nil, or_false] at he
    simp only [Finset.mem_insert, Finset.mem_singleton, not_or] at hn
    rcases he with rfl | rfl | rfl <;> refine ⟨?_, by simp⟩ <;> simp <;> omega

end Reactions

end NuTo
