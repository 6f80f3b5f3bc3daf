/-
C119: computed displacements of linear elastic bodies are the best ones in the energy norm, and raising the order of the
interpolation lowers the potential energy.
-/
import Verif.Props.Reactions

namespace NuTo

open Assembly Finset Balance Solve Statics Quasistatic ElasticStep Reactions

namespace BestApproximation

/-! ### Specification -/

/-- Component by component difference. -/
def minus (a b : List ℝ) : List ℝ := List.zipWith (fun x y => x - y) a b

/-- The energy of the difference between a field of strains, given at the integration points, and the strains of the
displacements `R`. -/
noncomputable def distance (dim : Nat) (D : DMat ℝ) (cells : List (Cell × FemElement ℝ))
    (pts : Cell × FemElement ℝ → List (ℝ × IpData)) (eps : Cell × FemElement ℝ → ℝ × IpData → List ℝ) (R : Nat → ℝ) : ℝ :=
  (cells.map fun x => ((pts x).map fun p =>
    1 / 2 * bilinear D (minus (eps x p) (strains dim (gradients x.2 p.2) (restrict dim x.2 R)))
      (minus (eps x p) (strains dim (gradients x.2 p.2) (restrict dim x.2 R))) * p.2.jacobian.det * p.1).sum).sum

/-- Work of the stresses `D eps` on the strains of the displacements `R`. -/
noncomputable def stressWork (dim : Nat) (D : DMat ℝ) (cells : List (Cell × FemElement ℝ))
    (pts : Cell × FemElement ℝ → List (ℝ × IpData)) (eps : Cell × FemElement ℝ → ℝ × IpData → List ℝ) (R : Nat → ℝ) : ℝ :=
  (cells.map fun x => ((pts x).map fun p =>
    dot (apply D (eps x p)) (strains dim (gradients x.2 p.2) (restrict dim x.2 R)) * p.2.jacobian.det * p.1).sum).sum

/-- The stresses `D eps` balance the forces `F`: they do the same work on every motion that the constraints allow. -/
structure Balanced (dof dim n : Nat) (D : DMat ℝ) (cells : List (Cell × FemElement ℝ))
    (pts : Cell × FemElement ℝ → List (ℝ × IpData)) (c : Constraints ℝ) (num : Term ℝ → Nat) (F : List ℝ)
    (eps : Cell × FemElement ℝ → ℝ × IpData → List ℝ) : Prop where
  size : ∀ x ∈ cells, ∀ p ∈ pts x, (eps x p).length = voigtSize dim
  work : ∀ w : List ℝ, w.length = n → Satisfies c dof num (fun _ => 0) w →
    stressWork dim D cells pts eps (fun i => w.getD i 0) = work n F w

/-- All shape functions of `I` and their derivatives are those that `I'` interpolates from their values at its nodes. -/
structure Richer (I I' : Interpolation ℝ) : Prop where
  dim : I.dim = I'.dim
  shape : ∀ x, ∀ i < I.numNodes, (I.shape x).getD i 0 =
    ∑ k ∈ range I'.numNodes, (I.shape fun j => (I'.coords.getD k []).getD j 0).getD i 0 * (I'.shape x).getD k 0
  deriv : ∀ x, ∀ i < I.numNodes, ∀ b, ((I.deriv x).getD i []).getD b 0 =
    ∑ k ∈ range I'.numNodes, (I.shape fun j => (I'.coords.getD k []).getD j 0).getD i 0 * ((I'.deriv x).getD k []).getD b 0

/-- Value of component `a` at the point `x` of the element. -/
noncomputable def valueAt (e : FemElement ℝ) (R : Nat → ℝ) (x : Nat → ℝ) (a : Nat) : ℝ :=
  ∑ i ∈ range e.interp.numNodes, (e.interp.shape x).getD i 0 * R (number e i a)

/-- `R'` are the values of the displacements `R` at the nodes of the second elements. -/
def Sampled (dim : Nat) (L : List (Cell × FemElement ℝ × FemElement ℝ)) (R R' : Nat → ℝ) : Prop :=
  ∀ y ∈ L, ∀ k < y.2.2.interp.numNodes, ∀ a < dim,
    R' (number y.2.2 k a) = valueAt y.2.1 R (fun j => (y.2.2.interp.coords.getD k []).getD j 0) a

/-- The cells with the first and with the second dof elements. -/
def coarse (L : List (Cell × FemElement ℝ × FemElement ℝ)) : List (Cell × FemElement ℝ) := L.map fun y => (y.1, y.2.1)

@[inherit_doc coarse]
def fine (L : List (Cell × FemElement ℝ × FemElement ℝ)) : List (Cell × FemElement ℝ) := L.map fun y => (y.1, y.2.2)

/-- The forces `F` are those of the body force `f`: component `a` at a point of a cell. -/
def BodyLoad (dim n : Nat) (cells : List (Cell × FemElement ℝ)) (pts : Cell × FemElement ℝ → List (ℝ × IpData))
    (f : Cell → ℝ × IpData → Nat → ℝ) (F : List ℝ) : Prop :=
  ∀ w : List ℝ, work n F w = (cells.map fun x => ((pts x).map fun p =>
    (∑ a ∈ range dim, f x.1 p a * valueAt x.2 (fun i => w.getD i 0) (fun j => p.2.coords.getD j 0) a) *
      p.2.jacobian.det * p.1).sum).sum

/-! ### Proofs -/

variable {dof dim n : Nat} {E nu : ℝ} {ps : PlaneState} {s : DofSizes} {cells : List (Cell × FemElement ℝ)}
  {threads : List (List (Cell × FemElement ℝ))} {st : NodeStore ℝ} {c : Constraints ℝ} {num : Term ℝ → Nat}

theorem gradient_sub {x : Cell × FemElement ℝ} (h : Body dim n x) (d : IpData) {u v w : Nat → ℝ}
    (hw : ∀ i, w i = v i - u i) (a b : Nat) (ha : a < dim) :
    displacementGradient dim (gradients x.2 d) (restrict dim x.2 w) a b =
      displacementGradient dim (gradients x.2 d) (restrict dim x.2 v) a b -
        displacementGradient dim (gradients x.2 d) (restrict dim x.2 u) a b := by
  have hc : x.2.interp.numNodes = x.2.nodes.length := h.dof.count.symm
  simp only [displacementGradient, gradients, hc]
  rw [← sum_sub_distrib]
  refine sum_congr rfl fun i hi => ?_
  have hi := mem_range.1 hi
  rw [restrict_getD hi ha, restrict_getD hi ha, restrict_getD hi ha, hw]
  ring

theorem strains_sub {x : Cell × FemElement ℝ} (h : Body dim n x) (d : IpData) {u v w : Nat → ℝ}
    (hw : ∀ i, w i = v i - u i) :
    strains dim (gradients x.2 d) (restrict dim x.2 w) = minus (strains dim (gradients x.2 d) (restrict dim x.2 v))
      (strains dim (gradients x.2 d) (restrict dim x.2 u)) := by
  have hg := gradient_sub h d hw
  have h1 := h.dim1
  have h3 := h.dim3
  generalize restrict dim x.2 w = rw at *
  generalize restrict dim x.2 v = rv at *
  generalize restrict dim x.2 u = ru at *
  clear h
  interval_cases dim
  · simp [strains, minus, hg]
  · simp [strains, minus, hg]
    ring
  · simp [strains, minus, hg]
    refine ⟨by ring, by ring, by ring⟩

theorem minus_getD {a b : List ℝ} (h : a.length = b.length) (i : Nat) : (minus a b).getD i 0 = a.getD i 0 - b.getD i 0 := by
  by_cases hi : i < a.length
  · simp [minus, List.getD_eq_getElem?_getD, hi, h ▸ hi]
  · have hb : ¬ i < b.length := h ▸ hi
    simp [minus, List.getD_eq_getElem?_getD, hi, hb]

theorem minus_length {a b : List ℝ} (h : a.length = b.length) : (minus a b).length = a.length := by simp [minus, h]

theorem dot_minus (s : List ℝ) {a b : List ℝ} (h : a.length = b.length) : dot s (minus a b) = dot s a - dot s b := by
  simp only [dot, ← sum_sub_distrib]
  exact sum_congr rfl fun i _ => by rw [minus_getD h]; ring

theorem bilinear_minus (D : DMat ℝ) {a b : List ℝ} (h : a.length = b.length)
    (hD : ∀ i < a.length, ∀ j < a.length, D.coef i j = D.coef j i) :
    bilinear D (minus a b) (minus a b) = bilinear D a a - 2 * dot (apply D a) b + bilinear D b b := by
  rw [dot_apply D b a h.symm]
  have hs := bilinear_symm D a b h fun i hi j hj => hD i hi j (h ▸ hj)
  have : bilinear D (minus a b) (minus a b) = bilinear D a a - bilinear D a b - bilinear D b a + bilinear D b b := by
    simp only [bilinear, minus_length h, ← h, ← sum_sub_distrib, ← sum_add_distrib]
    exact sum_congr rfl fun i _ => sum_congr rfl fun j _ => by
      rw [minus_getD h, minus_getD h]
      ring
  rw [this, hs]
  ring

theorem sum_pts_congr {cells : List (Cell × FemElement ℝ)} {pts : Cell × FemElement ℝ → List (ℝ × IpData)}
    {f g : Cell × FemElement ℝ → ℝ × IpData → ℝ} (h : ∀ x ∈ cells, ∀ p ∈ pts x, f x p = g x p) :
    (cells.map fun x => ((pts x).map fun p => f x p).sum).sum = (cells.map fun x => ((pts x).map fun p => g x p).sum).sum := by
  congr 1
  refine List.map_congr_left fun x hx => ?_
  congr 1
  exact List.map_congr_left fun p hp => h x hx p hp

theorem sum_pts_sub {cells : List (Cell × FemElement ℝ)} {pts : Cell × FemElement ℝ → List (ℝ × IpData)}
    (f g : Cell × FemElement ℝ → ℝ × IpData → ℝ) :
    (cells.map fun x => ((pts x).map fun p => f x p - g x p).sum).sum =
      (cells.map fun x => ((pts x).map fun p => f x p).sum).sum - (cells.map fun x => ((pts x).map fun p => g x p).sum).sum := by
  induction cells with
  | nil => simp
  | cons x l ih =>
    simp only [List.map_cons, List.sum_cons, ih]
    have : ((pts x).map fun p => f x p - g x p).sum = ((pts x).map fun p => f x p).sum - ((pts x).map fun p => g x p).sum := by
      induction pts x with
      | nil => simp
      | cons p t iht => simp only [List.map_cons, List.sum_cons, iht]; ring
    rw [this]
    ring

theorem sum_pts_add {cells : List (Cell × FemElement ℝ)} {pts : Cell × FemElement ℝ → List (ℝ × IpData)}
    (f g : Cell × FemElement ℝ → ℝ × IpData → ℝ) :
    (cells.map fun x => ((pts x).map fun p => f x p + g x p).sum).sum =
      (cells.map fun x => ((pts x).map fun p => f x p).sum).sum + (cells.map fun x => ((pts x).map fun p => g x p).sum).sum := by
  have := sum_pts_sub (cells := cells) (pts := pts) (fun x p => f x p + g x p) g
  simp only [add_sub_cancel_right] at this
  linarith

/-- The distance, multiplied out. -/
theorem distance_eq (hb : ∀ x ∈ cells, Body dim n x) {D : DMat ℝ}
    (hD : ∀ i < voigtSize dim, ∀ j < voigtSize dim, D.coef i j = D.coef j i)
    (pts : Cell × FemElement ℝ → List (ℝ × IpData)) (eps : Cell × FemElement ℝ → ℝ × IpData → List ℝ)
    (hs : ∀ x ∈ cells, ∀ p ∈ pts x, (eps x p).length = voigtSize dim) (R : Nat → ℝ) :
    distance dim D cells pts eps R =
      (cells.map fun x => ((pts x).map fun p => 1 / 2 * bilinear D (eps x p) (eps x p) * p.2.jacobian.det * p.1).sum).sum -
        stressWork dim D cells pts eps R + strainEnergy dim D cells pts R := by
  rw [stressWork, strainEnergy, ← sum_pts_sub, ← sum_pts_add, distance]
  refine sum_pts_congr fun x hx p hp => ?_
  have hl := (hs x hx p hp).trans (strains_length dim (hb x hx).dim1 (hb x hx).dim3 (gradients x.2 p.2) (restrict dim x.2 R)).symm
  rw [bilinear_minus D hl (by rw [hs x hx p hp]; exact hD)]
  ring

theorem stressWork_sub (hb : ∀ x ∈ cells, Body dim n x) (D : DMat ℝ)
    (pts : Cell × FemElement ℝ → List (ℝ × IpData)) (eps : Cell × FemElement ℝ → ℝ × IpData → List ℝ)
    {u v w : Nat → ℝ} (hw : ∀ i, w i = v i - u i) :
    stressWork dim D cells pts eps w = stressWork dim D cells pts eps v - stressWork dim D cells pts eps u := by
  simp only [stressWork]
  rw [← sum_pts_sub]
  refine sum_pts_congr fun x hx p hp => ?_
  have hl := fun R => strains_length dim (hb x hx).dim1 (hb x hx).dim3 (gradients x.2 p.2) (restrict dim x.2 R)
  rw [strains_sub (hb x hx) p.2 hw, dot_minus _ ((hl v).trans (hl u).symm)]
  ring

/-- C119: if the stresses of a field of strains balance the loads on the motions of the body, then the energy of its
difference to the strains of an equilibrium is that to the strains of any other admissible displacements minus the energy of
the difference of the two displacements; so no admissible displacements are closer. -/
theorem C119_closest (P : Problem dof dim n E nu s cells threads st c num) (ps : PlaneState)
    (pts : Cell × FemElement ℝ → List (ℝ × IpData)) (hpts : ∀ x ∈ cells, x.1.Points (pts x)) {F u : List ℝ}
    (hF : F.length = n) {rhs : Equation ℝ → ℝ}
    (hu : Equilibrium dof dim n (elasticTangent dim E nu ps) cells pts c num F rhs u)
    (eps : Cell × FemElement ℝ → ℝ × IpData → List ℝ)
    (heps : Balanced dof dim n (elasticTangent dim E nu ps) cells pts c num F eps)
    (v : List ℝ) (hv : v.length = n) (hvs : Satisfies c dof num rhs v) :
    distance dim (elasticTangent dim E nu ps) cells pts eps (fun i => v.getD i 0) =
        distance dim (elasticTangent dim E nu ps) cells pts eps (fun i => u.getD i 0) +
          strainEnergy dim (elasticTangent dim E nu ps) cells pts (fun i => v.getD i 0 - u.getD i 0) ∧
      distance dim (elasticTangent dim E nu ps) cells pts eps (fun i => u.getD i 0) ≤
        distance dim (elasticTangent dim E nu ps) cells pts eps (fun i => v.getD i 0) := by
  obtain ⟨_, e2, _, _⟩ := C95_elastic dim P.dim1 P.dim3 E nu ps P.stiff P.poisson.1 P.poisson.2
  obtain ⟨h, m, a1, a2, _, _, _, _, a7, a8, _, a10⟩ := P.matrix ps
  obtain ⟨u1, u2, u3⟩ := (equilibrium_iff P ps pts hpts a1 a2 hF).1 hu
  obtain ⟨w, w1, w2⟩ := getD_sub n v u hv u1
  have hws : Satisfies c dof num (fun _ => 0) w := fun e he => (satisfies_sub hvs u2 w2 e he).trans (sub_self _)
  have horth := u3 w w1 hws
  have hex := expand m n a7 (fun i => F.getD i 0) (fun i => u.getD i 0) (fun i => v.getD i 0) (by
    simpa only [w2] using horth)
  have hsw := heps.work w w1 hws
  rw [stressWork_sub P.body _ pts eps w2, work] at hsw
  have hw3 : ∑ i ∈ range n, F.getD i 0 * w.getD i 0 =
      ∑ i ∈ range n, F.getD i 0 * v.getD i 0 - ∑ i ∈ range n, F.getD i 0 * u.getD i 0 := by
    rw [← sum_sub_distrib]
    exact sum_congr rfl fun i _ => by rw [w2]; ring
  have key : distance dim (elasticTangent dim E nu ps) cells pts eps (fun i => v.getD i 0) =
      distance dim (elasticTangent dim E nu ps) cells pts eps (fun i => u.getD i 0) +
        strainEnergy dim (elasticTangent dim E nu ps) cells pts (fun i => v.getD i 0 - u.getD i 0) := by
    rw [distance_eq P.body e2 pts eps heps.size, distance_eq P.body e2 pts eps heps.size, a10 pts hpts, a10 pts hpts,
      a10 pts hpts]
    linarith
  refine ⟨key, ?_⟩
  rw [key, a10 pts hpts]
  have := a8 fun i => v.getD i 0 - u.getD i 0
  linarith

/-- C119: the displacements that `Solve` computes are the closest ones. -/
theorem C119_solve (P : Problem dof dim n E nu s cells threads st c num) (ps : PlaneState)
    (pts : Cell × FemElement ℝ → List (ℝ × IpData)) (hpts : ∀ x ∈ cells, x.1.Points (pts x)) :
    ∃ h, assembleMatrix s dof (stiffness dof fun _ _ => .ok (elasticTangent dim E nu ps)) threads = .ok h ∧
      ∀ lin, LinSolver lin → ∀ (toFloat : ℝ → ℝ) (F : List ℝ), F.length = n → ∀ res,
        Solve.solve lin (c.bcs toFloat st) h [(dof, F)] [dof] = .ok res →
        ∃ u, res.find? dof = some u ∧ u.length = n ∧ Satisfies c dof num (fun _ => 0) u ∧
          ∀ eps, Balanced dof dim n (elasticTangent dim E nu ps) cells pts c num F eps →
            ∀ v : List ℝ, v.length = n → Satisfies c dof num (fun _ => 0) v →
              distance dim (elasticTangent dim E nu ps) cells pts eps (fun i => u.getD i 0) ≤
                distance dim (elasticTangent dim E nu ps) cells pts eps (fun i => v.getD i 0) := by
  obtain ⟨h, h1, h2⟩ := C114_solve P ps pts hpts
  refine ⟨h, h1, fun lin hlin toFloat F hF res hres => ?_⟩
  obtain ⟨u, u1, u2⟩ := h2 lin hlin toFloat F hF res hres
  exact ⟨u, u1, u2.length, u2.holds, fun eps heps v hv hvs => (C119_closest P ps pts hpts hF u2 eps heps v hv hvs).2⟩

/-! ### Raising the order -/

/-- The displacements and the values at the richer nodes have the same values everywhere. -/
theorem valueAt_eq {L : List (Cell × FemElement ℝ × FemElement ℝ)} {R R' : Nat → ℝ} (h : Sampled dim L R R')
    {y : Cell × FemElement ℝ × FemElement ℝ} (hy : y ∈ L) (hr : Richer y.2.1.interp y.2.2.interp) (x : Nat → ℝ) (a : Nat)
    (ha : a < dim) : valueAt y.2.2 R' x a = valueAt y.2.1 R x a := by
  have e : valueAt y.2.1 R x a = ∑ i ∈ range y.2.1.interp.numNodes, ∑ k ∈ range y.2.2.interp.numNodes,
      (y.2.1.interp.shape fun j => (y.2.2.interp.coords.getD k []).getD j 0).getD i 0 * (y.2.2.interp.shape x).getD k 0 *
        R (number y.2.1 i a) :=
    sum_congr rfl fun i hi => by rw [hr.shape x i (mem_range.1 hi), sum_mul]
  rw [e, sum_comm, valueAt]
  refine sum_congr rfl fun k hk => ?_
  rw [h y hy k (mem_range.1 hk) a ha, valueAt, mul_sum]
  exact sum_congr rfl fun i _ => by ring

theorem sum_swap (I K X : Finset Nat) (A D : Nat → Nat → ℝ) (r J : Nat → ℝ) :
    ∑ k ∈ K, (∑ i ∈ I, A i k * r i) * ∑ x ∈ X, D k x * J x = ∑ i ∈ I, r i * ∑ x ∈ X, (∑ k ∈ K, A i k * D k x) * J x := by
  calc _ = ∑ k ∈ K, ∑ i ∈ I, ∑ x ∈ X, A i k * r i * (D k x * J x) := by
        refine sum_congr rfl fun k _ => ?_
        rw [sum_mul]
        exact sum_congr rfl fun i _ => by rw [mul_sum]
    _ = ∑ i ∈ I, ∑ k ∈ K, ∑ x ∈ X, A i k * r i * (D k x * J x) := sum_comm
    _ = _ := by
        refine sum_congr rfl fun i _ => ?_
        rw [sum_comm, mul_sum]
        refine sum_congr rfl fun x _ => ?_
        rw [sum_mul, mul_sum]
        exact sum_congr rfl fun k _ => by ring

theorem gradient_eq' {L : List (Cell × FemElement ℝ × FemElement ℝ)} {R R' : Nat → ℝ} (h : Sampled dim L R R')
    {y : Cell × FemElement ℝ × FemElement ℝ} (hy : y ∈ L) (hr : Richer y.2.1.interp y.2.2.interp)
    {n n' : Nat} (hb : Body dim n (y.1, y.2.1)) (hb' : Body dim n' (y.1, y.2.2)) (d : IpData) (a b : Nat) (ha : a < dim) :
    displacementGradient dim (gradients y.2.2 d) (restrict dim y.2.2 R') a b =
      displacementGradient dim (gradients y.2.1 d) (restrict dim y.2.1 R) a b := by
  have hc : y.2.1.interp.numNodes = y.2.1.nodes.length := hb.dof.count.symm
  have hc' : y.2.2.interp.numNodes = y.2.2.nodes.length := hb'.dof.count.symm
  simp only [displacementGradient, gradients, Jacobian.transform, sum_range_list]
  rw [sum_congr rfl fun k hk => by
    rw [restrict_getD (hc' ▸ mem_range.1 hk) ha, h y hy k (mem_range.1 hk) a ha]]
  rw [sum_congr (g := fun i => R (number y.2.1 i a) * ∑ x ∈ range d.jacobian.cols,
      (∑ k ∈ range y.2.2.interp.numNodes,
        (y.2.1.interp.shape fun j => (y.2.2.interp.coords.getD k []).getD j 0).getD i 0 *
          ((y.2.2.interp.deriv fun k => d.coords.getD k 0).getD k []).getD x 0) * d.jacobian.inv x b) (s₁ := range y.2.1.interp.numNodes) rfl fun i hi => by
    rw [restrict_getD (hc ▸ mem_range.1 hi) ha]
    congr 1
    exact sum_congr rfl fun x _ => by rw [hr.deriv _ i (mem_range.1 hi) x]]
  exact sum_swap _ _ _ (fun i k => (y.2.1.interp.shape fun j => (y.2.2.interp.coords.getD k []).getD j 0).getD i 0)
    (fun k x => ((y.2.2.interp.deriv fun k => d.coords.getD k 0).getD k []).getD x 0) (fun i => R (number y.2.1 i a))
    fun x => d.jacobian.inv x b

theorem strains_eq {L : List (Cell × FemElement ℝ × FemElement ℝ)} {R R' : Nat → ℝ} (h : Sampled dim L R R')
    {y : Cell × FemElement ℝ × FemElement ℝ} (hy : y ∈ L) (hr : Richer y.2.1.interp y.2.2.interp)
    {n n' : Nat} (hb : Body dim n (y.1, y.2.1)) (hb' : Body dim n' (y.1, y.2.2)) (d : IpData) :
    strains dim (gradients y.2.2 d) (restrict dim y.2.2 R') = strains dim (gradients y.2.1 d) (restrict dim y.2.1 R) := by
  have hg := gradient_eq' h hy hr hb hb' d
  have h1 := hb.dim1
  have h3 := hb.dim3
  generalize restrict dim y.2.2 R' = r' at *
  generalize restrict dim y.2.1 R = r at *
  clear h hb hb'
  interval_cases dim <;> simp [strains, hg]

theorem sum_levels {L : List (Cell × FemElement ℝ × FemElement ℝ)} {pts pts' : Cell × FemElement ℝ → List (ℝ × IpData)}
    (hp : ∀ x ∈ coarse L, x.1.Points (pts x)) (hp' : ∀ x ∈ fine L, x.1.Points (pts' x))
    {f g : Cell × FemElement ℝ → ℝ × IpData → ℝ} (h : ∀ y ∈ L, ∀ p, f (y.1, y.2.2) p = g (y.1, y.2.1) p) :
    ((fine L).map fun x => ((pts' x).map fun p => f x p).sum).sum =
      ((coarse L).map fun x => ((pts x).map fun p => g x p).sum).sum := by
  simp only [fine, coarse, List.map_map]
  congr 1
  refine List.map_congr_left fun y hy => ?_
  have e : pts' (y.1, y.2.2) = pts (y.1, y.2.1) := points_unique (hp (y.1, y.2.1) (List.mem_map.2 ⟨y, hy, rfl⟩))
    (hp' (y.1, y.2.2) (List.mem_map.2 ⟨y, hy, rfl⟩))
  simp only [Function.comp, e]
  congr 1
  exact List.map_congr_left fun p _ => h y hy p

/-- C119: the forces of a body force do the same work for both interpolations. -/
theorem C119_bodyLoad {L : List (Cell × FemElement ℝ × FemElement ℝ)} {pts pts' : Cell × FemElement ℝ → List (ℝ × IpData)}
    (hp : ∀ x ∈ coarse L, x.1.Points (pts x)) (hp' : ∀ x ∈ fine L, x.1.Points (pts' x))
    (hr : ∀ y ∈ L, Richer y.2.1.interp y.2.2.interp) {n n' : Nat} {f : Cell → ℝ × IpData → Nat → ℝ} {F F' : List ℝ}
    (hF : BodyLoad dim n (coarse L) pts f F) (hF' : BodyLoad dim n' (fine L) pts' f F') (v v' : List ℝ)
    (h : Sampled dim L (fun i => v.getD i 0) fun i => v'.getD i 0) : work n' F' v' = work n F v := by
  rw [hF v, hF' v']
  refine sum_levels hp hp' fun y hy p => ?_
  congr 2
  exact sum_congr rfl fun a ha => by rw [valueAt_eq h hy (hr y hy) _ a (mem_range.1 ha)]

/-- C119: with a richer interpolation of the same cells the potential energy of the equilibrium is not higher; if the
constraints are homogeneous, the loads do not less work: the body does not become stiffer. -/
theorem C119_richer {L : List (Cell × FemElement ℝ × FemElement ℝ)} {n n' : Nat} {s s' : DofSizes}
    {threads threads' : List (List (Cell × FemElement ℝ))} {st st' : NodeStore ℝ} {c c' : Constraints ℝ}
    {num num' : Term ℝ → Nat} (P : Problem dof dim n E nu s (coarse L) threads st c num)
    (P' : Problem dof dim n' E nu s' (fine L) threads' st' c' num') (ps : PlaneState)
    (hr : ∀ y ∈ L, Richer y.2.1.interp y.2.2.interp) (pts pts' : Cell × FemElement ℝ → List (ℝ × IpData))
    (hp : ∀ x ∈ coarse L, x.1.Points (pts x)) (hp' : ∀ x ∈ fine L, x.1.Points (pts' x)) (F F' u u' : List ℝ)
    (hF : F.length = n) (hF' : F'.length = n') (rhs rhs' : Equation ℝ → ℝ)
    (hload : ∀ v v' : List ℝ, Sampled dim L (fun i => v.getD i 0) (fun i => v'.getD i 0) → work n' F' v' = work n F v)
    (hadm : ∀ v : List ℝ, v.length = n → Satisfies c dof num rhs v → ∃ v' : List ℝ, v'.length = n' ∧
      Satisfies c' dof num' rhs' v' ∧ Sampled dim L (fun i => v.getD i 0) fun i => v'.getD i 0)
    (hu : Equilibrium dof dim n (elasticTangent dim E nu ps) (coarse L) pts c num F rhs u)
    (hu' : Equilibrium dof dim n' (elasticTangent dim E nu ps) (fine L) pts' c' num' F' rhs' u') :
    potential dim (elasticTangent dim E nu ps) (fine L) pts' F' u' ≤
        potential dim (elasticTangent dim E nu ps) (coarse L) pts F u ∧
      ((∀ e, rhs e = 0) → (∀ e, rhs' e = 0) → work n F u ≤ work n' F' u' ∧
        strainEnergy dim (elasticTangent dim E nu ps) (coarse L) pts (fun i => u.getD i 0) ≤
          strainEnergy dim (elasticTangent dim E nu ps) (fine L) pts' (fun i => u'.getD i 0)) := by
  obtain ⟨v', v1, v2, v3⟩ := hadm u hu.length hu.holds
  have hle := hu'.least v' v1 v2
  have hE : strainEnergy dim (elasticTangent dim E nu ps) (fine L) pts' (fun i => v'.getD i 0) =
      strainEnergy dim (elasticTangent dim E nu ps) (coarse L) pts (fun i => u.getD i 0) := by
    refine sum_levels hp hp' fun y hy p => ?_
    have hb := P.body (y.1, y.2.1) (List.mem_map.2 ⟨y, hy, rfl⟩)
    have hb' := P'.body (y.1, y.2.2) (List.mem_map.2 ⟨y, hy, rfl⟩)
    dsimp only
    rw [strains_eq v3 hy (hr y hy) hb hb']
  have hW := hload u v' v3
  have hpot : potential dim (elasticTangent dim E nu ps) (fine L) pts' F' v' =
      potential dim (elasticTangent dim E nu ps) (coarse L) pts F u := by
    rw [potential, potential, hE, hF, hF']
    rw [work, work] at hW
    rw [hW]
  rw [hpot] at hle
  refine ⟨hle, fun h0 h0' => ?_⟩
  have hz : rhs = fun _ => 0 := funext h0
  have hz' : rhs' = fun _ => 0 := funext h0'
  obtain ⟨r, _, r2, r3⟩ := C114_work P ps pts hp (fun _ => F) (fun _ => hF) 0 u rhs hu
  obtain ⟨r', _, q2, q3⟩ := C114_work P' ps pts' hp' (fun _ => F') (fun _ => hF') 0 u' rhs' hu'
  rw [r3 (hz ▸ hu.holds), add_zero] at r2
  rw [q3 (hz' ▸ hu'.holds), add_zero] at q2
  have g1 : potential dim (elasticTangent dim E nu ps) (coarse L) pts F u =
    strainEnergy dim (elasticTangent dim E nu ps) (coarse L) pts (fun i => u.getD i 0) - work n F u := by
    rw [potential, hF]
    rfl
  have g2 : potential dim (elasticTangent dim E nu ps) (fine L) pts' F' u' =
    strainEnergy dim (elasticTangent dim E nu ps) (fine L) pts' (fun i => u'.getD i 0) - work n' F' u' := by
    rw [potential, hF']
    rfl
  constructor <;> linarith

end BestApproximation

end NuTo
