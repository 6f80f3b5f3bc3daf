/-
C103: patch test with computed displacements.  If affine displacements are prescribed on the boundary of a linear elastic body,
the load step computes exactly these displacements inside.
-/
import Verif.Props.Statics
import Verif.Props.PatchTest

namespace NuTo

open Assembly Finset Balance Solve

namespace Statics

/-! ### Specification -/

/-- The vector holds the displacements `t + W x` of the nodes. -/
def AffineVector (dim : Nat) (cells : List (Cell × FemElement ℝ)) (label : Cell × FemElement ℝ → Nat → Nat)
    (number : Nat → Nat → Nat) (pos : Nat → Nat → ℝ) (t : Nat → ℝ) (W : Nat → Nat → ℝ) (w : List ℝ) : Prop :=
  ∀ x ∈ cells, ∀ i < x.2.nodes.length, ∀ a < dim,
    w.getD (number (label x i) a) 0 = t a + ∑ c ∈ range dim, W a c * pos (label x i) c

/-- All dofs belong to nodes of the mesh. -/
def AllNumbered (dim n : Nat) (cells : List (Cell × FemElement ℝ)) (label : Cell × FemElement ℝ → Nat → Nat)
    (number : Nat → Nat → Nat) : Prop :=
  ∀ g < n, ∃ x ∈ cells, ∃ i < x.2.nodes.length, ∃ a < dim, number (label x i) a = g

/-- The constraints prescribe the displacements of all nodes of the mesh, except of those that are `inner`. -/
def Clamped (dim dof n : Nat) (cells : List (Cell × FemElement ℝ)) (label : Cell × FemElement ℝ → Nat → Nat)
    (number : Nat → Nat → Nat) (c : Constraints ℝ) (num : Term ℝ → Nat) (inner : Nat → Prop) : Prop :=
  ∀ w : List ℝ, w.length = n → Satisfies c dof num (fun _ => 0) w → ∀ x ∈ cells, ∀ i < x.2.nodes.length,
    ¬ inner (label x i) → ∀ a < dim, w.getD (number (label x i) a) 0 = 0

/-- The body is stress-free except for the constraints: whatever displacements `R0` that satisfy the constraints at `t0` the
nodes have (`f` are their internal forces, and there are no external forces), the load step from `t0` to `t1` returns an
update that makes them `w`, with every linear solver that solves symmetric positive
definite systems. -/
def StepGives (dof dim n : Nat) (E nu : ℝ) (ps : PlaneState) (s : DofSizes) (threads : List (List (Cell × FemElement ℝ)))
    (st : NodeStore ℝ) (c : Constraints ℝ) (num : Term ℝ → Nat) (w : List ℝ) : Prop :=
  ∃ h m, assembleMatrix s dof (stiffness dof fun _ _ => .ok (elasticTangent dim E nu ps)) threads = .ok h ∧
    h.find? (toLex (dof, dof)) = some m ∧
    ∀ lin, SolvesSpd lin → ∀ (toFloat : ℝ → ℝ) (t0 t1 : ℝ),
      (∀ e ∈ c.equations dof, toFloat (e.rhs t0) = e.rhs t0 ∧ toFloat (e.rhs t1) = e.rhs t1) →
      Satisfies c dof num (fun e => e.rhs t1) w →
      ∀ f R0 : List ℝ, f.length = n → R0.length = n →
      (∀ i < n, f.getD i 0 = ∑ j ∈ range n, m.entry i j * R0.getD j 0) →
      Satisfies c dof num (fun e => e.rhs t0) R0 →
      ∃ res d, Solve.solveTrialState lin (c.bcs toFloat st) h [(dof, f)] t0 t1 [dof] = .ok res ∧
        res.find? dof = some d ∧ ∀ i < n, R0.getD i 0 - d.getD i 0 = w.getD i 0

/-! ### Proofs -/

section
variable {dim n : Nat} {cells : List (Cell × FemElement ℝ)} {label : Cell × FemElement ℝ → Nat → Nat}
  {number' : Nat → Nat → Nat} {pos : Nat → Nat → ℝ}

/-- C103: all integration points have the strain of the affine displacements. -/
theorem C103_strain (hc : Connected dim n cells label number' pos) (t : Nat → ℝ) (W : Nat → Nat → ℝ) {w : List ℝ}
    (hA : AffineVector dim cells label number' pos t W w) (x : Cell × FemElement ℝ) (hx : x ∈ cells)
    (pts : List (ℝ × IpData)) (hp : x.1.Points pts) (p : ℝ × IpData) (hm : p ∈ pts) :
    strains dim (gradients x.2 p.2) (restrict dim x.2 fun i => w.getD i 0) = voigt dim W := by
  have h := hc.body x hx
  have hiso := hc.iso x hx
  obtain ⟨j1, j2, j3⟩ := h.point hp p hm
  have hcount : x.2.nodes.length = x.1.coordElement.nodes.length := by
    rw [h.dof.count, h.coord.count, hiso]
  have hlen : (x.1.coordElement.interp.deriv fun k => p.2.coords.getD k 0).length = x.2.nodes.length := by
    rw [h.coordUnity.derivLen, hcount, h.coord.count]
  have hG : gradients x.2 p.2 = ⟨(x.1.coordElement.interp.deriv fun k => p.2.coords.getD k 0).length,
      p.2.jacobian.rows, p.2.jacobian.transform (x.1.coordElement.interp.deriv fun k => p.2.coords.getD k 0)⟩ := by
    rw [gradients, hlen, h.dof.count, hiso]
  refine strains_voigt dim h.dim1 h.dim3 _ _ _ fun a ha b hb => ?_
  have := C39_patch j3 (by rw [j1, j2]) (hc.regular x hx pts hp p hm) (by
    intro j
    rw [hlen, hcount, h.coord.count]
    exact h.coordUnity.derivSum _ j) t W (restrict dim x.2 fun i => w.getD i 0) (by
    intro i hi a ha
    rw [j1] at ha ⊢
    rw [hlen] at hi
    rw [restrict_getD hi ha, hc.number_eq x hx i hi a ha, hA x hx i hi a ha]
    congr 1
    refine sum_congr rfl fun d hd => ?_
    rw [values_getD (hcount ▸ hi) (mem_range.1 hd), hc.pos_eq x hx i hi d (mem_range.1 hd)]) a b
    (by rw [j1]; exact ha) (by rw [j1]; exact hb)
  rw [hG]
  rw [j1] at this ⊢
  exact this

/-- the work of a constant stress on the unit vector of a dof -/
theorem unit_work (hc : Connected dim n cells label number' pos) (pts : Cell × FemElement ℝ → List (ℝ × IpData))
    (sig : List ℝ) (hsig : sig.length = (voigt dim fun _ _ => 0).length)
    (x0 : Cell × FemElement ℝ) (hx0 : x0 ∈ cells) (i0 : Nat) (hi0 : i0 < x0.2.nodes.length) (a : Nat) (ha : a < dim) :
    (cells.map fun x => ((pts x).map fun p => dot sig
        (strains dim (gradients x.2 p.2) (restrict dim x.2 fun k => if k = number' (label x0 i0) a then 1 else 0)) *
          p.2.jacobian.det * p.1).sum).sum =
      ∑ b ∈ range dim, tensor dim sig a b * flux cells label pts (label x0 i0) b := by
  set P := label x0 i0 with hP
  have hgrad : ∀ x ∈ cells, ∀ p : ℝ × IpData, ∀ a' < dim, ∀ b,
      displacementGradient dim (gradients x.2 p.2) (restrict dim x.2 fun k => if k = number' P a then 1 else 0) a' b =
        if a' = a then ∑ i ∈ range x.2.nodes.length, if label x i = P then (gradients x.2 p.2).coef i b else 0
        else 0 := by
    intro x hx p a' ha' b
    have hB := hc.body x hx
    rw [displacementGradient, show (gradients x.2 p.2).rows = x.2.nodes.length from hB.dof.count.symm]
    by_cases haa : a' = a
    · rw [if_pos haa]
      refine sum_congr rfl fun i hi => ?_
      have hi' := mem_range.1 hi
      rw [restrict_getD hi' ha', hc.number_eq x hx i hi' a' ha']
      by_cases hl : label x i = P
      · rw [if_pos hl, hl, haa, if_pos rfl, one_mul]
      · rw [if_neg hl, if_neg, zero_mul]
        intro h
        exact hl (hc.inj x hx i hi' x0 hx0 i0 hi0 a' ha' a ha h).1
    · rw [if_neg haa]
      refine sum_eq_zero fun i hi => ?_
      have hi' := mem_range.1 hi
      rw [restrict_getD hi' ha', hc.number_eq x hx i hi' a' ha', if_neg, zero_mul]
      intro h
      exact haa (hc.inj x hx i hi' x0 hx0 i0 hi0 a' ha' a ha h).2
  have hpoint : ∀ x ∈ cells, ∀ p ∈ pts x,
      dot sig (strains dim (gradients x.2 p.2) (restrict dim x.2 fun k => if k = number' P a then 1 else 0)) =
      ∑ b ∈ range dim, tensor dim sig a b *
        ∑ i ∈ range x.2.nodes.length, if label x i = P then (gradients x.2 p.2).coef i b else 0 := by
    intro x hx p hp'
    have hB := hc.body x hx
    rw [dot_strains dim hB.dim1 hB.dim3 _ _ _ hsig, sum_eq_single a]
    · refine sum_congr rfl fun b _ => ?_
      rw [hgrad x hx p a ha, if_pos rfl]
    · intro a' ha' hne
      refine sum_eq_zero fun b _ => ?_
      rw [hgrad x hx p a' (mem_range.1 ha'), if_neg hne, mul_zero]
    · intro h
      exact absurd (mem_range.2 ha) h
  calc _ = (cells.map fun x => ∑ b ∈ range dim, tensor dim sig a b *
          ∑ i ∈ range x.2.nodes.length, if label x i = P then
            ((pts x).map fun p => (gradients x.2 p.2).coef i b * p.2.jacobian.det * p.1).sum else 0).sum := by
        congr 1
        refine List.map_congr_left fun x hx => ?_
        calc _ = ((pts x).map fun p => ∑ b ∈ range dim, tensor dim sig a b *
              ∑ i ∈ range x.2.nodes.length, if label x i = P then
                (gradients x.2 p.2).coef i b * p.2.jacobian.det * p.1 else 0).sum := by
              congr 1
              refine List.map_congr_left fun p hp' => ?_
              rw [hpoint x hx p hp', sum_mul, sum_mul]
              refine sum_congr rfl fun b _ => ?_
              rw [mul_assoc, mul_assoc, ← mul_assoc (∑ i ∈ _, _), sum_mul, sum_mul]
              congr 1
              refine sum_congr rfl fun i _ => ?_
              split <;> ring
          _ = _ := by
              rw [← list_sum_range]
              refine sum_congr rfl fun b _ => ?_
              rw [List.sum_map_mul_left, ← list_sum_range]
              congr 1
              refine sum_congr rfl fun i _ => ?_
              split
              · rfl
              · simp
    _ = _ := by
        rw [← list_sum_range]
        refine sum_congr rfl fun b _ => ?_
        rw [List.sum_map_mul_left]
        rfl

theorem number_lt (hc : Connected dim n cells label number' pos) (x0 : Cell × FemElement ℝ) (hx0 : x0 ∈ cells) (i0 : Nat)
    (hi0 : i0 < x0.2.nodes.length) (a : Nat) (ha : a < dim) : number' (label x0 i0) a < n := by
  rw [← hc.number_eq x0 hx0 i0 hi0 a ha]
  have hB := hc.body x0 hx0
  have hmem : x0.2.nodes.getD i0 ⟨[], []⟩ ∈ x0.2.nodes := by
    rw [List.getD_eq_getElem _ _ hi0]
    exact List.getElem_mem hi0
  have hwf := hB.dof.wf _ hmem
  rw [number]
  generalize x0.2.nodes.getD i0 ⟨[], []⟩ = nd at hmem hwf ⊢
  have : nd.dofNumbers.getD a 0 ∈ nd.dofNumbers := by
    rw [List.getD_eq_getElem _ _ (by rw [hwf.2]; exact ha)]
    exact List.getElem_mem _
  have := hB.numbered _ hmem _ this
  omega

end

theorem voigt_voigtSize (dim : Nat) (h1 : 1 ≤ dim) (h3 : dim ≤ 3) (g : Nat → Nat → ℝ) : (voigt dim g).length = voigtSize dim := by
  interval_cases dim <;> rfl

variable {dof dim n : Nat} {E nu : ℝ} {s : DofSizes} {cells : List (Cell × FemElement ℝ)}
  {threads : List (List (Cell × FemElement ℝ))} {st : NodeStore ℝ} {c : Constraints ℝ} {num : Term ℝ → Nat}
  {label : Cell × FemElement ℝ → Nat → Nat} {number' : Nat → Nat → Nat} {pos : Nat → Nat → ℝ}

/-- C103 (general form): a linear elastic body with constraints that leave no motion without strains and prescribe the
displacements of all nodes that are not `inner`; at the `inner` nodes the gradients of the shape functions integrate to zero
(see below).  If the affine displacements `w` satisfy the constraints at the end of a load step, the step computes them. -/
theorem C103_general (P : Problem dof dim n E nu s cells threads st c num) (ps : PlaneState)
    (hsup : Held dim dof n cells c num) (hc : Connected dim n cells label number' pos)
    (hall : AllNumbered dim n cells label number') (inner : Nat → Prop)
    (hcl : Clamped dim dof n cells label number' c num inner)
    (pts : Cell × FemElement ℝ → List (ℝ × IpData)) (hpts : ∀ x ∈ cells, x.1.Points (pts x))
    (hflux : ∀ x ∈ cells, ∀ i < x.2.nodes.length, inner (label x i) → ∀ b < dim, flux cells label pts (label x i) b = 0)
    (t : Nat → ℝ) (W : Nat → Nat → ℝ) (w : List ℝ) (hw : w.length = n)
    (hA : AffineVector dim cells label number' pos t W w) :
    StepGives dof dim n E nu ps s threads st c num w := by
  obtain ⟨h, m, a1, a2, a3⟩ := C101_step P ps pts hpts
  obtain ⟨h', b1, b2⟩ := C101_step_solvable P ps hsup
  obtain rfl : h = h' := Res.ok.inj (a1.symm.trans b1)
  obtain ⟨h', m', g1, g2, _, _, _, _, g7, g8, g9, g10⟩ := P.matrix ps
  obtain rfl : h = h' := Res.ok.inj (a1.symm.trans g1)
  obtain rfl : m = m' := Option.some.inj (a2.symm.trans g2)
  obtain ⟨e1, _, _, _⟩ := C95_elastic dim P.dim1 P.dim3 E nu ps P.stiff P.poisson.1 P.poisson.2
  have k : Stiff dof dim n (fun _ _ => elasticTangent dim E nu ps) cells m :=
    ⟨P.body, fun e _ he => by rw [he]; exact e1, s, threads, h, P.size, P.schedule, a1, a2⟩
  refine ⟨h, m, a1, a2, fun lin hlin toFloat t0 t1 hfl hsatw f R0 hf hR0 hres hsat0 => ?_⟩
  obtain ⟨d, hdl, hd⟩ := b2 toFloat t0 t1 hfl f hf
  obtain ⟨res, hok, hfd⟩ := hd lin hlin
  refine ⟨res, d, hok, hfd, ?_⟩
  obtain ⟨lin0, hlin0, hfind0⟩ := ideal_solver
  obtain ⟨res0, hok0, hfd0⟩ := hd lin0 (hfind0.solvesSpd hlin0)
  have hzero : ∀ i, (List.replicate n (0 : ℝ)).getD i 0 = 0 := by
    intro i
    simp only [List.getD_eq_getElem?_getD, List.getElem?_replicate]
    split <;> rfl
  obtain ⟨d', R1, p1, p2, p3, p4, p5, p6⟩ := a3 lin0 hlin0 toFloat t0 t1 hfl (List.replicate n 0) f R0 (by simp) hf hR0
    (fun i hi => by rw [hres i hi, hzero, sub_zero]) hsat0 res0 hok0
  obtain rfl : d = d' := Option.some.inj (hfd0.symm.trans p1)
  have horth : ∀ v : List ℝ, v.length = n → Satisfies c dof num (fun _ => 0) v →
      ∑ i ∈ range n, v.getD i 0 * (∑ j ∈ range n, m.entry i j * w.getD j 0 - (List.replicate n (0 : ℝ)).getD i 0) = 0 := by
    intro v hv hvs
    refine sum_eq_zero fun g hg => ?_
    obtain ⟨x, hx, i, hi, a, ha, rfl⟩ := hall g (mem_range.1 hg)
    by_cases hin : inner (label x i)
    · rw [hzero, sub_zero]
      have hform := k.form pts hpts (fun k => if k = number' (label x i) a then 1 else 0) (fun i => w.getD i 0)
      have hlt := number_lt hc x hx i hi a ha
      rw [sum_eq_single (number' (label x i) a) (by
          intro b _ hb
          simp [if_neg hb])
        (by intro h; exact absurd (mem_range.2 hlt) h)] at hform
      simp only [if_true, one_mul] at hform
      have hwork := unit_work hc pts (apply (elasticTangent dim E nu ps) (voigt dim W))
        (by rw [apply_length]; exact voigt_length dim _ _) x hx i hi a ha
      have hbil : ∀ y ∈ cells, ∀ p ∈ pts y, bilinear (elasticTangent dim E nu ps)
          (strains dim (gradients y.2 p.2) (restrict dim y.2 fun k => if k = number' (label x i) a then 1 else 0))
          (strains dim (gradients y.2 p.2) (restrict dim y.2 fun i => w.getD i 0)) =
          dot (apply (elasticTangent dim E nu ps) (voigt dim W))
            (strains dim (gradients y.2 p.2) (restrict dim y.2 fun k => if k = number' (label x i) a then 1 else 0)) := by
        intro y hy p hp
        rw [C103_strain hc t W hA y hy (pts y) (hpts y hy) p hp, dot_apply]
        rw [strains_length dim P.dim1 P.dim3, voigt_voigtSize dim P.dim1 P.dim3]
      have hsum : ∑ b ∈ range dim, tensor dim (apply (elasticTangent dim E nu ps) (voigt dim W)) a b *
          flux cells label pts (label x i) b = 0 :=
        sum_eq_zero fun b hb => by rw [hflux x hx i hi hin b (mem_range.1 hb), mul_zero]
      have : ∑ j ∈ range n, m.entry (number' (label x i) a) j * w.getD j 0 = 0 := by
        rw [hform]
        refine Eq.trans ?_ (hwork.trans hsum)
        congr 1
        refine List.map_congr_left fun y hy => ?_
        congr 1
        refine List.map_congr_left fun p hp => ?_
        rw [hbil y hy p hp]
      rw [this, mul_zero]
    · rw [hcl v hv hvs x hx i hi hin a ha, zero_mul]
  have hmin1 := (p6 w hw hsatw)
  have hmin2 := (P.least ps g7 g8 g9 pts (g10 pts hpts) (by simp) hw hsatw horth R1 p3 p5).1
  have hun := hmin1.2.1 (le_antisymm hmin2 hmin1.1)
  obtain ⟨v, v1, v2⟩ := getD_sub n w R1 hw p3
  have hv := hsup v v1 (fun e he => (satisfies_sub hsatw p5 v2 e he).trans (sub_self _)) (by
    have : (fun i => v.getD i 0) = fun i => w.getD i 0 - R1.getD i 0 := funext v2
    rw [this]
    exact hun)
  intro i hi
  have h1 := hv i hi
  rw [v2] at h1
  have h2 := p4 i
  linarith

theorem points_exist (hb : ∀ x ∈ cells, Body dim n x) :
    ∃ pts : Cell × FemElement ℝ → List (ℝ × IpData), ∀ x ∈ cells, x.1.Points (pts x) := by
  have hex : ∀ x : Cell × FemElement ℝ, ∃ pts, x ∈ cells → x.1.Points pts := by
    intro x
    by_cases hx : x ∈ cells
    · obtain ⟨pts, h⟩ := C77_points (hb x hx)
      exact ⟨pts, fun _ => h⟩
    · exact ⟨[], fun h => absurd h hx⟩
  choose pts hpts using hex
  exact ⟨pts, hpts⟩

/-- C103 (plane): triangles and quadrilaterals. -/
theorem C103_plane (P : Problem dof 2 n E nu s cells threads st c num) (ps : PlaneState)
    (hsup : Held 2 dof n cells c num) (hc : Connected 2 n cells label number' pos)
    (hall : AllNumbered 2 n cells label number') (sc : ℝ) (hpoly : ∀ x ∈ cells, Polygon sc x)
    (hcl : Clamped 2 dof n cells label number' c num (Inside cells label))
    (t : Nat → ℝ) (W : Nat → Nat → ℝ) (w : List ℝ) (hw : w.length = n)
    (hA : AffineVector 2 cells label number' pos t W w) : StepGives dof 2 n E nu ps s threads st c num w := by
  obtain ⟨pts, hpts⟩ := points_exist P.body
  exact C103_general P ps hsup hc hall _ hcl pts hpts
    (fun x _ i _ hin b hb => C88_flux_plane hc hpoly pts hpts _ hin b hb) t W w hw hA

/-- C103 (space): tetrahedra. -/
theorem C103_space (P : Problem dof 3 n E nu s cells threads st c num) (ps : PlaneState)
    (hsup : Held 3 dof n cells c num) (hc : Connected 3 n cells label number' pos)
    (hall : AllNumbered 3 n cells label number') (sc : ℝ)
    (htet : ∀ x ∈ cells, x.2.interp = Interpolation.tetrahedronLinear ∧ (x.1.rule.map fun r => r.1).sum = sc)
    (hcl : Clamped 3 dof n cells label number' c num (InsideSpace cells label))
    (t : Nat → ℝ) (W : Nat → Nat → ℝ) (w : List ℝ) (hw : w.length = n)
    (hA : AffineVector 3 cells label number' pos t W w) : StepGives dof 3 n E nu ps s threads st c num w := by
  obtain ⟨pts, hpts⟩ := points_exist P.body
  exact C103_general P ps hsup hc hall _ hcl pts hpts
    (fun x _ i _ hin b hb => C88_flux_space hc htet pts hpts _ hin b hb) t W w hw hA

/-- C103 (line): trusses. -/
theorem C103_line (P : Problem dof 1 n E nu s cells threads st c num) (ps : PlaneState)
    (hsup : Held 1 dof n cells c num) (hc : Connected 1 n cells label number' pos)
    (hall : AllNumbered 1 n cells label number') (sc : ℝ)
    (hline : ∀ x ∈ cells, x.2.interp = Interpolation.trussLinear ∧ (x.1.rule.map fun r => r.1).sum = sc)
    (hcl : Clamped 1 dof n cells label number' c num fun Q =>
      (cells.countP fun y => label y 0 = Q) = (cells.countP fun y => label y 1 = Q))
    (t : Nat → ℝ) (W : Nat → Nat → ℝ) (w : List ℝ) (hw : w.length = n)
    (hA : AffineVector 1 cells label number' pos t W w) : StepGives dof 1 n E nu ps s threads st c num w := by
  obtain ⟨pts, hpts⟩ := points_exist P.body
  refine C103_general P ps hsup hc hall _ hcl pts hpts (fun x _ i _ hin b hb => ?_) t W w hw hA
  obtain rfl : b = 0 := by omega
  exact C88_flux_line hc hline pts hpts _ hin

/-! ### Example: three triangles with the boundary nodes 0, 1, 2 and the inner node 3 -/

/-- The displacements `t x / 10` and `t y / 5` are prescribed at the boundary nodes. -/
noncomputable def exC103 : Constraints ℝ :=
  ⟨[(0, (List.range 6).map fun (k : Nat) => ⟨⟨1, k, 1⟩, [], fun t => t * patchPos (k / 2) (k % 2) / (if k % 2 = 0 then 10 else 5)⟩)],
    (List.range 6).map fun (k : Nat) => (1, (k : Int)), []⟩

theorem exC103_mem {e : Equation ℝ} : e ∈ exC103.equations 0 ↔ ∃ k < 6, e =
    ⟨⟨1, (k : Nat), 1⟩, [], fun t => t * patchPos (k / 2) (k % 2) / (if k % 2 = 0 then 10 else 5)⟩ := by
  simp only [exC103, Constraints.equations, OMap.find?, if_true, Option.getD_some, List.mem_map, List.mem_range]
  constructor
  · rintro ⟨k, hk, rfl⟩; exact ⟨k, hk, rfl⟩
  · rintro ⟨k, hk, rfl⟩; exact ⟨k, hk, rfl⟩

/-- The displacements of the four nodes at time 1. -/
noncomputable def exW103 : List ℝ := [0, 0, 3 / 10, 0, 0, 3 / 5, 1 / 10, 1 / 5]

theorem patch_weights : ∀ x ∈ patchCells, ∀ pts, x.1.Points pts → ∀ p ∈ pts, 0 < p.2.jacobian.det * p.1 := by
  intro x hx pts hp p hm
  have hb := patch_connected.body x hx
  obtain ⟨_, _, h⟩ := hb.point hp p hm
  have hw : p.1 = 1 / 2 := by
    have hr : x.1.rule = [(1 / 2, [1 / 3, 1 / 3])] := by
      obtain ⟨p, q, r, rfl, _⟩ := patch_mem hx
      rfl
    unfold Cell.Points at hp
    rw [hr] at hp
    cases hp with
    | cons hh ht =>
      cases ht
      rw [List.mem_singleton.1 hm]
      exact hh.1
  have key : ∀ p' q' r', x = patchCell p' q' r' → 0 < (patchPos q' 0 - patchPos p' 0) * (patchPos r' 1 - patchPos p' 1)
    - (patchPos r' 0 - patchPos p' 0) * (patchPos q' 1 - patchPos p' 1) → 0 < p.2.jacobian.det * p.1 := by
    rintro p' q' r' rfl hpos
    have hv : values 2 (patchCell p' q' r').1.coordElement =
        [patchPos p' 0, patchPos p' 1, patchPos q' 0, patchPos q' 1, patchPos r' 0, patchPos r' 1] := by
      simp [values, patchCell, nodesAt, Node.ofVector, component, List.range_succ]
    rw [hv, make_square2 _ _ (by simp [patchCell, Interpolation.triangleLinear, Interpolation.triangleLinearDeriv])
      (by simp [patchCell, Interpolation.triangleLinear, Interpolation.triangleLinearDeriv])] at h
    rw [← Res.ok.inj h, hw]
    refine mul_pos (lt_of_lt_of_eq hpos ?_) (by norm_num)
    simp [patchCell, Interpolation.triangleLinear, Interpolation.triangleLinearDeriv, Jacobian.det2,
      Jacobian.calculate, List.range_succ]
    ring
  simp only [patchCells, List.mem_cons, List.not_mem_nil, or_false] at hx
  rcases hx with h | h | h
  · exact key 0 1 3 h (by norm_num [patchPos])
  · exact key 1 2 3 h (by norm_num [patchPos])
  · exact key 2 0 3 h (by norm_num [patchPos])

theorem patch_faceConnected : FaceConnected 2 patchCells (patchCell 0 1 3) := by
  refine ⟨by simp [patchCells], fun y hy => ?_⟩
  have hmem := hy
  simp only [patchCells, List.mem_cons, List.not_mem_nil, or_false] at hy
  rcases hy with rfl | rfl | rfl
  · exact Relation.ReflTransGen.refl
  · refine Relation.ReflTransGen.single ⟨hmem, 1, by norm_num, fun i hi hne => ?_⟩
    interval_cases i
    · exact ⟨1, by norm_num, fun a ha => by
        interval_cases a <;> simp [patchCell, patchNode, number, component, nodesAt, Node.ofVector]⟩
    · exact absurd rfl hne
    · exact ⟨2, by norm_num, fun a ha => by
        interval_cases a <;> simp [patchCell, patchNode, number, component, nodesAt, Node.ofVector]⟩
  · refine Relation.ReflTransGen.single ⟨hmem, 0, by norm_num, fun i hi hne => ?_⟩
    interval_cases i
    · exact absurd rfl hne
    · exact ⟨0, by norm_num, fun a ha => by
        interval_cases a <;> simp [patchCell, patchNode, number, component, nodesAt, Node.ofVector]⟩
    · exact ⟨2, by norm_num, fun a ha => by
        interval_cases a <;> simp [patchCell, patchNode, number, component, nodesAt, Node.ofVector]⟩

theorem exC103_zero {w : List ℝ} (h : Satisfies exC103 0 (fun t => t.comp.toNat) (fun _ => 0) w) (k : Nat) (hk : k < 6) :
    w.getD k 0 = 0 := by
  simpa [Equation.lhs] using h _ (exC103_mem.2 ⟨k, hk, rfl⟩)

theorem patch_edges : edges patchCells patchLabel =
    [(0, 1), (1, 3), (3, 0), (1, 2), (2, 3), (3, 1), (2, 0), (0, 3), (3, 2)] := by
  have hl : ∀ p q r, (patchCell p q r).2.nodes.length = 3 := fun _ _ _ => rfl
  simp [edges, patchCells, hl, List.range_succ, patchCell_label]

/-- This problem meets the hypotheses of `C103_plane`, and the displacements satisfy the constraints at time 1. -/
example : Problem 0 2 8 1 0 ⟨[(0, 8)], [(0, 0)]⟩ patchCells [patchCells] exStore101 exC103 (fun t => t.comp.toNat) ∧
    Held 2 0 8 patchCells exC103 (fun t => t.comp.toNat) ∧
    Connected 2 8 patchCells patchLabel (fun P a => 2 * P + a) patchPos ∧
    AllNumbered 2 8 patchCells patchLabel (fun P a => 2 * P + a) ∧
    (∀ x ∈ patchCells, Polygon (1 / 2) x) ∧
    Clamped 2 0 8 patchCells patchLabel (fun P a => 2 * P + a) exC103 (fun t => t.comp.toNat) (Inside patchCells patchLabel) ∧
    AffineVector 2 patchCells patchLabel (fun P a => 2 * P + a) patchPos (fun _ => 0)
      (fun a b => if a = b then (if a = 0 then 1 / 10 else 1 / 5) else 0) exW103 ∧
    Satisfies exC103 0 (fun t => t.comp.toNat) (fun e => e.rhs 1) exW103 := by
  have hin3 : Inside patchCells patchLabel 3 := by
    intro Q
    rw [patch_edges]
    by_cases hQ : Q < 4
    · interval_cases Q <;> decide
    · rw [List.count_eq_zero_of_not_mem, List.count_eq_zero_of_not_mem] <;> simp <;> omega
  refine ⟨?_, ?_, patch_connected, ?_, ?_, ?_, ?_, ?_⟩
  · exact {
      dim1 := by norm_num
      dim3 := by norm_num
      stiff := by norm_num
      poisson := by norm_num
      body := patch_connected.body
      positive := patch_weights
      size := rfl
      schedule := by simp
      valid := by
        refine ⟨?_, ?_, ?_⟩
        · intro e he t ht
          obtain ⟨k, hk, rfl⟩ := exC103_mem.1 he
          simp only [List.mem_cons, List.not_mem_nil, or_false] at ht
          subst ht
          interval_cases k <;> simp [Term.dofNumber, Node.getDofNumber, exStore101]
        · simp [exC103, Constraints.equations, OMap.find?, List.range_succ]
        · intro e _ f hf t ht
          obtain ⟨k, hk, rfl⟩ := exC103_mem.1 hf
          simp at ht
      unit := by
        intro e he
        obtain ⟨k, hk, rfl⟩ := exC103_mem.1 he
        rfl
      tiny := by
        intro e he t ht
        obtain ⟨k, hk, rfl⟩ := exC103_mem.1 he
        simp at ht }
  · refine C101_held patch_connected.body patch_weights patch_connected.iso ?_ ?_ (patchCell 0 1 3) patch_faceConnected ?_
    · intro x hx
      obtain ⟨p, q, r, rfl, _⟩ := patch_mem hx
      exact triangleLinear_simplex
    · intro x hx
      obtain ⟨p, q, r, rfl, _⟩ := patch_mem hx
      simp [patchCell]
    · rintro w _ ⟨t, W, hW, hR⟩ hs i hi
      by_cases h6 : i < 6
      · exact exC103_zero hs i h6
      have hc0 := hR (patchCell 0 1 3) (by simp [patchCells])
      have a0 := hc0 0 (by norm_num) 0 (by norm_num)
      have a1 := hc0 0 (by norm_num) 1 (by norm_num)
      have b0 := hc0 1 (by norm_num) 0 (by norm_num)
      have b1 := hc0 1 (by norm_num) 1 (by norm_num)
      have c0 := hc0 2 (by norm_num) 0 (by norm_num)
      have c1 := hc0 2 (by norm_num) 1 (by norm_num)
      simp [patchCell, patchNode, number, component, nodesAt, Node.ofVector, sum_range_succ, patchPos] at a0 a1 b0 b1 c0 c1
      have z := exC103_zero hs
      have z0 := z 0 (by norm_num)
      have z1 := z 1 (by norm_num)
      have z2 := z 2 (by norm_num)
      have z3 := z 3 (by norm_num)
      simp at z0 z1 z2 z3
      rw [z0] at a0
      rw [z1] at a1
      rw [z2] at b0
      rw [z3] at b1
      have e11 := hW 1 1
      have e01 := hW 0 1
      interval_cases i
      · simp; linarith
      · simp; linarith
  · intro g hg
    have h : ∀ p q r, patchCell p q r ∈ patchCells → ∀ i < 3, ∀ a < 2, [p, q, r].getD i 0 * 2 + a = g →
        ∃ x ∈ patchCells, ∃ i < x.2.nodes.length, ∃ a < 2, 2 * patchLabel x i + a = g :=
      fun p q r hm i hi a ha e => ⟨_, hm, i, hi, a, ha, by rw [patchCell_label p q r i hi]; omega⟩
    by_cases h4 : g < 4
    · refine h 0 1 3 (by simp [patchCells]) (g / 2) (by omega) (g % 2) (by omega) ?_
      interval_cases g <;> rfl
    · by_cases h6 : g < 6
      · refine h 2 0 3 (by simp [patchCells]) 0 (by omega) (g % 2) (by omega) ?_
        interval_cases g <;> first | rfl | omega
      · refine h 0 1 3 (by simp [patchCells]) 2 (by omega) (g % 2) (by omega) ?_
        interval_cases g <;> first | rfl | omega
  · intro x hx
    obtain ⟨p, q, r, rfl, _⟩ := patch_mem hx
    exact Or.inl ⟨rfl, by simp [patchCell]⟩
  · intro w _ hs x hx i hi hni a ha
    refine exC103_zero hs _ ?_
    obtain ⟨p, q, r, rfl, hp, hq, hr, _⟩ := patch_mem hx
    have hi' : i < 3 := hi
    rw [patchCell_label p q r i hi'] at hni ⊢
    have : [p, q, r].getD i 0 ≠ 3 := fun h => hni (h ▸ hin3)
    have h4 : [p, q, r].getD i 0 < 4 := by interval_cases i <;> simpa
    generalize [p, q, r].getD i 0 = z at *
    show 2 * z + a < 6
    omega
  · intro x hx i hi a ha
    obtain ⟨p, q, r, rfl, hp, hq, hr, _⟩ := patch_mem hx
    have hi' : i < 3 := hi
    rw [patchCell_label p q r i hi']
    have h4 : [p, q, r].getD i 0 < 4 := by interval_cases i <;> simpa
    generalize [p, q, r].getD i 0 = z at *
    interval_cases z <;> interval_cases a <;> norm_num [exW103, patchPos, sum_range_succ]
  · intro e he
    obtain ⟨k, hk, rfl⟩ := exC103_mem.1 he
    suffices exW103.getD k 0 = 1 * patchPos (k / 2) (k % 2) / (if k % 2 = 0 then 10 else 5) by
      simpa [Equation.lhs] using this
    interval_cases k <;> norm_num [exW103, patchPos]

end Statics

end NuTo
