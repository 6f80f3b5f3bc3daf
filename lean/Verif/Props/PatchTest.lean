/-
C88: patch test on meshes.  Affine displacements give the same stress everywhere, and the internal forces at all nodes
inside of the mesh vanish.
-/
import Verif.Props.Balance
import Mathlib.Data.List.Count

namespace NuTo

open Assembly Finset

namespace Balance

/-! ### Specification -/

/-- Engineering strains of a displacement gradient. -/
def voigt (dim : Nat) (g : Nat → Nat → ℝ) : List ℝ :=
  match dim with
  | 1 => [g 0 0]
  | 2 => [g 0 0, g 1 1, g 0 1 + g 1 0]
  | _ => [g 0 0, g 1 1, g 2 2, g 1 2 + g 2 1, g 0 2 + g 2 0, g 0 1 + g 1 0]

/-- How the elements are connected: `label x i` is the node of the mesh that is node `i` of the element, `num P a` the
number of component `a` of node `P`, `pos P` its position.  Every cell interpolates displacements and coordinates in the
same way. -/
structure Connected (dim n : Nat) (cells : List (Cell × FemElement ℝ)) (label : Cell × FemElement ℝ → Nat → Nat)
    (num : Nat → Nat → Nat) (pos : Nat → Nat → ℝ) : Prop where
  body : ∀ x ∈ cells, Body dim n x
  iso : ∀ x ∈ cells, x.2.interp = x.1.coordElement.interp
  number_eq : ∀ x ∈ cells, ∀ i < x.2.nodes.length, ∀ a < dim, number x.2 i a = num (label x i) a
  pos_eq : ∀ x ∈ cells, ∀ i < x.2.nodes.length, ∀ a < dim, component x.1.coordElement i a = pos (label x i) a
  inj : ∀ x ∈ cells, ∀ i < x.2.nodes.length, ∀ y ∈ cells, ∀ j < y.2.nodes.length, ∀ a < dim, ∀ b < dim,
    num (label x i) a = num (label y j) b → label x i = label y j ∧ a = b
  regular : ∀ x ∈ cells, ∀ pts, x.1.Points pts → ∀ p ∈ pts, p.2.jacobian.det ≠ 0

/-- The displacements of the nodes are `t + W x`. -/
def Affine (dim : Nat) (cells : List (Cell × FemElement ℝ)) (t : Nat → ℝ) (W : Nat → Nat → ℝ) : Prop :=
  ∀ x ∈ cells, ∀ i < x.2.nodes.length, ∀ a < dim,
    component x.2 i a = t a + ∑ c ∈ range dim, W a c * component x.1.coordElement i c

/-- The integral of component `b` of the gradient of the shape function of node `P`. -/
noncomputable def flux (cells : List (Cell × FemElement ℝ)) (label : Cell × FemElement ℝ → Nat → Nat)
    (pts : Cell × FemElement ℝ → List (ℝ × IpData)) (P b : Nat) : ℝ :=
  (cells.map fun x => ∑ i ∈ range x.2.nodes.length, if label x i = P then
    ((pts x).map fun p => (gradients x.2 p.2).coef i b * p.2.jacobian.det * p.1).sum else 0).sum

/-! ### General elements -/

theorem strains_voigt (dim : Nat) (h1 : 1 ≤ dim) (h3 : dim ≤ 3) (G : DMat ℝ) (u : List ℝ) (W : Nat → Nat → ℝ)
    (h : ∀ a < dim, ∀ b < dim, displacementGradient dim G u a b = W a b) : strains dim G u = voigt dim W := by
  interval_cases dim <;> simp [strains, voigt, h]

/-- The components of the stress in the work. -/
def tensor (dim : Nat) (s : List ℝ) (a b : Nat) : ℝ :=
  match dim, a, b with
  | 2, 0, 1 => s.getD 2 0
  | 2, 1, 0 => s.getD 2 0
  | 3, 1, 2 => s.getD 3 0
  | 3, 2, 1 => s.getD 3 0
  | 3, 0, 2 => s.getD 4 0
  | 3, 2, 0 => s.getD 4 0
  | 3, 0, 1 => s.getD 5 0
  | 3, 1, 0 => s.getD 5 0
  | _, a, _ => s.getD a 0

theorem dot_strains (dim : Nat) (h1 : 1 ≤ dim) (h3 : dim ≤ 3) (s : List ℝ) (G : DMat ℝ) (u : List ℝ)
    (hs : s.length = (voigt dim fun _ _ => 0).length) :
    dot s (strains dim G u) =
      ∑ a ∈ range dim, ∑ b ∈ range dim, tensor dim s a b * displacementGradient dim G u a b := by
  rw [dot, hs]
  interval_cases dim
  · simp [voigt, strains, tensor]
  · simp [voigt, strains, tensor, sum_range_succ]
    ring
  · simp [voigt, strains, tensor, sum_range_succ]
    ring

theorem voigt_length (dim : Nat) (g h : Nat → Nat → ℝ) : (voigt dim g).length = (voigt dim h).length := by
  unfold voigt
  split <;> rfl

/-- C88: the strain of affine displacements is the same at all integration points. -/
theorem C88_strain {dim n : Nat} {cells : List (Cell × FemElement ℝ)} {label : Cell × FemElement ℝ → Nat → Nat}
    {num : Nat → Nat → Nat} {pos : Nat → Nat → ℝ} (hc : Connected dim n cells label num pos) (t : Nat → ℝ)
    (W : Nat → Nat → ℝ) (hA : Affine dim cells t W) (x : Cell × FemElement ℝ) (hx : x ∈ cells) (pts : List (ℝ × IpData))
    (hp : x.1.Points pts) (p : ℝ × IpData) (hm : p ∈ pts) :
    strains dim (gradients x.2 p.2) (values dim x.2) = voigt dim W := by
  have h := hc.body x hx
  have hiso := hc.iso x hx
  obtain ⟨j1, j2, j3⟩ := h.point hp p hm
  have hcount : x.2.nodes.length = x.1.coordElement.nodes.length := by
    rw [h.dof.count, h.coord.count, hiso]
  have hlen : (x.1.coordElement.interp.deriv fun k => p.2.coords.getD k 0).length = x.2.nodes.length := by
    rw [h.coordUnity.derivLen, hcount, h.coord.count]
  have hG : gradients x.2 p.2 = ⟨(x.1.coordElement.interp.deriv fun k => p.2.coords.getD k 0).length,
      p.2.jacobian.rows, p.2.jacobian.transform (x.1.coordElement.interp.deriv fun k => p.2.coords.getD k 0)⟩ := by
    rw [gradients, hlen, h.dof.count, hiso]
  refine strains_voigt dim h.dim1 h.dim3 _ _ _ fun a ha b hb => ?_
  have := C39_patch j3 (by rw [j1, j2]) (hc.regular x hx pts hp p hm) (by
    intro j
    rw [hlen, hcount, h.coord.count]
    exact h.coordUnity.derivSum _ j) t W (values dim x.2) (by
    intro i hi a ha
    rw [j1] at ha ⊢
    rw [hlen] at hi
    rw [values_getD hi ha, hA x hx i hi a ha]
    congr 1
    refine sum_congr rfl fun c hc => ?_
    rw [values_getD (hcount ▸ hi) (mem_range.1 hc)]) a b (by rw [j1]; exact ha) (by rw [j1]; exact hb)
  rw [hG]
  rw [j1] at this ⊢
  exact this

/-- C88: for affine displacements and the same law `sigma` everywhere the assembled internal forces at a node `P` are the
stress times the integral of the gradient of the shape function of the node. -/
theorem C88_forces (s : DofSizes) (dof dim n : Nat) (sigma : List ℝ → List ℝ)
    (hsig : ∀ e, (sigma e).length = e.length) (cells : List (Cell × FemElement ℝ))
    (threads : List (List (Cell × FemElement ℝ))) (hp : threads.flatten.Perm cells) (hs : s.size dof = .ok n)
    (label : Cell × FemElement ℝ → Nat → Nat) (num : Nat → Nat → Nat) (pos : Nat → Nat → ℝ)
    (hc : Connected dim n cells label num pos) (t : Nat → ℝ) (W : Nat → Nat → ℝ) (hA : Affine dim cells t W)
    (pts : Cell × FemElement ℝ → List (ℝ × IpData)) (hpts : ∀ x ∈ cells, x.1.Points (pts x)) :
    ∃ v f, assembleVector s dof (momentum dof fun e _ => .ok (sigma e)) threads = .ok v ∧
      v.find? dof = some f ∧ f.length = n ∧ ∀ x ∈ cells, ∀ i < x.2.nodes.length, ∀ a < dim,
        f.getD (num (label x i) a) 0 =
          ∑ b ∈ range dim, tensor dim (sigma (voigt dim W)) a b * flux cells label pts (label x i) b := by
  obtain ⟨v, f, h1, h2, h3, h4⟩ := C77_virtual_work s dof dim n (fun e _ => sigma e) (fun e _ => hsig e) cells threads
    hp hs hc.body pts hpts
  refine ⟨v, f, h1, h2, h3, fun x0 hx0 i0 hi0 a ha => ?_⟩
  set P := label x0 i0 with hP
  have hlt : num P a < n := by
    rw [hP, ← hc.number_eq x0 hx0 i0 hi0 a ha]
    have hB := hc.body x0 hx0
    have hmem : x0.2.nodes.getD i0 ⟨[], []⟩ ∈ x0.2.nodes := by
      rw [List.getD_eq_getElem _ _ hi0]
      exact List.getElem_mem hi0
    have hwf := hB.dof.wf _ hmem
    rw [number]
    generalize x0.2.nodes.getD i0 ⟨[], []⟩ = nd at hmem hwf ⊢
    have : nd.dofNumbers.getD a 0 ∈ nd.dofNumbers := by
      rw [List.getD_eq_getElem _ _ (by rw [hwf.2]; exact ha)]
      exact List.getElem_mem _
    have := hB.numbered _ hmem _ this
    omega
  have hR := h4 fun k => if k = num P a then 1 else 0
  rw [sum_eq_single (num P a) (by intro b _ hb; rw [if_neg hb, mul_zero])
    (by intro h; exact absurd (mem_range.2 hlt) h), if_pos rfl, mul_one] at hR
  rw [hR]
  have hgrad : ∀ x ∈ cells, ∀ p : ℝ × IpData, ∀ a' < dim, ∀ b,
      displacementGradient dim (gradients x.2 p.2) (restrict dim x.2 fun k => if k = num P a then 1 else 0) a' b =
        if a' = a then ∑ i ∈ range x.2.nodes.length, if label x i = P then (gradients x.2 p.2).coef i b else 0
        else 0 := by
    intro x hx p a' ha' b
    have hB := hc.body x hx
    rw [displacementGradient, show (gradients x.2 p.2).rows = x.2.nodes.length from hB.dof.count.symm]
    by_cases haa : a' = a
    · rw [if_pos haa]
      refine sum_congr rfl fun i hi => ?_
      have hi' := mem_range.1 hi
      rw [restrict_getD hi' ha', hc.number_eq x hx i hi' a' ha']
      by_cases hl : label x i = P
      · rw [if_pos hl, hl, haa, if_pos rfl, one_mul]
      · rw [if_neg hl, if_neg, zero_mul]
        intro h
        exact hl (hc.inj x hx i hi' x0 hx0 i0 hi0 a' ha' a ha h).1
    · rw [if_neg haa]
      refine sum_eq_zero fun i hi => ?_
      have hi' := mem_range.1 hi
      rw [restrict_getD hi' ha', hc.number_eq x hx i hi' a' ha', if_neg, zero_mul]
      intro h
      exact haa (hc.inj x hx i hi' x0 hx0 i0 hi0 a' ha' a ha h).2
  have hpoint : ∀ x ∈ cells, ∀ p ∈ pts x,
      dot (sigma (strains dim (gradients x.2 p.2) (values dim x.2)))
        (strains dim (gradients x.2 p.2) (restrict dim x.2 fun k => if k = num P a then 1 else 0)) =
      ∑ b ∈ range dim, tensor dim (sigma (voigt dim W)) a b *
        ∑ i ∈ range x.2.nodes.length, if label x i = P then (gradients x.2 p.2).coef i b else 0 := by
    intro x hx p hp'
    have hB := hc.body x hx
    rw [C88_strain hc t W hA x hx (pts x) (hpts x hx) p hp',
      dot_strains dim hB.dim1 hB.dim3 _ _ _ (by rw [hsig]; exact voigt_length _ _ _),
      sum_eq_single a]
    · refine sum_congr rfl fun b _ => ?_
      rw [hgrad x hx p a ha, if_pos rfl]
    · intro a' ha' hne
      refine sum_eq_zero fun b _ => ?_
      rw [hgrad x hx p a' (mem_range.1 ha'), if_neg hne, mul_zero]
    · intro h
      exact absurd (mem_range.2 ha) h
  calc _ = (cells.map fun x => ∑ b ∈ range dim, tensor dim (sigma (voigt dim W)) a b *
          ∑ i ∈ range x.2.nodes.length, if label x i = P then
            ((pts x).map fun p => (gradients x.2 p.2).coef i b * p.2.jacobian.det * p.1).sum else 0).sum := by
        congr 1
        refine List.map_congr_left fun x hx => ?_
        calc _ = ((pts x).map fun p => ∑ b ∈ range dim, tensor dim (sigma (voigt dim W)) a b *
              ∑ i ∈ range x.2.nodes.length, if label x i = P then
                (gradients x.2 p.2).coef i b * p.2.jacobian.det * p.1 else 0).sum := by
              congr 1
              refine List.map_congr_left fun p hp' => ?_
              rw [hpoint x hx p hp', sum_mul, sum_mul]
              refine sum_congr rfl fun b _ => ?_
              rw [mul_assoc, mul_assoc, ← mul_assoc (∑ i ∈ _, _), sum_mul, sum_mul]
              congr 1
              refine sum_congr rfl fun i _ => ?_
              split <;> ring
          _ = _ := by
              rw [← list_sum_range]
              refine sum_congr rfl fun b _ => ?_
              rw [List.sum_map_mul_left, ← list_sum_range]
              congr 1
              refine sum_congr rfl fun i _ => ?_
              split
              · rfl
              · simp
    _ = _ := by
        rw [← list_sum_range]
        refine sum_congr rfl fun b _ => ?_
        rw [List.sum_map_mul_left]
        rfl

/-! ### Triangles and quadrilaterals -/

/-- A linear triangle or a bilinear quadrilateral and its integration rule: weights that add up to the area of the reference
element (up to a factor `2 * sc` common to all elements), the rule of the quadrilateral is exact for linear functions. -/
def Polygon (sc : ℝ) (x : Cell × FemElement ℝ) : Prop :=
  (x.2.interp = Interpolation.triangleLinear ∧ (x.1.rule.map fun r => r.1).sum = sc) ∨
  (x.2.interp = Interpolation.quadLinear ∧ (x.1.rule.map fun r => r.1).sum = 8 * sc ∧
    (x.1.rule.map fun r => r.2.getD 0 0 * r.1).sum = 0 ∧ (x.1.rule.map fun r => r.2.getD 1 0 * r.1).sum = 0)

/-- The edges of all elements, in the direction in which the element runs through them. -/
def edges (cells : List (Cell × FemElement ℝ)) (label : Cell × FemElement ℝ → Nat → Nat) : List (Nat × Nat) :=
  cells.flatMap fun x => (List.range x.2.nodes.length).map fun i => (label x i, label x ((i + 1) % x.2.nodes.length))

/-- Node `P` lies inside of the mesh: every edge that ends there is shared by elements on both sides. -/
def Inside (cells : List (Cell × FemElement ℝ)) (label : Cell × FemElement ℝ → Nat → Nat) (P : Nat) : Prop :=
  ∀ Q, (edges cells label).count (P, Q) = (edges cells label).count (Q, P)

theorem points_sum {dim n : Nat} {x : Cell × FemElement ℝ} (h : Body dim n x) {pts : List (ℝ × IpData)}
    (hp : x.1.Points pts) (g : List ℝ → ℝ) :
    (pts.map fun p => g p.2.coords * p.1).sum = (x.1.rule.map fun r => g r.2 * r.1).sum := by
  have key : ∀ (l : List ((ℝ × List ℝ) × Nat)) (pts : List (ℝ × IpData)), List.Forall₂ (fun (ip : (ℝ × List ℝ) × Nat) (p : ℝ × IpData) =>
      p.1 = ip.1.1 ∧ x.1.ipData ip.2 ip.1.2 = .ok p.2) l pts →
      (pts.map fun p => g p.2.coords * p.1).sum = (l.map fun r => g r.1.2 * r.1.1).sum := by
    intro l pts hl
    induction hl with
    | nil => rfl
    | cons hh _ ih =>
      obtain ⟨d, h1, h2, _⟩ := h.jacobian _ _
      rw [hh.2] at h1
      obtain rfl := Res.ok.inj h1
      simp only [List.map_cons, List.sum_cons]
      rw [ih, h2, hh.1]
  rw [key _ _ hp]
  have : x.1.rule.zipIdx.map (fun r => g r.1.2 * r.1.1) = (x.1.rule.zipIdx.map Prod.fst).map fun r => g r.2 * r.1 := by
    rw [List.map_map]
    rfl
  rw [this, List.zipIdx_map_fst]

theorem gradient_det2 {n : Nat} {x : Cell × FemElement ℝ} (h : Body 2 n x)
    (hiso : x.2.interp = x.1.coordElement.interp) {pts : List (ℝ × IpData)} (hp : x.1.Points pts) (p : ℝ × IpData)
    (hm : p ∈ pts) (hdet : p.2.jacobian.det ≠ 0) (dN : List (List ℝ))
    (hd : dN = x.2.interp.deriv fun k => p.2.coords.getD k 0) (i : Nat) :
    (gradients x.2 p.2).coef i 0 * p.2.jacobian.det = ∑ k ∈ range x.2.nodes.length, component x.1.coordElement k 1 *
      ((dN.getD i []).getD 0 0 * (dN.getD k []).getD 1 0 - (dN.getD i []).getD 1 0 * (dN.getD k []).getD 0 0) ∧
    (gradients x.2 p.2).coef i 1 * p.2.jacobian.det = ∑ k ∈ range x.2.nodes.length, component x.1.coordElement k 0 *
      ((dN.getD i []).getD 1 0 * (dN.getD k []).getD 0 0 - (dN.getD i []).getD 0 0 * (dN.getD k []).getD 1 0) := by
  obtain ⟨j1, j2, j3⟩ := h.point hp p hm
  have hcount : x.2.nodes.length = x.1.coordElement.nodes.length := by
    rw [h.dof.count, h.coord.count, hiso]
  rw [← hiso, ← hd] at j3
  have hlen : dN.length = x.2.nodes.length := by rw [hd, hiso, h.coordUnity.derivLen, hcount, h.coord.count]
  have hpos : 0 < x.2.nodes.length := List.length_pos_iff.2 h.dof.ne
  rw [make_square2 _ _ (by omega) (by rw [values_length, ← hcount, hlen, Nat.mul_div_cancel _ hpos])] at j3
  have j3 := (Res.ok.inj j3).symm
  have hval : ∀ d < 2, ∀ j, Jacobian.calculate 2 (values 2 x.1.coordElement) dN d j =
      ∑ k ∈ range x.2.nodes.length, component x.1.coordElement k d * (dN.getD k []).getD j 0 := by
    intro d hd' j
    rw [Jacobian.calculate, sum_range_list, hlen]
    refine sum_congr rfl fun k hk => ?_
    rw [values_getD (by rw [← hcount]; exact mem_range.1 hk) hd']
  have hcoef : ∀ b, (gradients x.2 p.2).coef i b = p.2.jacobian.transform dN i b := by
    intro b
    rw [gradients, hd]
  rw [hcoef, hcoef]
  generalize p.2.jacobian = J at j3 hdet
  subst j3
  simp only at hdet ⊢
  simp only [Jacobian.transform, List.range_succ, List.range_zero, List.nil_append, List.cons_append, List.map_cons,
    List.map_nil, List.sum_cons, List.sum_nil, Jacobian.inv2]
  have e : ∀ a b : ℝ, ∀ c d' : ℝ, (a * (b / Jacobian.det2 (Jacobian.calculate 2 (values 2 x.1.coordElement) dN)) +
      (c * (d' / Jacobian.det2 (Jacobian.calculate 2 (values 2 x.1.coordElement) dN)) + 0)) *
      Jacobian.det2 (Jacobian.calculate 2 (values 2 x.1.coordElement) dN) = a * b + c * d' := by
    intro a b c d'
    field_simp
    ring
  rw [e, e, hval 1 (by omega), hval 1 (by omega), hval 0 (by omega), hval 0 (by omega)]
  constructor
  · rw [mul_neg, mul_sum, mul_sum, ← sub_eq_add_neg, ← sum_sub_distrib]
    exact sum_congr rfl fun k _ => by ring
  · rw [mul_neg, mul_sum, mul_sum, add_comm, ← sub_eq_add_neg, ← sum_sub_distrib]
    exact sum_congr rfl fun k _ => by ring

theorem sum_congr_mem {α : Type} (l : List α) (f g : α → ℝ) (h : ∀ a ∈ l, f a = g a) : (l.map f).sum = (l.map g).sum := by
  rw [List.map_congr_left h]

/-- The integral of the gradient of a shape function of a triangle or quadrilateral: the vector between the neighbours of
the node, turned by a right angle. -/
theorem polygon_flux {n : Nat} {sc : ℝ} {x : Cell × FemElement ℝ} (h : Body 2 n x)
    (hiso : x.2.interp = x.1.coordElement.interp) {pts : List (ℝ × IpData)} (hp : x.1.Points pts)
    (hdet : ∀ p ∈ pts, p.2.jacobian.det ≠ 0) (hx : Polygon sc x) (i : Nat) (hi : i < x.2.nodes.length) :
    (pts.map fun p => (gradients x.2 p.2).coef i 0 * p.2.jacobian.det * p.1).sum = sc *
      (component x.1.coordElement ((i + 1) % x.2.nodes.length) 1 -
        component x.1.coordElement ((i + (x.2.nodes.length - 1)) % x.2.nodes.length) 1) ∧
    (pts.map fun p => (gradients x.2 p.2).coef i 1 * p.2.jacobian.det * p.1).sum = sc *
      (component x.1.coordElement ((i + (x.2.nodes.length - 1)) % x.2.nodes.length) 0 -
        component x.1.coordElement ((i + 1) % x.2.nodes.length) 0) := by
  have hg := fun p hm => gradient_det2 h hiso hp p hm (hdet p hm) _ rfl i
  have e0 := sum_congr_mem pts _ _ fun p hm => congrArg (· * p.1) (hg p hm).1
  have e1 := sum_congr_mem pts _ _ fun p hm => congrArg (· * p.1) (hg p hm).2
  rw [e0, e1]
  clear hg e0 e1
  have hcnt := h.dof.count
  rcases hx with ⟨h1, h2⟩ | ⟨h1, h2, h3, h4⟩
  · have hm : x.2.nodes.length = 3 := by rw [hcnt, h1]; rfl
    have hw := points_sum h hp fun _ => 1
    simp only [one_mul] at hw
    rw [h2] at hw
    simp only [hm] at hi ⊢
    rw [h1, ← hw]
    generalize component x.1.coordElement = c
    interval_cases i <;>
      simp [Interpolation.triangleLinear, Interpolation.triangleLinearDeriv, sum_range_succ, List.sum_map_mul_left] <;>
      ring_nf <;> simp
  · have hm : x.2.nodes.length = 4 := by rw [hcnt, h1]; rfl
    have hw := points_sum h hp fun _ => 1
    have hw0 := points_sum h hp fun l => l.getD 0 0
    have hw1 := points_sum h hp fun l => l.getD 1 0
    simp only [one_mul] at hw
    rw [h2] at hw
    rw [h3] at hw0
    rw [h4] at hw1
    simp only [hm] at hi ⊢
    rw [h1]
    generalize component x.1.coordElement = c
    have key : ∀ (F : (Nat → ℝ) → ℝ), (∀ q, F q = F (fun _ => 0) + (F (fun k => if k = 0 then 1 else 0) - F fun _ => 0) * q 0
          + (F (fun k => if k = 1 then 1 else 0) - F fun _ => 0) * q 1) →
        (pts.map fun p => F (fun k => p.2.coords.getD k 0) * p.1).sum = F (fun _ => 0) * (8 * sc) := by
      intro F hF
      generalize F (fun _ => 0) = a at hF
      generalize F (fun k => if k = 0 then 1 else 0) - a = b at hF
      generalize F (fun k => if k = 1 then 1 else 0) - a = d at hF
      have : ∀ p ∈ pts, F (fun k => p.2.coords.getD k 0) * p.1 =
          a * p.1 + b * (p.2.coords.getD 0 0 * p.1) + d * (p.2.coords.getD 1 0 * p.1) := by
        intro p _
        rw [hF]
        ring
      rw [sum_congr_mem _ _ _ this, List.sum_map_add, List.sum_map_add, List.sum_map_mul_left, List.sum_map_mul_left,
        List.sum_map_mul_left, hw, hw0, hw1]
      ring
    have k0 := key fun q => ∑ k ∈ range 4, c k 1 *
      (((Interpolation.quadLinear.deriv q).getD i []).getD 0 0 * ((Interpolation.quadLinear.deriv q).getD k []).getD 1 0 -
        ((Interpolation.quadLinear.deriv q).getD i []).getD 1 0 * ((Interpolation.quadLinear.deriv q).getD k []).getD 0 0)
    have k1 := key fun q => ∑ k ∈ range 4, c k 0 *
      (((Interpolation.quadLinear.deriv q).getD i []).getD 1 0 * ((Interpolation.quadLinear.deriv q).getD k []).getD 0 0 -
        ((Interpolation.quadLinear.deriv q).getD i []).getD 0 0 * ((Interpolation.quadLinear.deriv q).getD k []).getD 1 0)
    rw [k0, k1]
    · interval_cases i <;>
        simp [Interpolation.quadLinear, Interpolation.quadLinearDeriv, sum_range_succ] <;> constructor <;> ring
    · intro q
      interval_cases i <;>
        simp [Interpolation.quadLinear, Interpolation.quadLinearDeriv, sum_range_succ] <;> ring
    · intro q
      interval_cases i <;>
        simp [Interpolation.quadLinear, Interpolation.quadLinearDeriv, sum_range_succ] <;> ring

theorem perm_sum (E : List (Nat × Nat)) (P : Nat) (g : Nat → ℝ) (h : ∀ Q, E.count (P, Q) = E.count (Q, P)) :
    (E.map fun e => if e.1 = P then g e.2 else 0).sum = (E.map fun e => if e.2 = P then g e.1 else 0).sum := by
  have f1 : ∀ (L : List (Nat × Nat)), (L.map fun e => if e.1 = P then g e.2 else 0).sum =
      (((L.filter fun e => e.1 = P).map Prod.snd).map g).sum := by
    intro L
    induction L with
    | nil => rfl
    | cons e t ih => by_cases he : e.1 = P <;> simp [he, ih]
  have f2 : ∀ (L : List (Nat × Nat)), (L.map fun e => if e.2 = P then g e.1 else 0).sum =
      (((L.filter fun e => e.2 = P).map Prod.fst).map g).sum := by
    intro L
    induction L with
    | nil => rfl
    | cons e t ih => by_cases he : e.2 = P <;> simp [he, ih]
  rw [f1, f2]
  refine List.Perm.sum_eq (List.Perm.map _ (List.perm_iff_count.2 fun Q => ?_))
  have c1 : ∀ (L : List (Nat × Nat)), ((L.filter fun e => e.1 = P).map Prod.snd).count Q = L.count (P, Q) := by
    intro L
    induction L with
    | nil => rfl
    | cons e t ih =>
      obtain ⟨e1, e2⟩ := e
      by_cases he : e1 = P <;> by_cases hq : e2 = Q <;> simp [he, hq, ih, Prod.ext_iff]
  have c2 : ∀ (L : List (Nat × Nat)), ((L.filter fun e => e.2 = P).map Prod.fst).count Q = L.count (Q, P) := by
    intro L
    induction L with
    | nil => rfl
    | cons e t ih =>
      obtain ⟨e1, e2⟩ := e
      by_cases he : e2 = P <;> by_cases hq : e1 = Q <;> simp [he, hq, ih, Prod.ext_iff]
  rw [c1, c2, h]

theorem sum_map_sub' {α : Type} (l : List α) (f g : α → ℝ) :
    (l.map fun x => f x - g x).sum = (l.map f).sum - (l.map g).sum := by
  induction l with
  | nil => simp
  | cons x t ih => simp only [List.map_cons, List.sum_cons, ih]; ring

theorem sum_flatMap (cells : List (Cell × FemElement ℝ)) (l : Cell × FemElement ℝ → List (Nat × Nat)) (g : Nat × Nat → ℝ) :
    ((cells.flatMap l).map g).sum = (cells.map fun x => ((l x).map g).sum).sum := by
  induction cells with
  | nil => rfl
  | cons x t ih => simp [ih]

/-- C88: the integral of the gradient of the shape function of a node inside of a mesh of triangles and quadrilaterals
vanishes. -/
theorem C88_flux_plane {n : Nat} {cells : List (Cell × FemElement ℝ)} {label : Cell × FemElement ℝ → Nat → Nat}
    {num : Nat → Nat → Nat} {pos : Nat → Nat → ℝ} (hc : Connected 2 n cells label num pos) {sc : ℝ}
    (hpoly : ∀ x ∈ cells, Polygon sc x) (pts : Cell × FemElement ℝ → List (ℝ × IpData))
    (hpts : ∀ x ∈ cells, x.1.Points (pts x)) (P : Nat) (hP : Inside cells label P) (b : Nat) (hb : b < 2) :
    flux cells label pts P b = 0 := by
  have hm : ∀ x ∈ cells, x.2.nodes.length = 3 ∨ x.2.nodes.length = 4 := by
    intro x hx
    rw [(hc.body x hx).dof.count]
    rcases hpoly x hx with ⟨h, _⟩ | ⟨h, _⟩ <;> rw [h]
    · exact Or.inl rfl
    · exact Or.inr rfl
  have hcell : ∀ x ∈ cells, ∀ c, (c = 0 ∨ c = 1) → (∑ i ∈ range x.2.nodes.length, if label x i = P then sc *
      (component x.1.coordElement ((i + 1) % x.2.nodes.length) c -
        component x.1.coordElement ((i + (x.2.nodes.length - 1)) % x.2.nodes.length) c) else 0) =
      sc * ((((List.range x.2.nodes.length).map fun i => (label x i, label x ((i + 1) % x.2.nodes.length))).map
        fun e => if e.1 = P then pos e.2 c else 0).sum -
      (((List.range x.2.nodes.length).map fun i => (label x i, label x ((i + 1) % x.2.nodes.length))).map
        fun e => if e.2 = P then pos e.1 c else 0).sum) := by
    intro x hx c hc'
    have hpos := fun i hi => hc.pos_eq x hx i hi c (by omega)
    rcases hm x hx with h | h <;> rw [h] at hpos ⊢
    · simp only [sum_range_succ, range_zero, sum_empty, List.range_succ, List.range_zero]
      norm_num
      simp only [hpos 0 (by omega), hpos 1 (by omega), hpos 2 (by omega)]
      split_ifs <;> ring
    · simp only [sum_range_succ, range_zero, sum_empty, List.range_succ, List.range_zero]
      norm_num
      simp only [hpos 0 (by omega), hpos 1 (by omega), hpos 2 (by omega), hpos 3 (by omega)]
      split_ifs <;> ring
  have hzero : ∀ c, (c = 0 ∨ c = 1) → (cells.map fun x => ∑ i ∈ range x.2.nodes.length, if label x i = P then sc *
      (component x.1.coordElement ((i + 1) % x.2.nodes.length) c -
        component x.1.coordElement ((i + (x.2.nodes.length - 1)) % x.2.nodes.length) c) else 0).sum = 0 := by
    intro c hc'
    rw [List.map_congr_left fun x hx => hcell x hx c hc', List.sum_map_mul_left, sum_map_sub',
      ← sum_flatMap cells _ fun e => if e.1 = P then pos e.2 c else 0,
      ← sum_flatMap cells _ fun e => if e.2 = P then pos e.1 c else 0]
    have := perm_sum (edges cells label) P (fun Q => pos Q c) hP
    rw [edges] at this
    rw [this, sub_self, mul_zero]
  have hflux := fun x hx => polygon_flux (hc.body x hx) (hc.iso x hx) (hpts x hx) (hc.regular x hx _ (hpts x hx))
    (hpoly x hx)
  rw [flux]
  interval_cases b
  · refine Eq.trans ?_ (hzero 1 (Or.inr rfl))
    congr 1
    refine List.map_congr_left fun x hx => sum_congr rfl fun i hi => ?_
    rw [(hflux x hx i (mem_range.1 hi)).1]
  · refine Eq.trans ?_ (Eq.trans (congrArg (fun r : ℝ => (-1) * r) (hzero 0 (Or.inl rfl))) (mul_zero _))
    rw [← List.sum_map_mul_left]
    congr 1
    refine List.map_congr_left fun x hx => ?_
    rw [mul_sum]
    refine sum_congr rfl fun i hi => ?_
    rw [(hflux x hx i (mem_range.1 hi)).2]
    split <;> ring

/-- C88 (patch test in the plane): on a mesh of triangles and quadrilaterals with a homogeneous material the internal
forces of affine displacements vanish at all nodes inside of the mesh. -/
theorem C88_plane (s : DofSizes) (dof n : Nat) (sigma : List ℝ → List ℝ)
    (hsig : ∀ e, (sigma e).length = e.length) (cells : List (Cell × FemElement ℝ))
    (threads : List (List (Cell × FemElement ℝ))) (hp : threads.flatten.Perm cells) (hs : s.size dof = .ok n)
    (label : Cell × FemElement ℝ → Nat → Nat) (num : Nat → Nat → Nat) (pos : Nat → Nat → ℝ)
    (hc : Connected 2 n cells label num pos) (sc : ℝ) (hpoly : ∀ x ∈ cells, Polygon sc x) (t : Nat → ℝ)
    (W : Nat → Nat → ℝ) (hA : Affine 2 cells t W) :
    ∃ v f, assembleVector s dof (momentum dof fun e _ => .ok (sigma e)) threads = .ok v ∧
      v.find? dof = some f ∧ f.length = n ∧ ∀ x ∈ cells, ∀ i < x.2.nodes.length, Inside cells label (label x i) →
        ∀ a < 2, f.getD (num (label x i) a) 0 = 0 := by
  have hex : ∀ x : Cell × FemElement ℝ, ∃ pts, x ∈ cells → x.1.Points pts := by
    intro x
    by_cases hx : x ∈ cells
    · obtain ⟨pts, h⟩ := C77_points (hc.body x hx)
      exact ⟨pts, fun _ => h⟩
    · exact ⟨[], fun h => absurd h hx⟩
  choose pts hpts using hex
  obtain ⟨v, f, h1, h2, h3, h4⟩ := C88_forces s dof 2 n sigma hsig cells threads hp hs label num pos hc t W hA pts hpts
  refine ⟨v, f, h1, h2, h3, fun x hx i hi hin a ha => ?_⟩
  rw [h4 x hx i hi a ha]
  refine sum_eq_zero fun b hb => ?_
  rw [C88_flux_plane hc hpoly pts hpts _ hin b (mem_range.1 hb), mul_zero]

/-! ### Linear tetrahedra -/

/-- The pairs of nodes opposite to node `i` of a tetrahedron, in the direction in which they are seen from node `i`. -/
def link : Nat → List (Nat × Nat)
  | 0 => [(1, 2), (2, 3), (3, 1)]
  | 1 => [(3, 2), (2, 0), (0, 3)]
  | 2 => [(1, 3), (3, 0), (0, 1)]
  | _ => [(2, 1), (1, 0), (0, 2)]

/-- The faces of all tetrahedra: first node of the face, then the other two in the direction of the tetrahedron. -/
def faces (cells : List (Cell × FemElement ℝ)) (label : Cell × FemElement ℝ → Nat → Nat) : List (Nat × Nat × Nat) :=
  cells.flatMap fun x => (List.range 4).flatMap fun i => (link i).map fun e => (label x i, label x e.1, label x e.2)

/-- Node `P` lies inside of the mesh: every face at `P` is shared by tetrahedra on both sides. -/
def InsideSpace (cells : List (Cell × FemElement ℝ)) (label : Cell × FemElement ℝ → Nat → Nat) (P : Nat) : Prop :=
  ∀ Q R, (faces cells label).count (P, Q, R) = (faces cells label).count (P, R, Q)

/-- Component `b` of the cross product of the positions of two nodes. -/
def crossAt (pos : Nat → Nat → ℝ) (b Q R : Nat) : ℝ :=
  match b with
  | 0 => pos Q 1 * pos R 2 - pos Q 2 * pos R 1
  | 1 => pos Q 2 * pos R 0 - pos Q 0 * pos R 2
  | _ => pos Q 0 * pos R 1 - pos Q 1 * pos R 0

theorem crossAt_swap (pos : Nat → Nat → ℝ) (b Q R : Nat) : crossAt pos b R Q = -crossAt pos b Q R := by
  rcases b with _ | _ | b <;> simp only [crossAt] <;> ring

theorem gradient_det3 {n : Nat} {x : Cell × FemElement ℝ} (h : Body 3 n x)
    (hiso : x.2.interp = x.1.coordElement.interp) {pts : List (ℝ × IpData)} (hp : x.1.Points pts) (p : ℝ × IpData)
    (hm : p ∈ pts) (hdet : p.2.jacobian.det ≠ 0) (htet : x.2.interp = Interpolation.tetrahedronLinear) (i : Nat)
    (hi : i < 4) (b : Nat) (hb : b < 3) :
    (gradients x.2 p.2).coef i b * p.2.jacobian.det =
      -((link i).map fun e => crossAt (component x.1.coordElement) b e.1 e.2).sum := by
  obtain ⟨j1, j2, j3⟩ := h.point hp p hm
  have hcount : x.2.nodes.length = x.1.coordElement.nodes.length := by
    rw [h.dof.count, h.coord.count, hiso]
  have h4 : x.1.coordElement.nodes.length = 4 := by rw [h.coord.count, ← hiso, htet]; rfl
  rw [← hiso, htet] at j3
  have hdN : (Interpolation.tetrahedronLinear : Interpolation ℝ).deriv (fun k => p.2.coords.getD k 0) =
    [[-1, -1, -1], [1, 0, 0], [0, 1, 0], [0, 0, 1]] := rfl
  rw [hdN] at j3
  rw [make_square3 _ _ (by simp) (by rw [values_length, h4]; rfl)] at j3
  have j3 := (Res.ok.inj j3).symm
  have hval : ∀ d < 3, ∀ j, Jacobian.calculate 3 (values 3 x.1.coordElement) [[-1, -1, -1], [1, 0, 0], [0, 1, 0], [0, 0, 1]] d j =
      ∑ k ∈ range 4, component x.1.coordElement k d * (([[-1, -1, -1], [1, 0, 0], [0, 1, 0], [0, 0, 1]] : List (List ℝ)).getD k []).getD j 0 := by
    intro d hd' j
    rw [Jacobian.calculate, sum_range_list]
    refine sum_congr rfl fun k hk => ?_
    rw [values_getD (by rw [h4]; exact mem_range.1 hk) hd']
  have hcoef : ∀ b, (gradients x.2 p.2).coef i b = p.2.jacobian.transform [[-1, -1, -1], [1, 0, 0], [0, 1, 0], [0, 0, 1]] i b := by
    intro b
    rw [gradients, htet, hdN]
  rw [hcoef]
  generalize p.2.jacobian = J at j3 hdet
  subst j3
  simp only at hdet ⊢
  simp only [Jacobian.transform, List.range_succ, List.range_zero, List.nil_append, List.cons_append, List.map_cons,
    List.map_nil, List.sum_cons, List.sum_nil, Jacobian.inv3]
  generalize hD : Jacobian.det3 (Jacobian.calculate 3 (values 3 x.1.coordElement) [[-1, -1, -1], [1, 0, 0], [0, 1, 0], [0, 0, 1]]) = D at hdet
  have e : ∀ a b c d e f : ℝ, (a * (b / D) + (c * (d / D) + (e * (f / D) + 0))) * D = a * b + c * d + e * f := by
    intro a b c d e f
    field_simp
    ring
  rw [e]
  clear e hD
  interval_cases b <;> simp only [Jacobian.cofactor3, Nat.reduceAdd, Nat.reduceMod, hval, Nat.ofNat_pos, Nat.one_lt_ofNat, Nat.reduceLT, crossAt] <;>
    interval_cases i <;> simp [sum_range_succ, link] <;> ring

theorem perm_sum3 (E : List (Nat × Nat × Nat)) (P : Nat) (g : Nat → Nat → ℝ) (hg : ∀ Q R, g R Q = -g Q R)
    (h : ∀ Q R, E.count (P, Q, R) = E.count (P, R, Q)) : (E.map fun e => if e.1 = P then g e.2.1 e.2.2 else 0).sum = 0 := by
  have f1 : ∀ (L : List (Nat × Nat × Nat)), (L.map fun e => if e.1 = P then g e.2.1 e.2.2 else 0).sum =
      (((L.filter fun e => e.1 = P).map Prod.snd).map fun q => g q.1 q.2).sum := by
    intro L
    induction L with
    | nil => rfl
    | cons e t ih => by_cases he : e.1 = P <;> simp [he, ih]
  have c1 : ∀ (L : List (Nat × Nat × Nat)) (Q R : Nat),
      ((L.filter fun e => e.1 = P).map Prod.snd).count (Q, R) = L.count (P, Q, R) := by
    intro L Q R
    induction L with
    | nil => rfl
    | cons e t ih =>
      obtain ⟨e1, e2⟩ := e
      by_cases he : e1 = P <;> by_cases hq : e2 = (Q, R) <;> simp [he, hq, ih, Prod.ext_iff]
  rw [f1]
  generalize hF : (E.filter fun e => e.1 = P).map Prod.snd = F
  have hcF : ∀ Q R, F.count (Q, R) = F.count (R, Q) := by
    intro Q R
    rw [← hF, c1, c1, h]
  have hswap : ∀ (L : List (Nat × Nat)) (Q R : Nat), (L.map Prod.swap).count (Q, R) = L.count (R, Q) := by
    intro L Q R
    exact List.count_map_of_injective L Prod.swap Prod.swap_injective (R, Q)
  have hperm : F.Perm (F.map Prod.swap) := List.perm_iff_count.2 fun ⟨Q, R⟩ => by rw [hswap, hcF]
  have hs := (hperm.map fun q => g q.1 q.2).sum_eq
  rw [List.map_map] at hs
  have hn : (F.map ((fun q : Nat × Nat => g q.1 q.2) ∘ Prod.swap)).sum = -(F.map fun q => g q.1 q.2).sum := by
    clear hs hperm hcF hF
    induction F with
    | nil => simp
    | cons q t ih =>
      simp only [List.map_cons, List.sum_cons, ih, Function.comp, Prod.fst_swap, Prod.snd_swap]
      rw [hg]
      ring
  linarith

theorem sum_flatMap' {α β : Type} (cells : List α) (l : α → List β) (g : β → ℝ) :
    ((cells.flatMap l).map g).sum = (cells.map fun x => ((l x).map g).sum).sum := by
  induction cells with
  | nil => rfl
  | cons x t ih => simp [ih]

/-- C88: the integral of the gradient of the shape function of a node inside of a mesh of tetrahedra vanishes. -/
theorem C88_flux_space {n : Nat} {cells : List (Cell × FemElement ℝ)} {label : Cell × FemElement ℝ → Nat → Nat}
    {num : Nat → Nat → Nat} {pos : Nat → Nat → ℝ} (hc : Connected 3 n cells label num pos) {sc : ℝ}
    (htet : ∀ x ∈ cells, x.2.interp = Interpolation.tetrahedronLinear ∧ (x.1.rule.map fun r => r.1).sum = sc)
    (pts : Cell × FemElement ℝ → List (ℝ × IpData)) (hpts : ∀ x ∈ cells, x.1.Points (pts x)) (P : Nat)
    (hP : InsideSpace cells label P) (b : Nat) (hb : b < 3) : flux cells label pts P b = 0 := by
  have hcell : ∀ x ∈ cells, (∑ i ∈ range x.2.nodes.length, if label x i = P then
      ((pts x).map fun p => (gradients x.2 p.2).coef i b * p.2.jacobian.det * p.1).sum else 0) =
      -sc * ((((List.range 4).flatMap fun i => (link i).map fun e => (label x i, label x e.1, label x e.2))).map
        fun e => if e.1 = P then crossAt pos b e.2.1 e.2.2 else 0).sum := by
    intro x hx
    obtain ⟨h1, h2⟩ := htet x hx
    have h4 : x.2.nodes.length = 4 := by rw [(hc.body x hx).dof.count, h1]; rfl
    have hw := points_sum (hc.body x hx) (hpts x hx) fun _ => 1
    simp only [one_mul] at hw
    rw [h2] at hw
    have hpos := hc.pos_eq x hx
    rw [h4] at hpos ⊢
    have hcross : ∀ q < 4, ∀ r < 4, crossAt (component x.1.coordElement) b q r = crossAt pos b (label x q) (label x r) := by
      intro q hq r hr
      rcases b with _ | _ | b <;> simp only [crossAt, hpos q hq, hpos r hr, Nat.ofNat_pos, Nat.one_lt_ofNat, Nat.reduceLT]
    have hterm : ∀ i < 4, ((pts x).map fun p => (gradients x.2 p.2).coef i b * p.2.jacobian.det * p.1).sum =
        -((link i).map fun e => crossAt pos b (label x e.1) (label x e.2)).sum * sc := by
      intro i hi
      rw [← hw, ← List.sum_map_mul_left]
      refine congrArg List.sum (List.map_congr_left fun p hm => ?_)
      rw [gradient_det3 (hc.body x hx) (hc.iso x hx) (hpts x hx) p hm (hc.regular x hx _ (hpts x hx) p hm) h1 i hi b hb]
      congr 3
      refine List.map_congr_left fun e he => ?_
      refine hcross _ ?_ _ ?_ <;> (interval_cases i <;> simp [link] at he <;> rcases he with rfl | rfl | rfl <;> simp)
    rw [sum_flatMap', ← sum_range_list, ← List.sum_map_mul_left]
    refine congrArg List.sum (List.map_congr_left fun i hi => ?_)
    rw [hterm i (List.mem_range.1 hi), List.map_map]
    by_cases hl : label x i = P
    · rw [if_pos hl, neg_mul, neg_mul, mul_comm]
      congr 3
      refine List.map_congr_left fun e _ => ?_
      simp [hl]
    · rw [if_neg hl]
      refine (mul_eq_zero_of_right _ (List.sum_eq_zero fun y hy => ?_)).symm
      obtain ⟨e, _, rfl⟩ := List.mem_map.1 hy
      simp [hl]
  rw [flux, List.map_congr_left hcell, List.sum_map_mul_left,
    ← sum_flatMap' cells _ fun (e : Nat × Nat × Nat) => if e.1 = P then crossAt pos b e.2.1 e.2.2 else 0]
  have := perm_sum3 (faces cells label) P (crossAt pos b) (crossAt_swap pos b) hP
  rw [faces] at this
  rw [this, mul_zero]

/-- C88 (patch test in space): on a mesh of linear tetrahedra with a homogeneous material the internal forces of affine
displacements vanish at all nodes inside of the mesh. -/
theorem C88_space (s : DofSizes) (dof n : Nat) (sigma : List ℝ → List ℝ)
    (hsig : ∀ e, (sigma e).length = e.length) (cells : List (Cell × FemElement ℝ))
    (threads : List (List (Cell × FemElement ℝ))) (hp : threads.flatten.Perm cells) (hs : s.size dof = .ok n)
    (label : Cell × FemElement ℝ → Nat → Nat) (num : Nat → Nat → Nat) (pos : Nat → Nat → ℝ)
    (hc : Connected 3 n cells label num pos) (sc : ℝ)
    (htet : ∀ x ∈ cells, x.2.interp = Interpolation.tetrahedronLinear ∧ (x.1.rule.map fun r => r.1).sum = sc) (t : Nat → ℝ)
    (W : Nat → Nat → ℝ) (hA : Affine 3 cells t W) :
    ∃ v f, assembleVector s dof (momentum dof fun e _ => .ok (sigma e)) threads = .ok v ∧
      v.find? dof = some f ∧ f.length = n ∧ ∀ x ∈ cells, ∀ i < x.2.nodes.length, InsideSpace cells label (label x i) →
        ∀ a < 3, f.getD (num (label x i) a) 0 = 0 := by
  have hex : ∀ x : Cell × FemElement ℝ, ∃ pts, x ∈ cells → x.1.Points pts := by
    intro x
    by_cases hx : x ∈ cells
    · obtain ⟨pts, h⟩ := C77_points (hc.body x hx)
      exact ⟨pts, fun _ => h⟩
    · exact ⟨[], fun h => absurd h hx⟩
  choose pts hpts using hex
  obtain ⟨v, f, h1, h2, h3, h4⟩ := C88_forces s dof 3 n sigma hsig cells threads hp hs label num pos hc t W hA pts hpts
  refine ⟨v, f, h1, h2, h3, fun x hx i hi hin a ha => ?_⟩
  rw [h4 x hx i hi a ha]
  refine sum_eq_zero fun b hb => ?_
  rw [C88_flux_space hc htet pts hpts _ hin b (mem_range.1 hb), mul_zero]

/-! ### Linear trusses -/

theorem gradient_det1 {n : Nat} {x : Cell × FemElement ℝ} (h : Body 1 n x)
    (hiso : x.2.interp = x.1.coordElement.interp) {pts : List (ℝ × IpData)} (hp : x.1.Points pts) (p : ℝ × IpData)
    (hm : p ∈ pts) (hdet : p.2.jacobian.det ≠ 0) (i : Nat) :
    (gradients x.2 p.2).coef i 0 * p.2.jacobian.det =
      ((x.2.interp.deriv fun k => p.2.coords.getD k 0).getD i []).getD 0 0 := by
  obtain ⟨j1, j2, j3⟩ := h.point hp p hm
  have hcount : x.2.nodes.length = x.1.coordElement.nodes.length := by
    rw [h.dof.count, h.coord.count, hiso]
  have hcoef : ∀ b, (gradients x.2 p.2).coef i b =
      p.2.jacobian.transform (x.2.interp.deriv fun k => p.2.coords.getD k 0) i b := fun b => rfl
  rw [hcoef]
  rw [← hiso] at j3
  generalize hdN : x.2.interp.deriv (fun k => p.2.coords.getD k 0) = dN at j3 ⊢
  have hlen : dN.length = x.2.nodes.length := by rw [← hdN, hiso, h.coordUnity.derivLen, hcount, h.coord.count]
  have hpos : 0 < x.2.nodes.length := List.length_pos_iff.2 h.dof.ne
  rw [make_square1 _ _ (by omega) (by rw [values_length, ← hcount, hlen, Nat.mul_div_cancel _ hpos])] at j3
  have j3 := (Res.ok.inj j3).symm
  generalize p.2.jacobian = J at j3 hdet
  subst j3
  simp only at hdet ⊢
  rw [Jacobian.det1] at hdet ⊢
  simp only [Jacobian.transform, List.range_succ, List.range_zero, List.nil_append, List.map_cons,
    List.map_nil, List.sum_cons, List.sum_nil, Jacobian.inv1]
  field_simp
  ring

/-- C88: the integral of the gradient of the shape function of a node of a mesh of linear trusses vanishes if as many trusses
begin as end there. -/
theorem C88_flux_line {n : Nat} {cells : List (Cell × FemElement ℝ)} {label : Cell × FemElement ℝ → Nat → Nat}
    {num : Nat → Nat → Nat} {pos : Nat → Nat → ℝ} (hc : Connected 1 n cells label num pos) {sc : ℝ}
    (hline : ∀ x ∈ cells, x.2.interp = Interpolation.trussLinear ∧ (x.1.rule.map fun r => r.1).sum = sc)
    (pts : Cell × FemElement ℝ → List (ℝ × IpData)) (hpts : ∀ x ∈ cells, x.1.Points (pts x)) (P : Nat)
    (hin : (cells.countP fun y => label y 0 = P) = (cells.countP fun y => label y 1 = P)) :
    flux cells label pts P 0 = 0 := by
  have hcell : ∀ y ∈ cells, (∑ i ∈ range y.2.nodes.length, if label y i = P then
      ((pts y).map fun p => (gradients y.2 p.2).coef i 0 * p.2.jacobian.det * p.1).sum else 0) =
      (1 / 2 * sc) * ((if label y 1 = P then 1 else 0) - (if label y 0 = P then 1 else 0)) := by
    intro y hy
    obtain ⟨g1, g2⟩ := hline y hy
    have h4 : y.2.nodes.length = 2 := by rw [(hc.body y hy).dof.count, g1]; rfl
    have hw := points_sum (hc.body y hy) (hpts y hy) fun _ => 1
    simp only [one_mul] at hw
    rw [g2] at hw
    have hterm : ∀ i, ((pts y).map fun p => (gradients y.2 p.2).coef i 0 * p.2.jacobian.det * p.1).sum =
        (([[-(1 / 2)], [1 / 2]] : List (List ℝ)).getD i []).getD 0 0 * sc := by
      intro i
      rw [← hw, ← List.sum_map_mul_left]
      refine congrArg List.sum (List.map_congr_left fun p hm => ?_)
      rw [gradient_det1 (hc.body y hy) (hc.iso y hy) (hpts y hy) p hm (hc.regular y hy _ (hpts y hy) p hm) i, g1]
      simp [Interpolation.trussLinear, Interpolation.trussLinearDeriv, neg_div]
    rw [h4]
    simp only [sum_range_succ, range_zero, sum_empty, zero_add, hterm]
    simp
    split_ifs <;> ring
  have hcnt : ∀ k, (cells.map fun y => if label y k = P then (1 : ℝ) else 0).sum = (cells.countP fun y => label y k = P) := by
    intro k
    generalize cells = L
    induction L with
    | nil => simp
    | cons y l ih => by_cases hy : label y k = P <;> simp [hy, ih] <;> ring
  rw [flux, List.map_congr_left hcell, List.sum_map_mul_left, sum_map_sub', hcnt, hcnt, hin, sub_self, mul_zero]

/-- C88 (patch test on a line): on a mesh of linear trusses with a homogeneous material the internal forces of affine
displacements vanish at all nodes at which as many trusses begin as end. -/
theorem C88_line (s : DofSizes) (dof n : Nat) (sigma : List ℝ → List ℝ)
    (hsig : ∀ e, (sigma e).length = e.length) (cells : List (Cell × FemElement ℝ))
    (threads : List (List (Cell × FemElement ℝ))) (hp : threads.flatten.Perm cells) (hs : s.size dof = .ok n)
    (label : Cell × FemElement ℝ → Nat → Nat) (num : Nat → Nat → Nat) (pos : Nat → Nat → ℝ)
    (hc : Connected 1 n cells label num pos) (sc : ℝ)
    (hline : ∀ x ∈ cells, x.2.interp = Interpolation.trussLinear ∧ (x.1.rule.map fun r => r.1).sum = sc) (t : Nat → ℝ)
    (W : Nat → Nat → ℝ) (hA : Affine 1 cells t W) :
    ∃ v f, assembleVector s dof (momentum dof fun e _ => .ok (sigma e)) threads = .ok v ∧
      v.find? dof = some f ∧ f.length = n ∧ ∀ x ∈ cells, ∀ i < x.2.nodes.length,
        (cells.countP fun y => label y 0 = label x i) = (cells.countP fun y => label y 1 = label x i) →
        f.getD (num (label x i) 0) 0 = 0 := by
  have hex : ∀ x : Cell × FemElement ℝ, ∃ pts, x ∈ cells → x.1.Points pts := by
    intro x
    by_cases hx : x ∈ cells
    · obtain ⟨pts, h⟩ := C77_points (hc.body x hx)
      exact ⟨pts, fun _ => h⟩
    · exact ⟨[], fun h => absurd h hx⟩
  choose pts hpts using hex
  obtain ⟨v, f, h1, h2, h3, h4⟩ := C88_forces s dof 1 n sigma hsig cells threads hp hs label num pos hc t W hA pts hpts
  refine ⟨v, f, h1, h2, h3, fun x hx i hi hin => ?_⟩
  rw [h4 x hx i hi 0 (by omega)]
  refine sum_eq_zero fun b hb => ?_
  obtain rfl : b = 0 := by simpa using hb
  exact mul_eq_zero_of_right _ (C88_flux_line hc hline pts hpts _ hin)

/-! ### Example: a node inside of three triangles -/

/-- Positions of the nodes. -/
noncomputable def patchPos (P a : Nat) : ℝ :=
  (([[0, 0], [3, 0], [0, 3], [1, 1]] : List (List ℝ)).getD P []).getD a 0

/-- The displacements `x / 10` and `y / 5`. -/
noncomputable def patchNode (P : Nat) : Node ℝ :=
  ⟨[[patchPos P 0 / 10, patchPos P 1 / 5]], [2 * P, 2 * P + 1]⟩

/-- A triangle of the patch. -/
noncomputable def patchCell (p q r : Nat) : Cell × FemElement ℝ :=
  (⟨0, ⟨nodesAt ([p, q, r].map fun P => [patchPos P 0, patchPos P 1]), Interpolation.triangleLinear⟩, [(1 / 2, [1 / 3, 1 / 3])]⟩,
   ⟨[p, q, r].map patchNode, Interpolation.triangleLinear⟩)

noncomputable def patchCells : List (Cell × FemElement ℝ) := [patchCell 0 1 3, patchCell 1 2 3, patchCell 2 0 3]

/-- The node of the mesh from the number of its first component. -/
def patchLabel (x : Cell × FemElement ℝ) (i : Nat) : Nat := number x.2 i 0 / 2

theorem patchCell_ok (p q r : Nat) (hp : p < 4) (hq : q < 4) (hr : r < 4) : Body 2 8 (patchCell p q r) where
  dim1 := by norm_num
  dim3 := by norm_num
  dof := ⟨by simp [patchCell], rfl, by simp [patchCell, patchNode, Node.WF]⟩
  coord := ⟨by simp [patchCell, nodesAt], rfl, by simp [patchCell, nodesAt, Node.ofVector, Node.WF]⟩
  dofDim := rfl
  coordDim := rfl
  dofUnity := C77_types _ (by simp [exactTypes, patchCell])
  coordUnity := C77_types _ (by simp [exactTypes, patchCell])
  numbered := by simp [patchCell, Numbered, patchNode]; omega

theorem patchCell_values (p q r : Nat) (x : Nat) (hx : x < 3) :
    (∀ a < 2, number (patchCell p q r).2 x a = 2 * ([p, q, r].getD x 0) + a) ∧
    (∀ a < 2, component (patchCell p q r).1.coordElement x a = patchPos ([p, q, r].getD x 0) a) ∧
    component (patchCell p q r).2 x 0 = patchPos ([p, q, r].getD x 0) 0 / 10 ∧
    component (patchCell p q r).2 x 1 = patchPos ([p, q, r].getD x 0) 1 / 5 := by
  refine ⟨fun a ha => ?_, fun a ha => ?_, ?_, ?_⟩
  · interval_cases x <;> interval_cases a <;> simp [patchCell, number, patchNode] <;> omega
  · interval_cases x <;> interval_cases a <;> simp [patchCell, component, nodesAt, Node.ofVector]
  · interval_cases x <;> simp [patchCell, component, patchNode]
  · interval_cases x <;> simp [patchCell, component, patchNode]

theorem patchCell_label (p q r : Nat) (i : Nat) (hi : i < 3) : patchLabel (patchCell p q r) i = [p, q, r].getD i 0 := by
  rw [patchLabel, (patchCell_values p q r i hi).1 0 (by omega)]
  omega

theorem patchCell_regular (p q r : Nat) (hb : Body 2 8 (patchCell p q r)) (hd : (patchPos q 0 - patchPos p 0) * (patchPos r 1 - patchPos p 1)
    - (patchPos r 0 - patchPos p 0) * (patchPos q 1 - patchPos p 1) ≠ 0) (pts : List (ℝ × IpData))
    (hp : (patchCell p q r).1.Points pts) (x : ℝ × IpData) (hm : x ∈ pts) : x.2.jacobian.det ≠ 0 := by
  obtain ⟨_, _, h⟩ := hb.point hp x hm
  have hv : values 2 (patchCell p q r).1.coordElement =
      [patchPos p 0, patchPos p 1, patchPos q 0, patchPos q 1, patchPos r 0, patchPos r 1] := by
    simp [values, patchCell, nodesAt, Node.ofVector, component, List.range_succ]
  rw [hv, make_square2 _ _ (by simp [patchCell, Interpolation.triangleLinear, Interpolation.triangleLinearDeriv])
    (by simp [patchCell, Interpolation.triangleLinear, Interpolation.triangleLinearDeriv])] at h
  rw [← Res.ok.inj h]
  intro h0
  refine hd ?_
  rw [← h0]
  simp [patchCell, Interpolation.triangleLinear, Interpolation.triangleLinearDeriv, Jacobian.det2,
    Jacobian.calculate, List.range_succ]
  ring

theorem patch_mem {x : Cell × FemElement ℝ} (hx : x ∈ patchCells) : ∃ p q r, x = patchCell p q r ∧ p < 4 ∧ q < 4 ∧ r < 4 ∧
    (patchPos q 0 - patchPos p 0) * (patchPos r 1 - patchPos p 1)
    - (patchPos r 0 - patchPos p 0) * (patchPos q 1 - patchPos p 1) ≠ 0 := by
  simp only [patchCells, List.mem_cons, List.not_mem_nil, or_false] at hx
  rcases hx with rfl | rfl | rfl
  · exact ⟨0, 1, 3, rfl, by norm_num, by norm_num, by norm_num, by norm_num [patchPos]⟩
  · exact ⟨1, 2, 3, rfl, by norm_num, by norm_num, by norm_num, by norm_num [patchPos]⟩
  · exact ⟨2, 0, 3, rfl, by norm_num, by norm_num, by norm_num, by norm_num [patchPos]⟩

theorem patch_connected : Connected 2 8 patchCells patchLabel (fun P a => 2 * P + a) patchPos where
  body := by
    intro x hx
    obtain ⟨p, q, r, rfl, hp, hq, hr, _⟩ := patch_mem hx
    exact patchCell_ok p q r hp hq hr
  iso := by
    intro x hx
    obtain ⟨p, q, r, rfl, _⟩ := patch_mem hx
    rfl
  number_eq := by
    intro x hx i hi a ha
    obtain ⟨p, q, r, rfl, _⟩ := patch_mem hx
    rw [patchCell_label p q r i hi, (patchCell_values p q r i hi).1 a ha]
  pos_eq := by
    intro x hx i hi a ha
    obtain ⟨p, q, r, rfl, _⟩ := patch_mem hx
    rw [patchCell_label p q r i hi, (patchCell_values p q r i hi).2.1 a ha]
  inj := by
    intro x hx i hi y hy j hj a ha b hb h
    omega
  regular := by
    intro x hx pts hp p hm
    obtain ⟨p, q, r, rfl, h1, h2, h3, h⟩ := patch_mem hx
    exact patchCell_regular p q r (patchCell_ok p q r h1 h2 h3) h pts hp _ hm

/-- The patch meets the hypotheses of `C88_plane`: node 3 lies inside. -/
example : Connected 2 8 patchCells patchLabel (fun P a => 2 * P + a) patchPos ∧
    (∀ x ∈ patchCells, Polygon (1 / 2) x) ∧
    Affine 2 patchCells (fun _ => 0) (fun a b => if a = b then (if a = 0 then 1 / 10 else 1 / 5) else 0) ∧
    Inside patchCells patchLabel 3 ∧ ¬ Inside patchCells patchLabel 0 := by
  have hE : edges patchCells patchLabel = [(0, 1), (1, 3), (3, 0), (1, 2), (2, 3), (3, 1), (2, 0), (0, 3), (3, 2)] := by
    have hl : ∀ p q r, (patchCell p q r).2.nodes.length = 3 := fun _ _ _ => rfl
    simp [edges, patchCells, hl, List.range_succ, patchCell_label]
  refine ⟨patch_connected, ?_, ?_, ?_, ?_⟩
  · intro x hx
    obtain ⟨p, q, r, rfl, _⟩ := patch_mem hx
    exact Or.inl ⟨rfl, by simp [patchCell]⟩
  · intro x hx i hi a ha
    obtain ⟨p, q, r, rfl, _⟩ := patch_mem hx
    obtain ⟨_, h2, h3, h4⟩ := patchCell_values p q r i hi
    interval_cases a
    · rw [h3, sum_range_succ, sum_range_one, h2 0 (by omega)]
      simp
      ring
    · rw [h4, sum_range_succ, sum_range_one, h2 1 (by omega)]
      simp
      ring
  · intro Q
    rw [hE]
    by_cases hQ : Q < 4
    · interval_cases Q <;> decide
    · rw [List.count_eq_zero_of_not_mem, List.count_eq_zero_of_not_mem] <;> simp <;> omega
  · intro h
    have := h 1
    rw [hE] at this
    exact absurd this (by decide)

/-! ### Example: a node inside of four tetrahedra -/

/-- Positions of the nodes. -/
noncomputable def tetPos (P a : Nat) : ℝ :=
  (([[0, 0, 0], [4, 0, 0], [0, 4, 0], [0, 0, 4], [1, 1, 1]] : List (List ℝ)).getD P []).getD a 0

/-- The displacements `y / 10`, 0 and 0. -/
noncomputable def tetNode (P : Nat) : Node ℝ :=
  ⟨[[tetPos P 1 / 10, 0, 0]], [3 * P, 3 * P + 1, 3 * P + 2]⟩

/-- A tetrahedron of the patch. -/
noncomputable def tetCell (p q r t : Nat) : Cell × FemElement ℝ :=
  (⟨0, ⟨nodesAt ([p, q, r, t].map fun P => [tetPos P 0, tetPos P 1, tetPos P 2]), Interpolation.tetrahedronLinear⟩,
    [(1 / 6, [1 / 4, 1 / 4, 1 / 4])]⟩, ⟨[p, q, r, t].map tetNode, Interpolation.tetrahedronLinear⟩)

noncomputable def tetCells : List (Cell × FemElement ℝ) := [tetCell 4 1 2 3, tetCell 0 4 2 3, tetCell 0 1 4 3, tetCell 0 1 2 4]

/-- The node of the mesh from the number of its first component. -/
def tetLabel (x : Cell × FemElement ℝ) (i : Nat) : Nat := number x.2 i 0 / 3

theorem tetCell_ok (p q r t : Nat) (hp : p < 5) (hq : q < 5) (hr : r < 5) (ht : t < 5) : Body 3 15 (tetCell p q r t) where
  dim1 := by norm_num
  dim3 := by norm_num
  dof := ⟨by simp [tetCell], rfl, by simp [tetCell, tetNode, Node.WF]⟩
  coord := ⟨by simp [tetCell, nodesAt], rfl, by simp [tetCell, nodesAt, Node.ofVector, Node.WF]⟩
  dofDim := rfl
  coordDim := rfl
  dofUnity := C77_types _ (by simp [exactTypes, tetCell])
  coordUnity := C77_types _ (by simp [exactTypes, tetCell])
  numbered := by simp [tetCell, Numbered, tetNode]; omega

theorem tetCell_values (p q r t : Nat) (x : Nat) (hx : x < 4) :
    (∀ a < 3, number (tetCell p q r t).2 x a = 3 * ([p, q, r, t].getD x 0) + a) ∧
    (∀ a < 3, component (tetCell p q r t).1.coordElement x a = tetPos ([p, q, r, t].getD x 0) a) ∧
    component (tetCell p q r t).2 x 0 = tetPos ([p, q, r, t].getD x 0) 1 / 10 ∧
    component (tetCell p q r t).2 x 1 = 0 ∧ component (tetCell p q r t).2 x 2 = 0 := by
  refine ⟨fun a ha => ?_, fun a ha => ?_, ?_, ?_, ?_⟩
  · interval_cases x <;> interval_cases a <;> simp [tetCell, number, tetNode] <;> omega
  · interval_cases x <;> interval_cases a <;> simp [tetCell, component, nodesAt, Node.ofVector]
  · interval_cases x <;> simp [tetCell, component, tetNode]
  · interval_cases x <;> simp [tetCell, component, tetNode]
  · interval_cases x <;> simp [tetCell, component, tetNode]

theorem tetCell_label (p q r t : Nat) (i : Nat) (hi : i < 4) : tetLabel (tetCell p q r t) i = [p, q, r, t].getD i 0 := by
  rw [tetLabel, (tetCell_values p q r t i hi).1 0 (by omega)]
  omega

theorem tetCell_regular (p q r t : Nat) (hb : Body 3 15 (tetCell p q r t))
    (hd : Jacobian.det3 (fun a j => [tetPos q a, tetPos r a, tetPos t a].getD j 0 - tetPos p a) ≠ 0)
    (pts : List (ℝ × IpData))
    (hp : (tetCell p q r t).1.Points pts) (x : ℝ × IpData) (hm : x ∈ pts) : x.2.jacobian.det ≠ 0 := by
  obtain ⟨_, _, h⟩ := hb.point hp x hm
  have hv : values 3 (tetCell p q r t).1.coordElement =
      [tetPos p 0, tetPos p 1, tetPos p 2, tetPos q 0, tetPos q 1, tetPos q 2, tetPos r 0, tetPos r 1, tetPos r 2,
        tetPos t 0, tetPos t 1, tetPos t 2] := by
    simp [values, tetCell, nodesAt, Node.ofVector, component, List.range_succ]
  rw [hv, make_square3 _ _ (by simp [tetCell, Interpolation.tetrahedronLinear, Interpolation.tetrahedronLinearDeriv])
    (by simp [tetCell, Interpolation.tetrahedronLinear, Interpolation.tetrahedronLinearDeriv])] at h
  rw [← Res.ok.inj h]
  intro h0
  refine hd ?_
  rw [← h0]
  simp [tetCell, Interpolation.tetrahedronLinear, Interpolation.tetrahedronLinearDeriv, Jacobian.det3, Jacobian.brute3,
    Jacobian.calculate, List.range_succ]
  ring

theorem tet_mem {x : Cell × FemElement ℝ} (hx : x ∈ tetCells) : ∃ p q r t, x = tetCell p q r t ∧ p < 5 ∧ q < 5 ∧ r < 5 ∧
    t < 5 ∧ Jacobian.det3 (fun a j => [tetPos q a, tetPos r a, tetPos t a].getD j 0 - tetPos p a) ≠ 0 := by
  simp only [tetCells, List.mem_cons, List.not_mem_nil, or_false] at hx
  rcases hx with rfl | rfl | rfl | rfl
  · exact ⟨4, 1, 2, 3, rfl, by norm_num, by norm_num, by norm_num, by norm_num, by norm_num [tetPos, Jacobian.det3, Jacobian.brute3]⟩
  · exact ⟨0, 4, 2, 3, rfl, by norm_num, by norm_num, by norm_num, by norm_num, by norm_num [tetPos, Jacobian.det3, Jacobian.brute3]⟩
  · exact ⟨0, 1, 4, 3, rfl, by norm_num, by norm_num, by norm_num, by norm_num, by norm_num [tetPos, Jacobian.det3, Jacobian.brute3]⟩
  · exact ⟨0, 1, 2, 4, rfl, by norm_num, by norm_num, by norm_num, by norm_num, by norm_num [tetPos, Jacobian.det3, Jacobian.brute3]⟩

theorem tet_connected : Connected 3 15 tetCells tetLabel (fun P a => 3 * P + a) tetPos where
  body := by
    intro x hx
    obtain ⟨p, q, r, t, rfl, hp, hq, hr, ht, _⟩ := tet_mem hx
    exact tetCell_ok p q r t hp hq hr ht
  iso := by
    intro x hx
    obtain ⟨p, q, r, t, rfl, _⟩ := tet_mem hx
    rfl
  number_eq := by
    intro x hx i hi a ha
    obtain ⟨p, q, r, t, rfl, _⟩ := tet_mem hx
    rw [tetCell_label p q r t i hi, (tetCell_values p q r t i hi).1 a ha]
  pos_eq := by
    intro x hx i hi a ha
    obtain ⟨p, q, r, t, rfl, _⟩ := tet_mem hx
    rw [tetCell_label p q r t i hi, (tetCell_values p q r t i hi).2.1 a ha]
  inj := by
    intro x hx i hi y hy j hj a ha b hb h
    omega
  regular := by
    intro x hx pts hp p hm
    obtain ⟨p, q, r, t, rfl, h1, h2, h3, h4, h⟩ := tet_mem hx
    exact tetCell_regular p q r t (tetCell_ok p q r t h1 h2 h3 h4) h pts hp _ hm

/-- The patch of tetrahedra meets the hypotheses of `C88_space`: node 4 lies inside, node 0 does not. -/
example : Connected 3 15 tetCells tetLabel (fun P a => 3 * P + a) tetPos ∧
    (∀ x ∈ tetCells, x.2.interp = Interpolation.tetrahedronLinear ∧ (x.1.rule.map fun r => r.1).sum = 1 / 6) ∧
    Affine 3 tetCells (fun _ => 0) (fun a b => if a = 0 ∧ b = 1 then 1 / 10 else 0) ∧
    InsideSpace tetCells tetLabel 4 ∧ ¬ InsideSpace tetCells tetLabel 0 := by
  have hE : faces tetCells tetLabel = [[4, 1, 2, 3], [0, 4, 2, 3], [0, 1, 4, 3], [0, 1, 2, 4]].flatMap fun l =>
      (List.range 4).flatMap fun i => (link i).map fun e => (l.getD i 0, l.getD e.1 0, l.getD e.2 0) := by
    simp [faces, tetCells, List.range_succ, tetCell_label, link]
  refine ⟨tet_connected, ?_, ?_, ?_, ?_⟩
  · intro x hx
    obtain ⟨p, q, r, t, rfl, _⟩ := tet_mem hx
    exact ⟨rfl, by simp [tetCell]⟩
  · intro x hx i hi a ha
    obtain ⟨p, q, r, t, rfl, _⟩ := tet_mem hx
    obtain ⟨_, h2, h3, h4, h5⟩ := tetCell_values p q r t i hi
    simp only [sum_range_succ, range_zero, sum_empty, h2 0 (by omega), h2 1 (by omega), h2 2 (by omega)]
    interval_cases a
    · rw [h3]
      simp
      ring
    · rw [h4]
      simp
    · rw [h5]
      simp
  · intro Q R
    rw [hE]
    by_cases hQ : Q < 5
    · by_cases hR : R < 5
      · interval_cases Q <;> interval_cases R <;> decide
      · rw [List.count_eq_zero_of_not_mem, List.count_eq_zero_of_not_mem] <;> simp [List.range_succ, link] <;> omega
    · rw [List.count_eq_zero_of_not_mem, List.count_eq_zero_of_not_mem] <;> simp [List.range_succ, link] <;> omega
  · intro h
    have := h 1 2
    rw [hE] at this
    exact absurd this (by decide)

/-! ### Example: two trusses -/

/-- A truss between the positions `p` and `p + 1`, with displacements `x / 10`. -/
noncomputable def trussCell (p : Nat) : Cell × FemElement ℝ :=
  (⟨0, ⟨nodesAt [[(p : ℝ)], [(p : ℝ) + 1]], Interpolation.trussLinear⟩, [(2, [0])]⟩,
   ⟨[⟨[[(p : ℝ) / 10]], [p]⟩, ⟨[[((p : ℝ) + 1) / 10]], [p + 1]⟩], Interpolation.trussLinear⟩)

theorem trussCell_ok (p : Nat) (hp : p < 2) : Body 1 3 (trussCell p) where
  dim1 := by norm_num
  dim3 := by norm_num
  dof := ⟨by simp [trussCell], rfl, by simp [trussCell, Node.WF]⟩
  coord := ⟨by simp [trussCell, nodesAt], rfl, by simp [trussCell, nodesAt, Node.ofVector, Node.WF]⟩
  dofDim := rfl
  coordDim := rfl
  dofUnity := C77_types _ (by simp [exactTypes, trussCell])
  coordUnity := C77_types _ (by simp [exactTypes, trussCell])
  numbered := by simp [trussCell, Numbered]; omega

theorem truss_connected : Connected 1 3 [trussCell 0, trussCell 1] (fun x i => number x.2 i 0) (fun P _ => P)
    (fun P _ => P) where
  body := by
    intro x hx
    simp only [List.mem_cons, List.not_mem_nil, or_false] at hx
    rcases hx with rfl | rfl
    · exact trussCell_ok 0 (by norm_num)
    · exact trussCell_ok 1 (by norm_num)
  iso := by
    intro x hx
    simp only [List.mem_cons, List.not_mem_nil, or_false] at hx
    rcases hx with rfl | rfl <;> rfl
  number_eq := by
    intro x hx i hi a ha
    obtain rfl : a = 0 := by omega
    rfl
  pos_eq := by
    intro x hx i hi a ha
    obtain rfl : a = 0 := by omega
    simp only [List.mem_cons, List.not_mem_nil, or_false] at hx
    rcases hx with rfl | rfl
    all_goals
      have hi : i < 2 := hi
      interval_cases i <;> norm_num [trussCell, component, nodesAt, Node.ofVector, number]
    rfl
  inj := by
    intro x hx i hi y hy j hj a ha b hb h
    exact ⟨h, by omega⟩
  regular := by
    intro x hx pts hp p hm
    simp only [List.mem_cons, List.not_mem_nil, or_false] at hx
    obtain ⟨k, hk, rfl⟩ : ∃ k, k < 2 ∧ x = trussCell k := by
      rcases hx with rfl | rfl
      · exact ⟨0, by norm_num, rfl⟩
      · exact ⟨1, by norm_num, rfl⟩
    obtain ⟨_, _, h⟩ := (trussCell_ok k hk).point hp p hm
    have hv : values 1 (trussCell k).1.coordElement = [(k : ℝ), (k : ℝ) + 1] := by
      simp [values, trussCell, nodesAt, Node.ofVector, component, List.range_succ]
    rw [hv, make_square1 _ _ (by simp [trussCell, Interpolation.trussLinear, Interpolation.trussLinearDeriv])
      (by simp [trussCell, Interpolation.trussLinear, Interpolation.trussLinearDeriv])] at h
    rw [← Res.ok.inj h]
    simp [trussCell, Interpolation.trussLinear, Interpolation.trussLinearDeriv, Jacobian.det1, Jacobian.calculate,
      List.range_succ]
    intro h0
    have : (0 : ℝ) = 1 / 2 := by linarith
    norm_num at this

/-- Two trusses meet the hypotheses of `C88_line`; the node between them is the second of one and the first of the other. -/
example : Connected 1 3 [trussCell 0, trussCell 1] (fun x i => number x.2 i 0) (fun P _ => P) (fun P _ => P) ∧
    (∀ x ∈ [trussCell 0, trussCell 1], x.2.interp = Interpolation.trussLinear ∧ (x.1.rule.map fun r => r.1).sum = 2) ∧
    Affine 1 [trussCell 0, trussCell 1] (fun _ => 0) (fun _ _ => 1 / 10) ∧
    ([trussCell 0, trussCell 1].countP fun y => number y.2 0 0 = number (trussCell 0).2 1 0) =
      ([trussCell 0, trussCell 1].countP fun y => number y.2 1 0 = number (trussCell 0).2 1 0) := by
  refine ⟨truss_connected, ?_, ?_, ?_⟩
  · intro x hx
    simp only [List.mem_cons, List.not_mem_nil, or_false] at hx
    rcases hx with rfl | rfl
    · exact ⟨rfl, by simp [trussCell]⟩
    · exact ⟨rfl, by simp [trussCell]⟩
  · intro x hx i hi a ha
    obtain rfl : a = 0 := by omega
    simp only [List.mem_cons, List.not_mem_nil, or_false] at hx
    rcases hx with rfl | rfl
    all_goals
      have hi : i < 2 := hi
      interval_cases i <;> norm_num [trussCell, component, nodesAt, Node.ofVector]
  · simp [trussCell, number]

end Balance

end NuTo
