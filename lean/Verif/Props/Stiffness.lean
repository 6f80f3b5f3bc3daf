/-
C95: the assembled stiffness matrix is the second derivative of the strain energy: symmetric, semidefinite, blind to
rigid motions and consistent with the internal forces.
-/
import Verif.Model.Stiffness
import Verif.Props.Totals
import Verif.Props.Elastic
import Mathlib.Tactic.Positivity

namespace NuTo

open Assembly Finset

namespace Balance

/-! ### Specification -/

/-- `a · D b` -/
def bilinear (D : DMat ℝ) (a b : List ℝ) : ℝ :=
  ∑ i ∈ range a.length, ∑ j ∈ range b.length, a.getD i 0 * D.coef i j * b.getD j 0

/-- `D b` -/
def apply (D : DMat ℝ) (b : List ℝ) : List ℝ :=
  (List.range b.length).map fun i => ∑ j ∈ range b.length, D.coef i j * b.getD j 0

/-- Number of strain components. -/
def voigtSize (dim : Nat) : Nat := if dim = 1 then 1 else if dim = 2 then 3 else 6

theorem strains_length (dim : Nat) (h1 : 1 ≤ dim) (h3 : dim ≤ 3) (G : DMat ℝ) (u : List ℝ) :
    (strains dim G u).length = voigtSize dim := by
  interval_cases dim <;> rfl

/-! ### Integration and assembly -/

/-- Integration and assembly of a matrix function: the form of the assembled matrix is the sum over all integration
points of the forms of the local matrices. -/
theorem assembled2_points (s : DofSizes) (dof dim n : Nat) (cells : List (Cell × FemElement ℝ))
    (threads : List (List (Cell × FemElement ℝ))) (hp : threads.flatten.Perm cells) (hs : s.size dof = .ok n)
    (f : FemElement ℝ → IpData → Res (DofDMat ℝ)) (M : FemElement ℝ → IpData → DMat ℝ)
    (pts : Cell × FemElement ℝ → List (ℝ × IpData))
    (hc : ∀ x ∈ cells, Nodes dim x.2 ∧ Numbered n x.2 ∧ x.1.Points (pts x) ∧
      ∀ p ∈ pts x, f x.2 p.2 = .ok [(toLex (dof, dof), M x.2 p.2)] ∧ (M x.2 p.2).rows = dim * x.2.nodes.length ∧
        (M x.2 p.2).cols = dim * x.2.nodes.length) :
    ∃ h m, assembleMatrix s dof f threads = .ok h ∧ h.find? (toLex (dof, dof)) = some m ∧
      m.rows = n ∧ m.cols = n ∧ ∀ R S : Nat → ℝ, ∑ i ∈ range n, ∑ j ∈ range n, R i * m.entry i j * S j =
        (cells.map fun x => ((pts x).map fun p =>
          bilinear (M x.2 p.2) (restrict dim x.2 R) (restrict dim x.2 S) * p.2.jacobian.det * p.1).sum).sum := by
  have hcell : ∀ x ∈ cells, ∃ V, matCell dof f x = .ok V ∧ MatCell.Fits V [dof] (fun _ => n) ∧
      ∀ R S : Nat → ℝ, ∑ i ∈ range n, ∑ j ∈ range n, R i * MatCell.adds V dof dof i j * S j =
        ((pts x).map fun p =>
          bilinear (M x.2 p.2) (restrict dim x.2 R) (restrict dim x.2 S) * p.2.jacobian.det * p.1).sum := by
    intro x hx
    obtain ⟨k1, k2, k3, k4⟩ := hc x hx
    obtain ⟨r, r1, r2, r3⟩ := matrix_cell x.1 (pts x) k3 dof (dim * x.2.nodes.length) (f x.2) (M x.2)
      (fun p hp => (k4 p hp).1) (fun p hp => (k4 p hp).2)
    obtain ⟨_, nums, n1, n2, n3, n4⟩ := k1.read
    have n5 := n4 n k2
    refine ⟨⟨r, fun d => if d = dof then nums else []⟩, ?_, ?_, ?_⟩
    · rw [matCell, r1, Res.bind_ok', n1, Res.bind_ok']
    · intro I hI J hJ h1 _
      obtain rfl := List.mem_singleton.1 hI
      obtain rfl := List.mem_singleton.1 hJ
      obtain ⟨k, hk, _⟩ := (mem_dofTypes2 _ _).1 h1
      obtain ⟨m, hm⟩ := Option.isSome_iff_exists.1 (OMap.find?_isSome_iff.2 hk)
      obtain ⟨rfl, m1, m2⟩ := r2 k m hm
      dsimp only
      rw [if_pos rfl]
      exact ⟨m, hm, ⟨n5, by rw [n2, m1]⟩, ⟨n5, by rw [n2, m2]⟩⟩
    · intro R S
      rw [adds2_sum r dof n _ nums R S n5 n2]
      have hR : ∀ (R : Nat → ℝ), ∀ k < dim * x.2.nodes.length, R (nums.getD k 0).toNat = (restrict dim x.2 R).getD k 0 := by
        intro R k hk
        rw [n3 k hk, restrict, List.getD_eq_getElem _ _ (by simpa using hk)]
        simp only [List.getElem_map, List.getElem_range]
      calc _ = ∑ k ∈ range (dim * x.2.nodes.length), ∑ l ∈ range (dim * x.2.nodes.length), ((pts x).map fun p =>
            (restrict dim x.2 R).getD k 0 * (M x.2 p.2).coef k l * (restrict dim x.2 S).getD l 0 *
              p.2.jacobian.det * p.1).sum := by
            refine sum_congr rfl fun k hk => sum_congr rfl fun l hl => ?_
            rw [hR R k (mem_range.1 hk), hR S l (mem_range.1 hl), r3, ← List.sum_map_mul_left,
              ← List.sum_map_mul_right]
            congr 1
            exact List.map_congr_left fun p _ => by ring
        _ = _ := by
            simp only [list_sum_range]
            congr 1
            refine List.map_congr_left fun p _ => ?_
            simp only [bilinear, restrict_length, sum_mul]
  have : Inhabited (MatCell ℝ) := ⟨⟨[], fun _ => []⟩⟩
  choose! V hV1 hV2 hV3 using hcell
  obtain ⟨h, m, h1, h2, h3, h4, h5⟩ := assembled2 s dof n cells threads hp hs _ V hV1 hV2
  refine ⟨h, m, h1, h2, h3, h4, fun R S => ?_⟩
  rw [h5 R S]
  congr 1
  exact List.map_congr_left fun c hc => hV3 c hc R S

theorem sandwich (B D : DMat ℝ) (hr : D.rows = B.rows) (hc : D.cols = B.rows) :
    ∃ BD k, B.transpose.mul D = .ok BD ∧ BD.mul B = .ok k ∧ k.rows = B.cols ∧ k.cols = B.cols ∧
      ∀ r s : List ℝ, r.length = B.cols → s.length = B.cols → ∀ er es : List ℝ, B.mulVec r = .ok er →
        B.mulVec s = .ok es → bilinear k r s = bilinear D er es := by
  refine ⟨⟨B.cols, D.cols, fun i j => ((List.range B.rows).map fun (k : Nat) => B.coef k i * D.coef k j).sum⟩,
    ⟨B.cols, B.cols, fun i j => ((List.range D.cols).map fun (k : Nat) =>
      ((List.range B.rows).map fun (l : Nat) => B.coef l i * D.coef l k).sum * B.coef k j).sum⟩,
    by rw [DMat.mul, Res.require, if_pos (show B.transpose.cols = D.rows from hr.symm)]; rfl,
    by rw [DMat.mul, Res.require, if_pos (show D.cols = B.rows from hc)], rfl, rfl, ?_⟩
  intro r s hr' hs' er es h1 h2
  rw [DMat.mulVec, Res.require, if_pos hr'.symm] at h1
  rw [DMat.mulVec, Res.require, if_pos hs'.symm] at h2
  have hval : ∀ (r e : List ℝ), Res.ok ((List.range B.rows).map fun i =>
      ((List.range B.cols).map fun j => B.coef i j * r.getD j 0).sum) = Res.ok e →
      e.length = B.rows ∧ ∀ i < B.rows, e.getD i 0 = ∑ j ∈ range B.cols, B.coef i j * r.getD j 0 := by
    intro r e h
    rw [← Res.ok.inj h]
    refine ⟨by simp, fun i hi => ?_⟩
    rw [List.getD_eq_getElem _ _ (by simpa using hi)]
    simp only [List.getElem_map, List.getElem_range]
    rw [sum_range_list]
  obtain ⟨l1, v1⟩ := hval _ _ h1
  obtain ⟨l2, v2⟩ := hval _ _ h2
  rw [bilinear, bilinear, l1, l2, hr', hs']
  calc _ = ∑ k ∈ range B.cols, ∑ l ∈ range B.cols, ∑ j ∈ range B.rows, ∑ i ∈ range B.rows,
        (B.coef i k * r.getD k 0) * D.coef i j * (B.coef j l * s.getD l 0) := by
        refine sum_congr rfl fun k _ => sum_congr rfl fun l _ => ?_
        dsimp only
        rw [sum_range_list, hc, mul_sum, sum_mul]
        refine sum_congr rfl fun j _ => ?_
        rw [sum_range_list, sum_mul, mul_sum, sum_mul]
        exact sum_congr rfl fun i _ => by ring
    _ = ∑ i ∈ range B.rows, ∑ j ∈ range B.rows, ∑ k ∈ range B.cols, ∑ l ∈ range B.cols,
        (B.coef i k * r.getD k 0) * D.coef i j * (B.coef j l * s.getD l 0) := by
        rw [sum_comm (s := range B.rows) (t := range B.rows)]
        calc _ = ∑ k ∈ range B.cols, ∑ j ∈ range B.rows, ∑ l ∈ range B.cols, ∑ i ∈ range B.rows,
              (B.coef i k * r.getD k 0) * D.coef i j * (B.coef j l * s.getD l 0) :=
              sum_congr rfl fun k _ => sum_comm
          _ = ∑ j ∈ range B.rows, ∑ k ∈ range B.cols, ∑ l ∈ range B.cols, ∑ i ∈ range B.rows,
              (B.coef i k * r.getD k 0) * D.coef i j * (B.coef j l * s.getD l 0) := sum_comm
          _ = ∑ j ∈ range B.rows, ∑ k ∈ range B.cols, ∑ i ∈ range B.rows, ∑ l ∈ range B.cols,
              (B.coef i k * r.getD k 0) * D.coef i j * (B.coef j l * s.getD l 0) :=
              sum_congr rfl fun j _ => sum_congr rfl fun k _ => sum_comm
          _ = _ := sum_congr rfl fun j _ => sum_comm
    _ = _ := by
        refine sum_congr rfl fun i hi => sum_congr rfl fun j hj => ?_
        rw [v1 i (mem_range.1 hi), v2 j (mem_range.1 hj), sum_mul, sum_mul_sum]

/-- C95: at an integration point the form of the local stiffness matrix is the form of the tangent on the strains. -/
theorem C95_point (dof dim n : Nat) (T : List ℝ → IpData → DMat ℝ)
    (hT : ∀ e d, e.length = voigtSize dim → (T e d).rows = e.length ∧ (T e d).cols = e.length)
    {x : Cell × FemElement ℝ} (h : Body dim n x) {pts : List (ℝ × IpData)} (hp : x.1.Points pts) (p : ℝ × IpData)
    (hm : p ∈ pts) :
    ∃ k, stiffness dof (fun e d => .ok (T e d)) x.2 p.2 = .ok [(toLex (dof, dof), k)] ∧
      k.rows = dim * x.2.nodes.length ∧ k.cols = dim * x.2.nodes.length ∧
      ∀ R S : Nat → ℝ, bilinear k (restrict dim x.2 R) (restrict dim x.2 S) =
        bilinear (T (strains dim (gradients x.2 p.2) (values dim x.2)) p.2)
          (strains dim (gradients x.2 p.2) (restrict dim x.2 R))
          (strains dim (gradients x.2 p.2) (restrict dim x.2 S)) := by
  obtain ⟨j1, j2, _⟩ := h.point hp p hm
  obtain ⟨B, b1, b2, b3⟩ := strain_ok dim h.dim1 h.dim3 (gradients x.2 p.2) j1
  have hrows : (gradients x.2 p.2).rows = x.2.nodes.length := h.dof.count.symm
  rw [hrows] at b2 b3
  have hu := b3 (values dim x.2) (values_length _ _)
  have hBr : B.rows = (strains dim (gradients x.2 p.2) (values dim x.2)).length := by
    rw [DMat.mulVec, Res.require, if_pos (by rw [b2, values_length])] at hu
    rw [← Res.ok.inj hu]
    simp
  obtain ⟨t1, t2⟩ := hT (strains dim (gradients x.2 p.2) (values dim x.2)) p.2
    (strains_length dim h.dim1 h.dim3 _ _)
  obtain ⟨BD, k, k1, k2, k3, k4, k5⟩ := sandwich B (T (strains dim (gradients x.2 p.2) (values dim x.2)) p.2)
    (t1.trans hBr.symm) (t2.trans hBr.symm)
  refine ⟨k, ?_, k3.trans b2, k4.trans b2, fun R S => ?_⟩
  · rw [stiffness, bMatrix, Res.require, if_pos (by rw [h.dofDim, j2])]
    rw [gradients] at b1
    rw [b1, Res.bind_ok', h.dof.read.1, Res.bind_ok', hu, Res.bind_ok',
      Res.bind_ok', k1, Res.bind_ok', k2, Res.bind_ok']
  · exact k5 _ _ (by rw [restrict_length, b2]) (by rw [restrict_length, b2]) _ _ (b3 _ (restrict_length _ _ _))
      (b3 _ (restrict_length _ _ _))

/-- C95 (form): for every schedule of the threads the assembled stiffness matrix exists, and its form on two vectors `R`
and `S` of the dofs is the integral of the strains of `R` times tangent times strains of `S`. -/
theorem C95_form (s : DofSizes) (dof dim n : Nat) (T : List ℝ → IpData → DMat ℝ)
    (hT : ∀ e d, e.length = voigtSize dim → (T e d).rows = e.length ∧ (T e d).cols = e.length) (cells : List (Cell × FemElement ℝ))
    (threads : List (List (Cell × FemElement ℝ))) (hp : threads.flatten.Perm cells) (hs : s.size dof = .ok n)
    (hb : ∀ x ∈ cells, Body dim n x) (pts : Cell × FemElement ℝ → List (ℝ × IpData))
    (hpts : ∀ x ∈ cells, x.1.Points (pts x)) :
    ∃ h m, assembleMatrix s dof (stiffness dof fun e d => .ok (T e d)) threads = .ok h ∧
      h.find? (toLex (dof, dof)) = some m ∧ m.rows = n ∧ m.cols = n ∧
      ∀ R S : Nat → ℝ, ∑ i ∈ range n, ∑ j ∈ range n, R i * m.entry i j * S j =
        (cells.map fun x => ((pts x).map fun p =>
          bilinear (T (strains dim (gradients x.2 p.2) (values dim x.2)) p.2)
            (strains dim (gradients x.2 p.2) (restrict dim x.2 R))
            (strains dim (gradients x.2 p.2) (restrict dim x.2 S)) * p.2.jacobian.det * p.1).sum).sum := by
  have hF : ∀ (e : FemElement ℝ) (d : IpData), ∃ k : DMat ℝ, (∃ x ∈ cells, x.2 = e ∧ ∃ p ∈ pts x, p.2 = d) →
      stiffness dof (fun e d => .ok (T e d)) e d = .ok [(toLex (dof, dof), k)] ∧ k.rows = dim * e.nodes.length ∧
      k.cols = dim * e.nodes.length ∧
      ∀ R S : Nat → ℝ, bilinear k (restrict dim e R) (restrict dim e S) =
        bilinear (T (strains dim (gradients e d) (values dim e)) d)
          (strains dim (gradients e d) (restrict dim e R)) (strains dim (gradients e d) (restrict dim e S)) := by
    intro e d
    by_cases hx : ∃ x ∈ cells, x.2 = e ∧ ∃ p ∈ pts x, p.2 = d
    · obtain ⟨x, hx, rfl, p, hp', rfl⟩ := hx
      obtain ⟨k, h1⟩ := C95_point dof dim n T hT (hb x hx) (hpts x hx) p hp'
      exact ⟨k, fun _ => h1⟩
    · exact ⟨⟨0, 0, fun _ _ => 0⟩, fun h => absurd h hx⟩
  choose M hM using hF
  obtain ⟨h, m, h1, h2, h3, h4, h5⟩ := assembled2_points s dof dim n cells threads hp hs _ M pts (fun x hx =>
    ⟨(hb x hx).dof, (hb x hx).numbered, hpts x hx, fun p hp' =>
      have := hM x.2 p.2 ⟨x, hx, rfl, p, hp', rfl⟩
      ⟨this.1, this.2.1, this.2.2.1⟩⟩)
  refine ⟨h, m, h1, h2, h3, h4, fun R S => ?_⟩
  rw [h5]
  congr 1
  refine List.map_congr_left fun x hx => ?_
  congr 1
  refine List.map_congr_left fun p hp' => ?_
  rw [(hM x.2 p.2 ⟨x, hx, rfl, p, hp', rfl⟩).2.2.2 R S]

/-! ### The assembled matrix -/

/-- `m` is the stiffness matrix that the assembler delivers for the cells and the tangents `T`. -/
structure Stiff (dof dim n : Nat) (T : List ℝ → IpData → DMat ℝ) (cells : List (Cell × FemElement ℝ)) (m : SpMat ℝ) :
    Prop where
  body : ∀ x ∈ cells, Body dim n x
  size : ∀ e d, e.length = voigtSize dim → (T e d).rows = e.length ∧ (T e d).cols = e.length
  result : ∃ s threads h, s.size dof = .ok n ∧ threads.flatten.Perm cells ∧
    assembleMatrix s dof (stiffness dof fun e d => .ok (T e d)) threads = .ok h ∧ h.find? (toLex (dof, dof)) = some m

/-- C95: the assembler delivers the matrix for every schedule of the threads. -/
theorem C95_exists (s : DofSizes) (dof dim n : Nat) (T : List ℝ → IpData → DMat ℝ)
    (hT : ∀ e d, e.length = voigtSize dim → (T e d).rows = e.length ∧ (T e d).cols = e.length)
    (cells : List (Cell × FemElement ℝ)) (threads : List (List (Cell × FemElement ℝ)))
    (hp : threads.flatten.Perm cells) (hs : s.size dof = .ok n) (hb : ∀ x ∈ cells, Body dim n x) :
    ∃ h m, assembleMatrix s dof (stiffness dof fun e d => .ok (T e d)) threads = .ok h ∧
      h.find? (toLex (dof, dof)) = some m ∧ m.rows = n ∧ m.cols = n ∧ Stiff dof dim n T cells m := by
  have hex : ∀ x : Cell × FemElement ℝ, ∃ pts, x ∈ cells → x.1.Points pts := by
    intro x
    by_cases hx : x ∈ cells
    · obtain ⟨pts, h⟩ := C77_points (hb x hx)
      exact ⟨pts, fun _ => h⟩
    · exact ⟨[], fun h => absurd h hx⟩
  choose pts hpts using hex
  obtain ⟨h, m, h1, h2, h3, h4, _⟩ := C95_form s dof dim n T hT cells threads hp hs hb pts hpts
  exact ⟨h, m, h1, h2, h3, h4, hb, hT, s, threads, h, hs, hp, h1, h2⟩

variable {dof dim n : Nat} {T : List ℝ → IpData → DMat ℝ} {cells : List (Cell × FemElement ℝ)} {m : SpMat ℝ}

theorem Stiff.points (k : Stiff dof dim n T cells m) :
    ∃ pts : Cell × FemElement ℝ → List (ℝ × IpData), ∀ x ∈ cells, x.1.Points (pts x) := by
  have hex : ∀ x : Cell × FemElement ℝ, ∃ pts, x ∈ cells → x.1.Points pts := by
    intro x
    by_cases hx : x ∈ cells
    · obtain ⟨pts, h⟩ := C77_points (k.body x hx)
      exact ⟨pts, fun _ => h⟩
    · exact ⟨[], fun h => absurd h hx⟩
  choose pts hpts using hex
  exact ⟨pts, hpts⟩

theorem Stiff.form (k : Stiff dof dim n T cells m) (pts : Cell × FemElement ℝ → List (ℝ × IpData))
    (hpts : ∀ x ∈ cells, x.1.Points (pts x)) (R S : Nat → ℝ) :
    ∑ i ∈ range n, ∑ j ∈ range n, R i * m.entry i j * S j =
      (cells.map fun x => ((pts x).map fun p =>
        bilinear (T (strains dim (gradients x.2 p.2) (values dim x.2)) p.2)
          (strains dim (gradients x.2 p.2) (restrict dim x.2 R))
          (strains dim (gradients x.2 p.2) (restrict dim x.2 S)) * p.2.jacobian.det * p.1).sum).sum := by
  obtain ⟨s, threads, h, hs, hp, h1, h2⟩ := k.result
  obtain ⟨h', m', g1, g2, _, _, g5⟩ := C95_form s dof dim n T k.size cells threads hp hs k.body pts hpts
  rw [h1] at g1
  obtain rfl := Res.ok.inj g1
  rw [h2] at g2
  obtain rfl := Option.some.inj g2
  exact g5 R S

theorem pick (n i j : Nat) (hi : i < n) (hj : j < n) (f : Nat → Nat → ℝ) :
    ∑ a ∈ range n, ∑ b ∈ range n, (if a = i then 1 else 0) * f a b * (if b = j then 1 else 0) = f i j := by
  rw [sum_eq_single i, sum_eq_single j]
  · simp
  · intro b _ hb
    simp [hb]
  · intro h
    exact absurd (mem_range.2 hj) h
  · intro a _ ha
    simp [ha]
  · intro h
    exact absurd (mem_range.2 hi) h

theorem pickRow (n i : Nat) (hi : i < n) (f : Nat → Nat → ℝ) (S : Nat → ℝ) :
    ∑ a ∈ range n, ∑ b ∈ range n, (if a = i then 1 else 0) * f a b * S b = ∑ b ∈ range n, f i b * S b := by
  rw [sum_eq_single i]
  · simp
  · intro a _ ha
    simp [ha]
  · intro h
    exact absurd (mem_range.2 hi) h

theorem bilinear_symm (D : DMat ℝ) (a b : List ℝ) (h : a.length = b.length)
    (hD : ∀ i < a.length, ∀ j < a.length, D.coef i j = D.coef j i) : bilinear D a b = bilinear D b a := by
  rw [bilinear, bilinear, sum_comm, ← h]
  refine sum_congr rfl fun i hi => sum_congr rfl fun j hj => ?_
  rw [hD i (mem_range.1 hi) j (mem_range.1 hj)]
  ring

theorem bilinear_zero (D : DMat ℝ) (a b : List ℝ) (h : ∀ x ∈ b, x = 0) : bilinear D a b = 0 := by
  refine sum_eq_zero fun i _ => sum_eq_zero fun j hj => ?_
  rw [List.getD_eq_getElem _ _ (mem_range.1 hj), h _ (List.getElem_mem _), mul_zero]

/-- C95: with symmetric tangents the matrix is symmetric. -/
theorem C95_symmetric (k : Stiff dof dim n T cells m)
    (hsym : ∀ e d, e.length = voigtSize dim → ∀ i < e.length, ∀ j < e.length, (T e d).coef i j = (T e d).coef j i)
    (i j : Nat) (hi : i < n) (hj : j < n) : m.entry i j = m.entry j i := by
  obtain ⟨pts, hpts⟩ := k.points
  rw [← pick n i j hi hj m.entry, ← pick n j i hj hi m.entry, k.form pts hpts, k.form pts hpts]
  congr 1
  refine List.map_congr_left fun x hx => ?_
  congr 1
  refine List.map_congr_left fun p _ => ?_
  have hl := strains_length dim (k.body x hx).dim1 (k.body x hx).dim3 (gradients x.2 p.2)
  rw [bilinear_symm]
  · rw [hl, hl]
  · intro i hi j hj
    rw [hl, ← hl (values dim x.2)] at hi hj
    exact hsym _ _ (hl _) i hi j hj

/-- C95: with semidefinite tangents and positive weights the matrix is semidefinite. -/
theorem C95_nonneg (k : Stiff dof dim n T cells m)
    (hpsd : ∀ e d v, e.length = voigtSize dim → v.length = e.length → 0 ≤ bilinear (T e d) v v)
    (hw : ∀ x ∈ cells, ∀ pts, x.1.Points pts → ∀ p ∈ pts, 0 ≤ p.2.jacobian.det * p.1) (R : Nat → ℝ) :
    0 ≤ ∑ i ∈ range n, ∑ j ∈ range n, R i * m.entry i j * R j := by
  obtain ⟨pts, hpts⟩ := k.points
  rw [k.form pts hpts]
  refine List.sum_nonneg fun y hy => ?_
  obtain ⟨x, hx, rfl⟩ := List.mem_map.1 hy
  refine List.sum_nonneg fun z hz => ?_
  obtain ⟨p, hp, rfl⟩ := List.mem_map.1 hz
  rw [mul_assoc]
  have hl := strains_length dim (k.body x hx).dim1 (k.body x hx).dim3 (gradients x.2 p.2)
  exact mul_nonneg (hpsd _ _ _ (hl _) (by rw [hl, hl])) (hw x hx _ (hpts x hx) p hp)

/-- Positive definite tangents. -/
def Definite (dim : Nat) (T : List ℝ → IpData → DMat ℝ) : Prop :=
  ∀ e d v, e.length = voigtSize dim → v.length = e.length → (∃ y ∈ v, y ≠ 0) → 0 < bilinear (T e d) v v

/-- The strains of `R` vanish at all integration points. -/
def Unstrained (dim : Nat) (cells : List (Cell × FemElement ℝ)) (R : Nat → ℝ) : Prop :=
  ∀ x ∈ cells, ∀ pts, x.1.Points pts → ∀ p ∈ pts,
    ∀ y ∈ strains dim (gradients x.2 p.2) (restrict dim x.2 R), y = 0

theorem list_sum_zero {l : List ℝ} (h : ∀ x ∈ l, 0 ≤ x) (h0 : l.sum = 0) : ∀ x ∈ l, x = 0 := by
  induction l with
  | nil => simp
  | cons a l ih =>
    rw [List.sum_cons] at h0
    have ha := h a List.mem_cons_self
    have hl := List.sum_nonneg fun x hx => h x (List.mem_cons_of_mem _ hx)
    intro x hx
    rcases List.mem_cons.1 hx with rfl | hx
    · linarith
    · exact ih (fun x hx => h x (List.mem_cons_of_mem _ hx)) (by linarith) x hx

/-- C95: with definite tangents and positive weights the energy of `R` vanishes exactly if its strains vanish at all
integration points. -/
theorem C95_energy_zero (k : Stiff dof dim n T cells m) (hpd : Definite dim T)
    (hw : ∀ x ∈ cells, ∀ pts, x.1.Points pts → ∀ p ∈ pts, 0 < p.2.jacobian.det * p.1) (R : Nat → ℝ) :
    ∑ i ∈ range n, ∑ j ∈ range n, R i * m.entry i j * R j = 0 ↔ Unstrained dim cells R := by
  constructor
  · intro h0 x hx pts₀ hpts₀ p hp
    obtain ⟨pts', hpts'⟩ := k.points
    classical
    obtain ⟨pts, hpts, hx'⟩ : ∃ pts : Cell × FemElement ℝ → List (ℝ × IpData), (∀ x ∈ cells, x.1.Points (pts x)) ∧
        pts x = pts₀ := ⟨fun z => if z = x then pts₀ else pts' z, fun z hz => by
      by_cases h : z = x
      · subst h
        simpa using hpts₀
      · simpa [h] using hpts' z hz, by simp⟩
    have hterm : ∀ x ∈ cells, ∀ p ∈ pts x, 0 ≤ bilinear (T (strains dim (gradients x.2 p.2) (values dim x.2)) p.2)
        (strains dim (gradients x.2 p.2) (restrict dim x.2 R))
        (strains dim (gradients x.2 p.2) (restrict dim x.2 R)) * p.2.jacobian.det * p.1 := by
      intro x hx p hp
      have hl := strains_length dim (k.body x hx).dim1 (k.body x hx).dim3 (gradients x.2 p.2)
      rw [mul_assoc]
      refine mul_nonneg ?_ (hw x hx _ (hpts x hx) p hp).le
      by_cases hz : ∃ y ∈ strains dim (gradients x.2 p.2) (restrict dim x.2 R), y ≠ 0
      · exact (hpd _ _ _ (hl _) (by rw [hl, hl]) hz).le
      · push Not at hz
        rw [bilinear_zero _ _ _ hz]
    rw [k.form pts hpts] at h0
    have h1 := list_sum_zero (by
      intro y hy
      obtain ⟨x, hx, rfl⟩ := List.mem_map.1 hy
      refine List.sum_nonneg fun z hz => ?_
      obtain ⟨p, hp, rfl⟩ := List.mem_map.1 hz
      exact hterm x hx p hp) h0 _ (List.mem_map.2 ⟨x, hx, rfl⟩)
    have h2 := list_sum_zero (by
      intro z hz
      obtain ⟨p, hp, rfl⟩ := List.mem_map.1 hz
      exact hterm x hx p hp) h1 _ (List.mem_map.2 ⟨p, hx' ▸ hp, rfl⟩)
    have hl := strains_length dim (k.body x hx).dim1 (k.body x hx).dim3 (gradients x.2 p.2)
    by_contra hne
    push Not at hne
    have h3 := mul_pos (hpd (strains dim (gradients x.2 p.2) (values dim x.2)) p.2 _ (hl _) (by rw [hl, hl]) hne)
      (hw x hx _ hpts₀ p hp)
    rw [← mul_assoc] at h3
    exact h3.ne' h2
  · intro h0
    obtain ⟨pts, hpts⟩ := k.points
    rw [k.form pts hpts]
    refine List.sum_eq_zero fun y hy => ?_
    obtain ⟨x, hx, rfl⟩ := List.mem_map.1 hy
    refine List.sum_eq_zero fun z hz => ?_
    obtain ⟨p, hp, rfl⟩ := List.mem_map.1 hz
    rw [bilinear_zero _ _ _ (h0 x hx _ (hpts x hx) p hp), zero_mul, zero_mul]

/-- C95: vectors without strains at the integration points are in the kernel of the matrix, whatever the tangents. -/
theorem C95_unstrained (k : Stiff dof dim n T cells m) (R : Nat → ℝ) (h0 : Unstrained dim cells R) (i : Nat)
    (hi : i < n) : ∑ j ∈ range n, m.entry i j * R j = 0 := by
  obtain ⟨pts, hpts⟩ := k.points
  rw [← pickRow n i hi, k.form pts hpts]
  refine List.sum_eq_zero fun y hy => ?_
  obtain ⟨x, hx, rfl⟩ := List.mem_map.1 hy
  refine List.sum_eq_zero fun z hz => ?_
  obtain ⟨p, hp, rfl⟩ := List.mem_map.1 hz
  rw [bilinear_zero _ _ _ (h0 x hx _ (hpts x hx) p hp), zero_mul, zero_mul]

/-- C95: rigid motions are in the kernel of the matrix, whatever the tangents. -/
theorem C95_rigid (k : Stiff dof dim n T cells m) (hiso : ∀ x ∈ cells, x.2.interp = x.1.coordElement.interp)
    (hdet : ∀ x ∈ cells, ∀ pts, x.1.Points pts → ∀ p ∈ pts, p.2.jacobian.det ≠ 0) (t : Nat → ℝ)
    (W : Nat → Nat → ℝ) (hW : ∀ a b, W a b = -W b a) (R : Nat → ℝ)
    (hR : ∀ x ∈ cells, ∀ i < x.2.nodes.length, ∀ a < dim, R (number x.2 i a) =
      t a + ∑ c ∈ range dim, W a c * component x.1.coordElement i c) (i : Nat) (hi : i < n) :
    ∑ j ∈ range n, m.entry i j * R j = 0 :=
  C95_unstrained k R (fun x hx _ hpts p hp => C77_rigid_strains (k.body x hx) hpts p hp
    (hdet x hx _ hpts p hp) (hiso x hx) t W hW R (hR x hx)) i hi

/-- C95: two vectors that agree at the prescribed dofs and have the same forces at all other dofs have the same strains:
their difference is without strains. -/
theorem C95_unique (k : Stiff dof dim n T cells m) (hpd : Definite dim T)
    (hw : ∀ x ∈ cells, ∀ pts, x.1.Points pts → ∀ p ∈ pts, 0 < p.2.jacobian.det * p.1) (prescribed : Nat → Prop)
    (R S : Nat → ℝ) (h1 : ∀ i < n, prescribed i → R i = S i)
    (h2 : ∀ i < n, ¬ prescribed i → ∑ j ∈ range n, m.entry i j * R j = ∑ j ∈ range n, m.entry i j * S j) :
    Unstrained dim cells fun i => R i - S i := by
  rw [← C95_energy_zero k hpd hw]
  refine sum_eq_zero fun i hi => ?_
  have hi := mem_range.1 hi
  have hrow : ∑ j ∈ range n, (R i - S i) * m.entry i j * (R j - S j) =
      (R i - S i) * (∑ j ∈ range n, m.entry i j * R j - ∑ j ∈ range n, m.entry i j * S j) := by
    rw [← sum_sub_distrib, mul_sum]
    exact sum_congr rfl fun j _ => by ring
  rw [hrow]
  by_cases hpi : prescribed i
  · rw [h1 i hi hpi, sub_self, zero_mul]
  · rw [h2 i hi hpi, sub_self, mul_zero]

/-! ### Internal forces -/

theorem apply_length (D : DMat ℝ) (b : List ℝ) : (apply D b).length = b.length := by simp [apply]

theorem dot_apply (D : DMat ℝ) (a b : List ℝ) (h : a.length = b.length) : dot (apply D b) a = bilinear D a b := by
  rw [dot, bilinear, apply_length, h]
  refine sum_congr rfl fun i hi => ?_
  rw [apply, List.getD_eq_getElem _ _ (by simpa using hi)]
  simp only [List.getElem_map, List.getElem_range]
  rw [sum_mul]
  exact sum_congr rfl fun j _ => by ring

/-- C95: for a linear law the internal forces are the matrix times the displacements. -/
theorem C95_forces (k : Stiff dof dim n T cells m) (D : IpData → DMat ℝ) (hD : ∀ e d, T e d = D d)
    (sigma : List ℝ → IpData → List ℝ) (hlen : ∀ e d, (sigma e d).length = e.length)
    (hsig : ∀ e d, e.length = voigtSize dim → sigma e d = apply (D d) e)
    (s : DofSizes) (threads : List (List (Cell × FemElement ℝ))) (hp : threads.flatten.Perm cells)
    (hs : s.size dof = .ok n) (U : Nat → ℝ)
    (hU : ∀ x ∈ cells, ∀ i < x.2.nodes.length, ∀ a < dim, U (number x.2 i a) = component x.2 i a) :
    ∃ v f, assembleVector s dof (momentum dof fun e d => .ok (sigma e d)) threads = .ok v ∧
      v.find? dof = some f ∧ f.length = n ∧ ∀ i < n, f.getD i 0 = ∑ j ∈ range n, m.entry i j * U j := by
  obtain ⟨pts, hpts⟩ := k.points
  obtain ⟨v, f, h1, h2, h3, h4⟩ := C77_virtual_work s dof dim n sigma hlen cells threads hp hs k.body pts hpts
  refine ⟨v, f, h1, h2, h3, fun i hi => ?_⟩
  have h5 := h4 fun a => if a = i then 1 else 0
  rw [sum_eq_single i (fun b _ hb => by simp [hb]) (fun h => absurd (mem_range.2 hi) h)] at h5
  rw [← pickRow n i hi, k.form pts hpts]
  rw [if_pos rfl, mul_one] at h5
  rw [h5]
  congr 1
  refine List.map_congr_left fun x hx => ?_
  congr 1
  refine List.map_congr_left fun p _ => ?_
  have hl := strains_length dim (k.body x hx).dim1 (k.body x hx).dim3 (gradients x.2 p.2)
  have hval : values dim x.2 = restrict dim x.2 U := by
    refine List.map_congr_left fun q hq => ?_
    have hq := List.mem_range.1 hq
    have hd : 0 < dim := (k.body x hx).dim1
    exact (hU x hx _ (Nat.div_lt_of_lt_mul hq) _ (Nat.mod_lt _ hd)).symm
  rw [hsig _ _ (hl _), dot_apply _ _ _ (by rw [hl, hl]), hD, hval]

/-! ### Linear elasticity -/

theorem bilinear_ofMatrix {N : Nat} (C : Matrix (Fin N) (Fin N) ℝ) (v : List ℝ) (hv : v.length = N) :
    bilinear (ofMatrix C) v v = energy C fun i => v.getD i 0 := by
  subst hv
  rw [bilinear, energy, ← Fin.sum_univ_eq_sum_range
    (fun i => ∑ j ∈ range v.length, v.getD i 0 * (ofMatrix C).coef i j * v.getD j 0)]
  refine sum_congr rfl fun i _ => ?_
  rw [LinearElastic.stress, Matrix.mulVec, dotProduct, mul_sum, ← Fin.sum_univ_eq_sum_range
    (fun j => v.getD i 0 * (ofMatrix C).coef i j * v.getD j 0)]
  refine sum_congr rfl fun j _ => ?_
  have hc : (ofMatrix C).coef i j = C i j := by
    rw [ofMatrix]
    exact dif_pos ⟨i.2, j.2⟩
  rw [hc]
  ring

theorem definite_ofMatrix {N : Nat} (C : Matrix (Fin N) (Fin N) ℝ) (hC : ∀ e, e ≠ 0 → 0 < energy C e) (v : List ℝ)
    (hv : v.length = N) (h : ∃ y ∈ v, y ≠ 0) : 0 < bilinear (ofMatrix C) v v := by
  rw [bilinear_ofMatrix C v hv]
  refine hC _ fun h0 => ?_
  obtain ⟨y, hy, hne⟩ := h
  obtain ⟨i, hi, rfl⟩ := List.mem_iff_getElem.1 hy
  have := congrFun h0 ⟨i, hv ▸ hi⟩
  simp only [List.getD_eq_getElem _ _ hi] at this
  exact hne this

/-- C95: the tangent of the linear elastic law is symmetric and definite, and the law is its product with the strain, so
all of the above applies to it. -/
theorem C95_elastic (dim : Nat) (h1 : 1 ≤ dim) (h3 : dim ≤ 3) (E nu : ℝ) (ps : PlaneState) (hE : 0 < E) (hn1 : -1 < nu)
    (hn2 : nu < 1 / 2) :
    ((elasticTangent dim E nu ps).rows = voigtSize dim ∧ (elasticTangent dim E nu ps).cols = voigtSize dim) ∧
    (∀ i < voigtSize dim, ∀ j < voigtSize dim,
      (elasticTangent dim E nu ps).coef i j = (elasticTangent dim E nu ps).coef j i) ∧
    Definite dim (fun _ _ => elasticTangent dim E nu ps) ∧
    ∀ e : List ℝ, e.length = voigtSize dim → elasticStress dim E nu ps e = .ok (apply (elasticTangent dim E nu ps) e) := by
  have hpos := C34_positive E nu ps hE hn1 hn2
  have hsym := C34_symmetric E nu ps
  have hs : ∀ {N : Nat} (C : Matrix (Fin N) (Fin N) ℝ), C.IsSymm → ∀ i < N, ∀ j < N,
      (ofMatrix C).coef i j = (ofMatrix C).coef j i := by
    intro N C hC i hi j hj
    simp only [ofMatrix, dif_pos (And.intro hi hj), dif_pos (And.intro hj hi)]
    exact (hC.apply _ _).symm
  have hm : ∀ (D : DMat ℝ) (e : List ℝ), D.rows = e.length → D.cols = e.length → D.mulVec e = .ok (apply D e) := by
    intro D e hr hc
    rw [DMat.mulVec, Res.require, if_pos hc, apply, hr, hc]
    simp only [sum_range_list]
  have hd : (elasticTangent dim E nu ps).rows = voigtSize dim ∧ (elasticTangent dim E nu ps).cols = voigtSize dim := by
    interval_cases dim <;> exact ⟨rfl, rfl⟩
  refine ⟨hd, ?_, ?_, fun e he => hm _ e (by rw [hd.1, he]) (by rw [hd.2, he])⟩
  · interval_cases dim
    · exact hs _ hsym.1
    · exact hs _ hsym.2.1
    · exact hs _ hsym.2.2
  · intro e d v he hv hne
    rw [he] at hv
    interval_cases dim
    · exact definite_ofMatrix _ hpos.1 v hv hne
    · exact definite_ofMatrix _ hpos.2.1 v hv hne
    · exact definite_ofMatrix _ hpos.2.2 v hv hne

end Balance

end NuTo
