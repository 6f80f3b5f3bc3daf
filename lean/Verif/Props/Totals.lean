/-
C78: loads and mass matrices of a mesh keep the total force and the total mass.
-/
import Verif.Props.Balance

namespace NuTo

open Assembly Finset

namespace Balance

/-- The interpolated values of a global vector at the point `xi` of an element. -/
noncomputable def interpolated (dim : Nat) (e : FemElement ℝ) (R : Nat → ℝ) (xi : Nat → ℝ) : List ℝ :=
  (List.range dim).map fun a => ∑ i ∈ range e.interp.numNodes, (e.interp.shape xi).getD i 0 * R (number e i a)

/-- An element of a mesh with `n` dofs and `dim` components. -/
structure Part (dim n : Nat) (e : FemElement ℝ) : Prop where
  nodes : Nodes dim e
  unity : Unity e.interp
  numbered : Numbered n e

theorem Nodes.dimension {dim : Nat} {e : FemElement ℝ} (h : Nodes dim e) : e.dofDimension = .ok dim := by
  obtain ⟨m, t, hm⟩ := List.exists_cons_of_ne_nil h.ne
  obtain ⟨⟨w1, w2⟩, w3⟩ := h.wf m (by rw [hm]; exact List.mem_cons_self)
  rw [FemElement.dofDimension, hm]
  simp only [Res.require, if_pos w1, Node.numValues]
  obtain ⟨v, t', hv⟩ := List.exists_cons_of_ne_nil w1
  rw [hv, List.headD_cons, w2 v (by rw [hv]; exact List.mem_cons_self), w3]

/-- The matrix of shape functions of an element. -/
theorem Part.matrix {dim n : Nat} {e : FemElement ℝ} (h : Part dim n e) (junk : Nat → Nat → ℝ) (xi : Nat → ℝ) :
    ∃ N, e.nMatrix junk xi = .ok N ∧ N.rows = dim ∧ N.cols = dim * e.nodes.length ∧
      ∀ R : Nat → ℝ, N.mulVec (restrict dim e R) = .ok (interpolated dim e R xi) := by
  have hs : e.interp.numNodes ≤ (e.interp.shape xi).length := (h.unity.shapeLen xi).ge
  obtain ⟨N, h1, h2, h3, _⟩ := nMatrix_fold junk (e.interp.shape xi) dim (dim * e.interp.numNodes) e.interp.numNodes hs
  refine ⟨N, ?_, h2, by rw [h3, h.nodes.count], fun R => ?_⟩
  · rw [FemElement.nMatrix, h.nodes.dimension, Res.bind_ok']
    exact h1
  · obtain ⟨N', g1, g2⟩ := C39_N junk (e.interp.shape xi) (restrict dim e R) e.interp.numNodes dim hs
      (by rw [restrict_length, h.nodes.count])
    rw [nMatrix, h1] at g1
    obtain rfl := Res.ok.inj g1
    rw [g2, interpolated]
    congr 1
    refine List.map_congr_left fun a ha => sum_congr rfl fun i hi => ?_
    rw [restrict_getD (by rw [h.nodes.count]; exact mem_range.1 hi) (List.mem_range.1 ha)]

/-- A translation is interpolated exactly. -/
theorem Part.translation {dim n : Nat} {e : FemElement ℝ} (h : Part dim n e) (t R : Nat → ℝ)
    (hR : ∀ i < e.nodes.length, ∀ a < dim, R (number e i a) = t a) (xi : Nat → ℝ) :
    interpolated dim e R xi = (List.range dim).map t := by
  refine List.map_congr_left fun a ha => ?_
  calc ∑ i ∈ range e.interp.numNodes, (e.interp.shape xi).getD i 0 * R (number e i a)
      = ∑ i ∈ range e.interp.numNodes, (e.interp.shape xi).getD i 0 * t a := by
        refine sum_congr rfl fun i hi => ?_
        rw [hR i (by rw [h.nodes.count]; exact mem_range.1 hi) a (List.mem_range.1 ha)]
    _ = t a := by rw [← sum_mul, h.unity.shapeSum, one_mul]

/-! ### Loads -/

/-- C78: for every schedule the load vector exists, and its work on an arbitrary displacement is the integral of the
given load times the interpolated displacement. -/
theorem C78_load_work (s : DofSizes) (dof dim n : Nat) (junk : Nat → Nat → ℝ) (factor : List ℝ)
    (hfac : factor.length = dim) (cells : List (Cell × FemElement ℝ)) (threads : List (List (Cell × FemElement ℝ)))
    (hp : threads.flatten.Perm cells) (hs : s.size dof = .ok n) (hb : ∀ x ∈ cells, Part dim n x.2)
    (pts : Cell × FemElement ℝ → List (ℝ × IpData)) (hpts : ∀ x ∈ cells, x.1.Points (pts x)) :
    ∃ v f, assembleVector s dof (load junk dof factor) threads = .ok v ∧ v.find? dof = some f ∧ f.length = n ∧
      ∀ R : Nat → ℝ, ∑ i ∈ range n, f.getD i 0 * R i =
        (cells.map fun x => ((pts x).map fun p => dot factor (interpolated dim x.2 R fun k => p.2.coords.getD k 0) *
          p.2.jacobian.det * p.1).sum).sum := by
  have hF : ∀ (e : FemElement ℝ) (d : IpData), ∃ F : List ℝ, Part dim n e →
      load junk dof factor e d = .ok [(dof, F)] ∧ F.length = dim * e.nodes.length ∧
      ∀ R : Nat → ℝ, dot F (restrict dim e R) = dot factor (interpolated dim e R fun k => d.coords.getD k 0) := by
    intro e d
    by_cases he : Part dim n e
    · obtain ⟨N, n1, n2, n3, n4⟩ := he.matrix junk fun k => d.coords.getD k 0
      obtain ⟨F, _, f1, _, f3, _⟩ := dot_mulVec N factor (restrict dim e fun _ => 0) (by rw [hfac, n2])
        (by rw [restrict_length, n3])
      refine ⟨F, fun _ => ⟨?_, by rw [f3, n3], fun R => ?_⟩⟩
      · rw [load, n1, Res.bind_ok', f1, Res.bind_ok']
      · obtain ⟨F', e', g1, g2, _, _, g5⟩ := dot_mulVec N factor (restrict dim e R) (by rw [hfac, n2])
          (by rw [restrict_length, n3])
        rw [f1] at g1
        obtain rfl := Res.ok.inj g1
        rw [n4 R] at g2
        rw [g5, Res.ok.inj g2]
    · exact ⟨[], fun h => absurd h he⟩
  choose F hF using hF
  obtain ⟨v, f, h1, h2, h3, h4⟩ := assembled_points s dof dim n cells threads hp hs _ F pts (fun x hx =>
    ⟨(hb x hx).nodes, (hb x hx).numbered, hpts x hx, fun p _ =>
      ⟨(hF x.2 p.2 (hb x hx)).1, (hF x.2 p.2 (hb x hx)).2.1⟩⟩)
  refine ⟨v, f, h1, h2, h3, fun R => ?_⟩
  rw [h4]
  congr 1
  refine List.map_congr_left fun x hx => ?_
  congr 1
  refine List.map_congr_left fun p hp' => ?_
  rw [(hF x.2 p.2 (hb x hx)).2.2 R]

theorem dot_range (dim : Nat) (a : List ℝ) (ha : a.length = dim) (t : Nat → ℝ) :
    dot a ((List.range dim).map t) = ∑ k ∈ range dim, a.getD k 0 * t k := by
  rw [dot, ha]
  refine sum_congr rfl fun k hk => ?_
  congr 1
  rw [List.getD_eq_getElem _ _ (by simpa using hk)]
  simp

/-- C78: the loads in each direction add up to the given load times the total size of the loaded cells: the entries of
the load vector, weighted by the translation `t` of their component, sum up to `factor · t` times the sum of the
cell sizes computed by `Integrate` of one. -/
theorem C78_load_total (s : DofSizes) (dof dim n : Nat) (junk : Nat → Nat → ℝ) (factor : List ℝ)
    (hfac : factor.length = dim) (cells : List (Cell × FemElement ℝ)) (threads : List (List (Cell × FemElement ℝ)))
    (hp : threads.flatten.Perm cells) (hs : s.size dof = .ok n) (hb : ∀ x ∈ cells, Part dim n x.2)
    (A : Cell × FemElement ℝ → ℝ) (hA : ∀ x ∈ cells, x.1.integrateScalar (fun _ => .ok 1) = .ok (A x)) :
    ∃ v f, assembleVector s dof (load junk dof factor) threads = .ok v ∧ v.find? dof = some f ∧ f.length = n ∧
      ∀ (t R : Nat → ℝ), (∀ x ∈ cells, ∀ i < x.2.nodes.length, ∀ a < dim, R (number x.2 i a) = t a) →
        ∑ i ∈ range n, f.getD i 0 * R i = (∑ a ∈ range dim, factor.getD a 0 * t a) * (cells.map A).sum := by
  have hex : ∀ x : Cell × FemElement ℝ, ∃ pts, x ∈ cells → x.1.Points pts ∧
      A x = (pts.map fun p => p.2.jacobian.det * p.1).sum := by
    intro x
    by_cases hx : x ∈ cells
    · obtain ⟨pts, h⟩ := points_of_volume x.1 (A x) (hA x hx)
      exact ⟨pts, fun _ => h⟩
    · exact ⟨[], fun h => absurd h hx⟩
  choose pts hpts using hex
  obtain ⟨v, f, h1, h2, h3, h4⟩ := C78_load_work s dof dim n junk factor hfac cells threads hp hs hb pts
    fun x hx => (hpts x hx).1
  refine ⟨v, f, h1, h2, h3, fun t R hR => ?_⟩
  rw [h4, ← List.sum_map_mul_left]
  congr 1
  refine List.map_congr_left fun x hx => ?_
  rw [(hpts x hx).2, ← List.sum_map_mul_left]
  congr 1
  refine List.map_congr_left fun p _ => ?_
  rw [(hb x hx).translation t R (hR x hx), dot_range dim factor hfac, mul_assoc]

/-! ### Masses -/

theorem matrix_cell (c : Cell) (pts : List (ℝ × IpData)) (h : c.Points pts) (dof m : Nat)
    (f : IpData → Res (DofDMat ℝ)) (F : IpData → DMat ℝ)
    (hf : ∀ p ∈ pts, f p.2 = .ok [(toLex (dof, dof), F p.2)])
    (hl : ∀ p ∈ pts, (F p.2).rows = m ∧ (F p.2).cols = m) :
    ∃ r, c.integrateMatrix f = .ok r ∧
      (∀ k x, r.find? k = some x → k = toLex (dof, dof) ∧ x.rows = m ∧ x.cols = m) ∧
      ∀ i j, DofDMat.coef r dof dof i j = (pts.map fun p => (F p.2).coef i j * p.2.jacobian.det * p.1).sum := by
  obtain ⟨r, h1, _, h3, h4, h5⟩ := C57_matrix c pts h (fun d => [(toLex (dof, dof), F d)]) (fun _ => (m, m))
    (fun p _ => by simp [OMap.Sorted]) (fun p hp d x hx => by
      simp only [OMap.find?] at hx
      split at hx
      · cases hx; rw [(hl p hp).1, (hl p hp).2]
      · cases hx)
  refine ⟨r, ?_, fun k x hx => ⟨?_, ?_⟩, fun i j => ?_⟩
  · rw [← h1]
    exact integrateGeneric_congr _ c _ _ _ pts h hf
  · obtain ⟨p, _, hp⟩ := (h4 k).1 (by rw [hx]; rfl)
    simp only [OMap.find?] at hp
    split at hp
    · next h => exact h
    · cases hp
  · have := h3 k x hx
    exact ⟨congrArg Prod.fst this, congrArg Prod.snd this⟩
  · rw [h5]
    simp [DofDMat.coef, OMap.find?]

theorem adds2_sum (r : DofDMat ℝ) (dof n m : Nat) (nums : List Int) (R S : Nat → ℝ)
    (hn : ∀ g ∈ nums, 0 ≤ g ∧ g < (n : Int)) (hm : nums.length = m) :
    ∑ i ∈ range n, ∑ j ∈ range n, R i * MatCell.adds ⟨r, fun d => if d = dof then nums else []⟩ dof dof i j * S j =
      ∑ k ∈ range m, ∑ l ∈ range m,
        R (nums.getD k 0).toNat * DofDMat.coef r dof dof k l * S (nums.getD l 0).toNat := by
  unfold MatCell.adds DofDMat.coef
  dsimp only
  cases r.find? (toLex (dof, dof)) with
  | none => simp
  | some vals =>
    dsimp only
    rw [if_pos rfl, ← hm]
    exact scatter2_sum n nums vals R S hn

theorem assembled2 (s : DofSizes) (dof n : Nat) (cells : List (Cell × FemElement ℝ))
    (threads : List (List (Cell × FemElement ℝ))) (hp : threads.flatten.Perm cells) (hs : s.size dof = .ok n)
    (f : FemElement ℝ → IpData → Res (DofDMat ℝ)) (V : Cell × FemElement ℝ → MatCell ℝ)
    (hv : ∀ x ∈ cells, matCell dof f x = .ok (V x)) (hfit : ∀ x ∈ cells, MatCell.Fits (V x) [dof] fun _ => n) :
    ∃ h m, assembleMatrix s dof f threads = .ok h ∧ h.find? (toLex (dof, dof)) = some m ∧ m.rows = n ∧ m.cols = n ∧
      ∀ R S : Nat → ℝ, ∑ i ∈ range n, ∑ j ∈ range n, R i * m.entry i j * S j =
        (cells.map fun c => ∑ i ∈ range n, ∑ j ∈ range n, R i * MatCell.adds (V c) dof dof i j * S j).sum := by
  have hmem : ∀ t ∈ threads, ∀ x ∈ t, x ∈ cells := fun t ht x hx =>
    hp.mem_iff.1 (List.mem_flatten.2 ⟨t, ht, hx⟩)
  have hmap : (threads.mapM fun (t : List (Cell × FemElement ℝ)) => t.mapM (matCell dof f)) =
      .ok (threads.map fun t => t.map V) :=
    Res.mapM_ok _ _ _ fun t ht => Res.mapM_ok _ _ _ fun x hx => hv x (hmem t ht x hx)
  have hperm : (threads.map fun t => t.map V).flatten.Perm (cells.map V) := by
    rw [← List.map_flatten]
    exact hp.map V
  obtain ⟨h, h1, _, h4⟩ := C14_buildMatrix s [dof] (fun _ => n) (cells.map V) _ hperm (List.nodup_singleton _)
    (fun d hd => by rw [List.mem_singleton.1 hd]; exact hs) (fun c hc => by
      obtain ⟨x, hx, rfl⟩ := List.mem_map.1 hc
      exact hfit x hx)
  obtain ⟨m, g1, g2, g3, _, g5⟩ := h4 dof (List.mem_singleton.2 rfl) dof (List.mem_singleton.2 rfl)
  refine ⟨h, m, ?_, g1, g2, g3, fun R S => ?_⟩
  · rw [assembleMatrix, hmap, Res.bind_ok', h1]
  · rw [← list_sum_range]
    refine sum_congr rfl fun i _ => ?_
    rw [← list_sum_range]
    refine sum_congr rfl fun j _ => ?_
    rw [g5, List.map_map, List.sum_map_mul_right, List.sum_map_mul_left]
    rfl

theorem mass_point {dim n : Nat} {e : FemElement ℝ} (h : Part dim n e) (junk : Nat → Nat → ℝ) (dof : Nat) (rho : ℝ)
    (d : IpData) :
    ∃ M : DMat ℝ, mass junk dof rho e d = .ok [(toLex (dof, dof), M)] ∧ M.rows = dim * e.nodes.length ∧
      M.cols = dim * e.nodes.length ∧ ∀ R S : Nat → ℝ,
        ∑ k ∈ range (dim * e.nodes.length), ∑ l ∈ range (dim * e.nodes.length),
          (restrict dim e R).getD k 0 * M.coef k l * (restrict dim e S).getD l 0 =
        rho * dot (interpolated dim e R fun k => d.coords.getD k 0) (interpolated dim e S fun k => d.coords.getD k 0) := by
  obtain ⟨N, n1, n2, n3, n4⟩ := h.matrix junk fun k => d.coords.getD k 0
  have hmul : N.transpose.mul N = .ok ⟨N.cols, N.cols, fun i j => ((List.range N.rows).map fun (k : Nat) =>
      N.coef k i * N.coef k j).sum⟩ := by
    rw [DMat.mul, Res.require, if_pos (show N.transpose.cols = N.rows from rfl)]
    rfl
  refine ⟨DMat.scale ⟨N.cols, N.cols, fun i j => ((List.range N.rows).map fun (k : Nat) =>
      N.coef k i * N.coef k j).sum⟩ rho, by rw [mass, n1, Res.bind_ok', hmul, Res.bind_ok'], n3, n3, fun R S => ?_⟩
  have hval : ∀ R : Nat → ℝ, ∀ a < dim, (interpolated dim e R fun k => d.coords.getD k 0).getD a 0 =
      ∑ k ∈ range (dim * e.nodes.length), N.coef a k * (restrict dim e R).getD k 0 := by
    intro R a ha
    have := n4 R
    rw [DMat.mulVec, Res.require, if_pos (by rw [n3, restrict_length])] at this
    rw [← Res.ok.inj this, List.getD_eq_getElem _ _ (by simpa [n2] using ha)]
    simp only [List.getElem_map, List.getElem_range]
    rw [sum_range_list, n3]
  have hlen : (interpolated dim e R fun k => d.coords.getD k 0).length = dim := by simp [interpolated]
  rw [dot, hlen]
  calc _ = ∑ k ∈ range (dim * e.nodes.length), ∑ l ∈ range (dim * e.nodes.length), ∑ a ∈ range dim,
        rho * ((N.coef a k * (restrict dim e R).getD k 0) * (N.coef a l * (restrict dim e S).getD l 0)) := by
        refine sum_congr rfl fun k _ => sum_congr rfl fun l _ => ?_
        simp only [DMat.scale]
        rw [sum_range_list, n2, sum_mul, mul_sum, sum_mul]
        exact sum_congr rfl fun a _ => by ring
    _ = ∑ a ∈ range dim, ∑ k ∈ range (dim * e.nodes.length), ∑ l ∈ range (dim * e.nodes.length),
        rho * ((N.coef a k * (restrict dim e R).getD k 0) * (N.coef a l * (restrict dim e S).getD l 0)) := by
        rw [sum_comm (s := range dim)]
        refine sum_congr rfl fun k _ => ?_
        rw [sum_comm]
    _ = _ := by
        rw [mul_sum]
        refine sum_congr rfl fun a ha => ?_
        rw [hval R a (mem_range.1 ha), hval S a (mem_range.1 ha), sum_mul_sum, mul_sum]
        refine sum_congr rfl fun k _ => ?_
        rw [mul_sum]

/-- C78: for every schedule the mass matrix exists, and the bilinear form of two vectors is the integral of the density
times the scalar product of the interpolated vectors. -/
theorem C78_mass_form (s : DofSizes) (dof dim n : Nat) (junk : Nat → Nat → ℝ) (rho : ℝ)
    (cells : List (Cell × FemElement ℝ)) (threads : List (List (Cell × FemElement ℝ)))
    (hp : threads.flatten.Perm cells) (hs : s.size dof = .ok n) (hb : ∀ x ∈ cells, Part dim n x.2)
    (pts : Cell × FemElement ℝ → List (ℝ × IpData)) (hpts : ∀ x ∈ cells, x.1.Points (pts x)) :
    ∃ h m, assembleMatrix s dof (mass junk dof rho) threads = .ok h ∧ h.find? (toLex (dof, dof)) = some m ∧
      m.rows = n ∧ m.cols = n ∧ ∀ R S : Nat → ℝ, ∑ i ∈ range n, ∑ j ∈ range n, R i * m.entry i j * S j =
        (cells.map fun x => ((pts x).map fun p =>
          rho * dot (interpolated dim x.2 R fun k => p.2.coords.getD k 0)
            (interpolated dim x.2 S fun k => p.2.coords.getD k 0) * p.2.jacobian.det * p.1).sum).sum := by
  have hcell : ∀ x ∈ cells, ∃ V, matCell dof (mass junk dof rho) x = .ok V ∧ MatCell.Fits V [dof] (fun _ => n) ∧
      ∀ R S : Nat → ℝ, ∑ i ∈ range n, ∑ j ∈ range n, R i * MatCell.adds V dof dof i j * S j =
        ((pts x).map fun p => rho * dot (interpolated dim x.2 R fun k => p.2.coords.getD k 0)
            (interpolated dim x.2 S fun k => p.2.coords.getD k 0) * p.2.jacobian.det * p.1).sum := by
    intro x hx
    choose M hM using fun d => mass_point (hb x hx) junk dof rho d
    obtain ⟨r, r1, r2, r3⟩ := matrix_cell x.1 (pts x) (hpts x hx) dof (dim * x.2.nodes.length) (mass junk dof rho x.2) M
      (fun p _ => (hM p.2).1) (fun p _ => ⟨(hM p.2).2.1, (hM p.2).2.2.1⟩)
    obtain ⟨_, nums, n1, n2, n3, n4⟩ := (hb x hx).nodes.read
    have n5 := n4 n (hb x hx).numbered
    refine ⟨⟨r, fun d => if d = dof then nums else []⟩, ?_, ?_, ?_⟩
    · rw [matCell, r1, Res.bind_ok', n1, Res.bind_ok']
    · intro I hI J hJ h1 _
      obtain rfl := List.mem_singleton.1 hI
      obtain rfl := List.mem_singleton.1 hJ
      obtain ⟨k, hk, _⟩ := (mem_dofTypes2 _ _).1 h1
      obtain ⟨m, hm⟩ := Option.isSome_iff_exists.1 (OMap.find?_isSome_iff.2 hk)
      obtain ⟨rfl, m1, m2⟩ := r2 k m hm
      dsimp only
      rw [if_pos rfl]
      exact ⟨m, hm, ⟨n5, by rw [n2, m1]⟩, ⟨n5, by rw [n2, m2]⟩⟩
    · intro R S
      rw [adds2_sum r dof n _ nums R S n5 n2]
      have hR : ∀ (R : Nat → ℝ), ∀ k < dim * x.2.nodes.length, R (nums.getD k 0).toNat = (restrict dim x.2 R).getD k 0 := by
        intro R k hk
        rw [n3 k hk, restrict, List.getD_eq_getElem _ _ (by simpa using hk)]
        simp only [List.getElem_map, List.getElem_range]
      calc _ = ∑ k ∈ range (dim * x.2.nodes.length), ∑ l ∈ range (dim * x.2.nodes.length), ((pts x).map fun p =>
            (restrict dim x.2 R).getD k 0 * (M p.2).coef k l * (restrict dim x.2 S).getD l 0 *
              p.2.jacobian.det * p.1).sum := by
            refine sum_congr rfl fun k hk => sum_congr rfl fun l hl => ?_
            rw [hR R k (mem_range.1 hk), hR S l (mem_range.1 hl), r3, ← List.sum_map_mul_left,
              ← List.sum_map_mul_right]
            congr 1
            exact List.map_congr_left fun p _ => by ring
        _ = _ := by
            simp only [list_sum_range]
            congr 1
            refine List.map_congr_left fun p _ => ?_
            rw [← (hM p.2).2.2.2 R S]
            simp only [sum_mul]
  have : Inhabited (MatCell ℝ) := ⟨⟨[], fun _ => []⟩⟩
  choose! V hV1 hV2 hV3 using hcell
  obtain ⟨h, m, h1, h2, h3, h4, h5⟩ := assembled2 s dof n cells threads hp hs _ V hV1 hV2
  refine ⟨h, m, h1, h2, h3, h4, fun R S => ?_⟩
  rw [h5 R S]
  congr 1
  exact List.map_congr_left fun c hc => hV3 c hc R S

/-- C78: the mass matrix keeps the total mass: for translations `t` and `u` the form is density times `t · u` times
the total volume, so the entries of one direction add up to the mass and different directions are not coupled. -/
theorem C78_mass_total (s : DofSizes) (dof dim n : Nat) (junk : Nat → Nat → ℝ) (rho : ℝ)
    (cells : List (Cell × FemElement ℝ)) (threads : List (List (Cell × FemElement ℝ)))
    (hp : threads.flatten.Perm cells) (hs : s.size dof = .ok n) (hb : ∀ x ∈ cells, Part dim n x.2)
    (A : Cell × FemElement ℝ → ℝ) (hA : ∀ x ∈ cells, x.1.integrateScalar (fun _ => .ok 1) = .ok (A x)) :
    ∃ h m, assembleMatrix s dof (mass junk dof rho) threads = .ok h ∧ h.find? (toLex (dof, dof)) = some m ∧
      m.rows = n ∧ m.cols = n ∧ ∀ (t u R S : Nat → ℝ),
        (∀ x ∈ cells, ∀ i < x.2.nodes.length, ∀ a < dim, R (number x.2 i a) = t a ∧ S (number x.2 i a) = u a) →
        ∑ i ∈ range n, ∑ j ∈ range n, R i * m.entry i j * S j =
          (∑ a ∈ range dim, t a * u a) * (rho * (cells.map A).sum) := by
  have hex : ∀ x : Cell × FemElement ℝ, ∃ pts, x ∈ cells → x.1.Points pts ∧
      A x = (pts.map fun p => p.2.jacobian.det * p.1).sum := by
    intro x
    by_cases hx : x ∈ cells
    · obtain ⟨pts, h⟩ := points_of_volume x.1 (A x) (hA x hx)
      exact ⟨pts, fun _ => h⟩
    · exact ⟨[], fun h => absurd h hx⟩
  choose pts hpts using hex
  obtain ⟨h, m, h1, h2, h3, h4, h5⟩ := C78_mass_form s dof dim n junk rho cells threads hp hs hb pts
    fun x hx => (hpts x hx).1
  refine ⟨h, m, h1, h2, h3, h4, fun t u R S hR => ?_⟩
  rw [h5, ← mul_assoc, ← List.sum_map_mul_left]
  congr 1
  refine List.map_congr_left fun x hx => ?_
  rw [(hpts x hx).2, ← List.sum_map_mul_left]
  congr 1
  refine List.map_congr_left fun p _ => ?_
  rw [(hb x hx).translation t R (fun i hi a ha => (hR x hx i hi a ha).1),
    (hb x hx).translation u S (fun i hi a ha => (hR x hx i hi a ha).2), dot_range dim _ (by simp)]
  have : ∑ k ∈ range dim, ((List.range dim).map t).getD k 0 * u k = ∑ k ∈ range dim, t k * u k := by
    refine sum_congr rfl fun k hk => ?_
    rw [List.getD_eq_getElem _ _ (by simpa using hk)]
    simp
  rw [this]
  ring

/-- C78: the kinetic energy of every state of motion is nonnegative if density, determinants and weights are. -/
theorem C78_mass_nonneg (s : DofSizes) (dof dim n : Nat) (junk : Nat → Nat → ℝ) (rho : ℝ) (hrho : 0 ≤ rho)
    (cells : List (Cell × FemElement ℝ)) (threads : List (List (Cell × FemElement ℝ)))
    (hp : threads.flatten.Perm cells) (hs : s.size dof = .ok n) (hb : ∀ x ∈ cells, Part dim n x.2)
    (pts : Cell × FemElement ℝ → List (ℝ × IpData)) (hpts : ∀ x ∈ cells, x.1.Points (pts x))
    (hpos : ∀ x ∈ cells, ∀ p ∈ pts x, 0 ≤ p.2.jacobian.det ∧ 0 ≤ p.1) :
    ∃ h m, assembleMatrix s dof (mass junk dof rho) threads = .ok h ∧ h.find? (toLex (dof, dof)) = some m ∧
      ∀ R : Nat → ℝ, 0 ≤ ∑ i ∈ range n, ∑ j ∈ range n, R i * m.entry i j * R j := by
  obtain ⟨h, m, h1, h2, _, _, h5⟩ := C78_mass_form s dof dim n junk rho cells threads hp hs hb pts hpts
  refine ⟨h, m, h1, h2, fun R => ?_⟩
  rw [h5]
  refine List.sum_nonneg fun y hy => ?_
  obtain ⟨x, hx, rfl⟩ := List.mem_map.1 hy
  refine List.sum_nonneg fun z hz => ?_
  obtain ⟨p, hp', rfl⟩ := List.mem_map.1 hz
  obtain ⟨g1, g2⟩ := hpos x hx p hp'
  refine mul_nonneg (mul_nonneg (mul_nonneg hrho ?_) g1) g2
  exact sum_nonneg fun k _ => mul_self_nonneg _

/-- The triangle of `exampleBody` has area 3 and meets the hypotheses of the theorems. -/
example : Part 2 6 exampleBody.2 ∧ exampleBody.1.integrateScalar (fun _ => .ok 1) = .ok 3 := by
  refine ⟨⟨exampleBody_ok.dof, exampleBody_ok.dofUnity, exampleBody_ok.numbered⟩, ?_⟩
  rw [C57_triangle exampleBody.1 0 0 2 0 0 3 rfl (by simp [exampleBody])]
  norm_num

end Balance

end NuTo
