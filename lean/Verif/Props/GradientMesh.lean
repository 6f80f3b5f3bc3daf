/-
C109: gradient enhanced damage on a mesh: the nonlocal equivalent strains keep the total of the local ones, are bounded by
them, are determined by them, and homogeneous states are reproduced.
-/
import Verif.Model.GradientMesh
import Verif.Props.PatchSolve
import Verif.Props.ElasticStep
import Verif.Props.Integrands

namespace NuTo

open Assembly Finset Balance ElasticStep Integrands

namespace GradientMesh

variable {N : Nat}

/-! ### Assembly of two dof types -/

/-- A cell of a mesh with `nd` displacement dofs and `ne` dofs of nonlocal strains. -/
structure Fits (dim nd ne : Nat) (x : Part) : Prop where
  disp : Body dim nd (x.cell, x.disp)
  nodes : Nodes 1 x.eeq
  unity : Unity x.eeq.interp
  numbered : Numbered ne x.eeq
  dimension : x.eeq.interp.dim = dim

theorem find_disp {disp eeq : Nat} (h : disp ≠ eeq) (F H : List ℝ) :
    ((OMap.set (OMap.set [] disp F) eeq H : DofVec ℝ)).find? disp = some F := by
  rw [OMap.find?_set, if_neg h, OMap.find?_set, if_pos rfl]

theorem find_eeq {disp eeq : Nat} (F H : List ℝ) :
    ((OMap.set (OMap.set [] disp F) eeq H : DofVec ℝ)).find? eeq = some H := by
  rw [OMap.find?_set, if_pos rfl]

/-- Integration of one cell. -/
theorem vector_cell2 (c : Cell) (pts : List (ℝ × IpData)) (h : c.Points pts) {disp eeq : Nat} (hne : disp ≠ eeq)
    (m k : Nat) (f : IpData → Res (DofVec ℝ)) (F H : IpData → List ℝ)
    (hf : ∀ p ∈ pts, f p.2 = .ok ((OMap.set [] disp (F p.2)).set eeq (H p.2)))
    (hl : ∀ p ∈ pts, (F p.2).length = m ∧ (H p.2).length = k) :
    ∃ r, c.integrateVector f = .ok r ∧ r.Sorted ∧ (∀ y, r.find? disp = some y → y.length = m) ∧
      (∀ y, r.find? eeq = some y → y.length = k) ∧
      (∀ i, coef r disp i = (pts.map fun p => (F p.2).getD i 0 * p.2.jacobian.det * p.1).sum) ∧
      ∀ i, coef r eeq i = (pts.map fun p => (H p.2).getD i 0 * p.2.jacobian.det * p.1).sum := by
  obtain ⟨r, h1, h2, h3, _, h5⟩ := C57_vector c pts h (fun d => (OMap.set [] disp (F d)).set eeq (H d))
    (fun d => if d = disp then m else k)
    (fun p _ => OMap.sorted_set (OMap.sorted_set (by simp [OMap.Sorted]) _ _) _ _) (fun p hp d x hx => by
      by_cases hd : d = eeq
      · subst hd
        rw [find_eeq] at hx
        cases hx
        rw [if_neg (Ne.symm hne)]
        exact (hl p hp).2
      · rw [OMap.find?_set, if_neg hd, OMap.find?_set] at hx
        by_cases hd' : d = disp
        · rw [if_pos hd'] at hx
          cases hx
          rw [if_pos hd']
          exact (hl p hp).1
        · rw [if_neg hd'] at hx
          cases hx)
  refine ⟨r, ?_, h2, fun y hy => ?_, fun y hy => ?_, fun i => ?_, fun i => ?_⟩
  · rw [← h1]
    exact integrateGeneric_congr _ c _ _ _ pts h hf
  · simpa using h3 disp y hy
  · simpa [Ne.symm hne] using h3 eeq y hy
  · rw [h5]
    simp only [coef, find_disp hne]
  · rw [h5]
    simp only [coef, find_eeq]

/-- The sum of a local vector weighted by `R`. -/
theorem local_sum (r : DofVec ℝ) (dof dim n : Nat) (e : FemElement ℝ) (nums : List Int) (num : Nat → List Int)
    (hnum : num dof = nums) (n2 : nums.length = dim * e.nodes.length)
    (n3 : ∀ k < dim * e.nodes.length, (nums.getD k 0).toNat = number e (k / dim) (k % dim))
    (n5 : ∀ g ∈ nums, 0 ≤ g ∧ g < (n : Int)) (pts : List (ℝ × IpData)) (F : IpData → List ℝ)
    (hF : ∀ p ∈ pts, (F p.2).length = dim * e.nodes.length)
    (r4 : ∀ i, coef r dof i = (pts.map fun p => (F p.2).getD i 0 * p.2.jacobian.det * p.1).sum) (R : Nat → ℝ) :
    ∑ i ∈ range n, VecCell.adds ⟨r, num⟩ dof i * R i =
      (pts.map fun p => dot (F p.2) (Balance.restrict dim e R) * p.2.jacobian.det * p.1).sum := by
  have h1 : ∑ i ∈ range n, VecCell.adds ⟨r, num⟩ dof i * R i =
      ∑ k ∈ range (dim * e.nodes.length), coef r dof k * R (nums.getD k 0).toNat := by
    unfold VecCell.adds coef
    dsimp only
    cases r.find? dof with
    | none => simp
    | some vals =>
      dsimp only
      rw [hnum, ← n2]
      exact scatter_sum n nums vals R n5
  rw [h1]
  calc ∑ k ∈ range (dim * e.nodes.length), coef r dof k * R (nums.getD k 0).toNat
      = ∑ k ∈ range (dim * e.nodes.length), (pts.map fun p =>
          (F p.2).getD k 0 * p.2.jacobian.det * p.1 * R (nums.getD k 0).toNat).sum := by
        refine sum_congr rfl fun k _ => ?_
        rw [r4, List.sum_map_mul_right]
    _ = _ := by
        rw [list_sum_range]
        congr 1
        refine List.map_congr_left fun p hp => ?_
        rw [dot, hF p hp, sum_mul, sum_mul]
        refine sum_congr rfl fun k hk => ?_
        have hk' := mem_range.1 hk
        have hR : (Balance.restrict dim e R).getD k 0 = R (number e (k / dim) (k % dim)) := by
          rw [Balance.restrict, List.getD_eq_getElem _ _ (by simpa using hk')]
          simp only [List.getElem_map, List.getElem_range]
        rw [n3 k hk', hR]
        ring

/-- Integration and assembly of both blocks. -/
theorem assembled (s : DofSizes) {disp eeq : Nat} (hne : disp ≠ eeq) (dim nd ne : Nat) (cells : List Part) (φ : Part → Part)
    (threads : List (List Part)) (hp : threads.flatten.Perm cells) (hsd : s.size disp = .ok nd) (hse : s.size eeq = .ok ne)
    (f : Part → IpData → Res (DofVec ℝ)) (F H : Part → IpData → List ℝ) (pts : Part → List (ℝ × IpData))
    (hb : ∀ x ∈ cells, Fits dim nd ne (φ x)) (hpts : ∀ x ∈ cells, (φ x).cell.Points (pts x))
    (hc : ∀ x ∈ cells, ∀ p ∈ pts x, f (φ x) p.2 = .ok ((OMap.set [] disp (F x p.2)).set eeq (H x p.2)) ∧
      (F x p.2).length = dim * (φ x).disp.nodes.length ∧ (H x p.2).length = 1 * (φ x).eeq.nodes.length) :
    ∃ v a b, assemble s disp eeq f (threads.map fun t => t.map φ) = .ok v ∧ v.find? disp = some a ∧ v.find? eeq = some b ∧ a.length = nd ∧
      b.length = ne ∧
      (∀ R : Nat → ℝ, ∑ i ∈ range nd, a.getD i 0 * R i = (cells.map fun c => ((pts c).map fun p =>
          dot (F c p.2) (Balance.restrict dim (φ c).disp R) * p.2.jacobian.det * p.1).sum).sum) ∧
      ∀ R : Nat → ℝ, ∑ i ∈ range ne, b.getD i 0 * R i = (cells.map fun c => ((pts c).map fun p =>
          dot (H c p.2) (Balance.restrict 1 (φ c).eeq R) * p.2.jacobian.det * p.1).sum).sum := by
  have hcell : ∀ x ∈ cells, ∃ V, vecCell disp eeq f (φ x) = .ok V ∧
      VecCell.Fits V [disp, eeq] (fun d => if d = disp then nd else ne) ∧
      (∀ R : Nat → ℝ, ∑ i ∈ range nd, VecCell.adds V disp i * R i =
        ((pts x).map fun p => dot (F x p.2) (Balance.restrict dim (φ x).disp R) * p.2.jacobian.det * p.1).sum) ∧
      ∀ R : Nat → ℝ, ∑ i ∈ range ne, VecCell.adds V eeq i * R i =
        ((pts x).map fun p => dot (H x p.2) (Balance.restrict 1 (φ x).eeq R) * p.2.jacobian.det * p.1).sum := by
    intro x hx
    have hx' := hb x hx
    obtain ⟨r, r1, r2, r3, r3', r4, r4'⟩ := vector_cell2 (φ x).cell (pts x) (hpts x hx) hne (dim * (φ x).disp.nodes.length)
      (1 * (φ x).eeq.nodes.length) (f (φ x)) (F x) (H x) (fun p hp => (hc x hx p hp).1) (fun p hp => (hc x hx p hp).2)
    obtain ⟨_, nums, n1, n2, n3, n4⟩ := hx'.disp.dof.read
    obtain ⟨_, nums', m1, m2, m3, m4⟩ := hx'.nodes.read
    have n5 := n4 nd hx'.disp.numbered
    have m5 := m4 ne hx'.numbered
    refine ⟨⟨r, fun d => if d = disp then nums else if d = eeq then nums' else []⟩, ?_, ⟨r2, ?_⟩, fun R => ?_, fun R => ?_⟩
    · rw [vecCell, r1, Res.bind_ok', n1, Res.bind_ok', m1, Res.bind_ok']
    · intro d hd vals hvals
      dsimp only at hvals ⊢
      rcases List.mem_cons.1 hd with rfl | hd
      · rw [if_pos rfl, if_pos rfl]
        exact ⟨n5, by rw [n2, r3 vals hvals]⟩
      · obtain rfl := List.mem_singleton.1 hd
        rw [if_neg (Ne.symm hne), if_neg (Ne.symm hne), if_pos rfl]
        exact ⟨m5, by rw [m2, r3' vals hvals]⟩
    · exact local_sum r disp dim nd (φ x).disp nums _ (if_pos rfl) n2 n3 n5 (pts x) (F x)
        (fun p hp => (hc x hx p hp).2.1) r4 R
    · exact local_sum r eeq 1 ne (φ x).eeq nums' _ ((if_neg (Ne.symm hne)).trans (if_pos rfl)) m2 m3 m5 (pts x) (H x)
        (fun p hp => (hc x hx p hp).2.2) r4' R
  have : Inhabited (VecCell ℝ) := ⟨⟨[], fun _ => []⟩⟩
  choose! V hV1 hV2 hV3 hV4 using hcell
  have hmem : ∀ t ∈ threads, ∀ x ∈ t, x ∈ cells := fun t ht x hx =>
    hp.mem_iff.1 (List.mem_flatten.2 ⟨t, ht, hx⟩)
  have hmap : ((threads.map fun t => t.map φ).mapM fun (t : List Part) => t.mapM (vecCell disp eeq f)) =
      .ok (threads.map fun t => t.map V) := by
    rw [List.mapM_map]
    refine Res.mapM_ok _ _ _ fun t ht => ?_
    show (t.map φ).mapM (vecCell disp eeq f) = _
    rw [List.mapM_map]
    exact Res.mapM_ok _ _ _ fun x hx => hV1 x (hmem t ht x hx)
  have hperm : (threads.map fun t => t.map V).flatten.Perm (cells.map V) := by
    rw [← List.map_flatten]
    exact hp.map V
  obtain ⟨v, h1, _, _, h4⟩ := C13_buildVector s [disp, eeq] (fun d => if d = disp then nd else ne) (cells.map V) _ hperm
    (by simp [hne]) (fun d hd => by
      rcases List.mem_cons.1 hd with rfl | hd
      · rw [if_pos rfl]; exact hsd
      · obtain rfl := List.mem_singleton.1 hd
        rw [if_neg (Ne.symm hne)]; exact hse) (fun c hc => by
      obtain ⟨x, hx, rfl⟩ := List.mem_map.1 hc
      exact hV2 x hx)
  obtain ⟨a, a1, a2, a3⟩ := h4 disp (by simp)
  obtain ⟨b, b1, b2, b3⟩ := h4 eeq (by simp)
  rw [if_pos rfl] at a2 a3
  rw [if_neg (Ne.symm hne)] at b2 b3
  refine ⟨v, a, b, by rw [assemble, hmap, Res.bind_ok', h1], a1, b1, a2, b2, fun R => ?_, fun R => ?_⟩
  · rw [← List.map_congr_left fun c hc => hV3 c hc R, ← list_sum_range]
    refine sum_congr rfl fun i hi => ?_
    rw [List.getD_eq_getElem?_getD, a3 i (mem_range.1 hi), Option.getD_some, List.map_map, ← List.sum_map_mul_right]
    rfl
  · rw [← List.map_congr_left fun c hc => hV4 c hc R, ← list_sum_range]
    refine sum_congr rfl fun i hi => ?_
    rw [List.getD_eq_getElem?_getD, b3 i (mem_range.1 hi), Option.getD_some, List.map_map, ← List.sum_map_mul_right]
    rfl

/-! ### Integration points -/

/-- The strain of displacements `U` at an integration point. -/
noncomputable def strainAt (dim : Nat) (x : Part) (d : IpData) (U : Nat → ℝ) : List ℝ :=
  strains dim (gradients x.disp d) (Balance.restrict dim x.disp U)

/-- The strain as the law sees it. -/
noncomputable def strainVec (N dim : Nat) (x : Part) (d : IpData) (U : Nat → ℝ) : Fin N → ℝ :=
  fun i => (strainAt dim x d U).getD i 0

/-- The interpolated nonlocal strain. -/
noncomputable def nonlocal (x : Part) (d : IpData) (E : Nat → ℝ) : ℝ :=
  ∑ i ∈ range x.eeq.interp.numNodes, (x.eeq.interp.shape fun k => d.coords.getD k 0).getD i 0 * E (number x.eeq i 0)

/-- Component `b` of the gradient of the nonlocal strain. -/
noncomputable def slope (x : Part) (d : IpData) (E : Nat → ℝ) (b : Nat) : ℝ :=
  ∑ i ∈ range x.eeq.interp.numNodes, (gradients x.eeq d).coef i b * E (number x.eeq i 0)

/-- The damage at an integration point with the history value `old`. -/
noncomputable def damage (g : GradientDamage N) (old : ℝ) (x : Part) (d : IpData) (E : Nat → ℝ) : ℝ :=
  g.law.damage (max old (nonlocal x d E))

theorem moved_fits {dim nd ne : Nat} {x : Part} (h : Fits dim nd ne x) (U E : List ℝ) : Fits dim nd ne (movedPart U E x) := by
  refine ⟨moved_body h.disp U, moved_nodesOk E x.eeq h.nodes, h.unity, ?_, h.dimension⟩
  intro nd hnd
  obtain ⟨nd', hm, rfl⟩ := List.mem_map.1 hnd
  exact h.numbered nd' hm

theorem restrict_one {e : FemElement ℝ} (h : Nodes 1 e) (E : Nat → ℝ) {i : Nat} (hi : i < e.interp.numNodes) :
    (Balance.restrict 1 e E).getD i 0 = E (number e i 0) := by
  have := restrict_getD (dim := 1) (e := e) (R := E) (i := i) (a := 0) (by rw [h.count]; exact hi) one_pos
  simpa using this

theorem ofFn_dot {n : Nat} (a : Fin n → ℝ) (b : List ℝ) : dot (List.ofFn a) b = ∑ k : Fin n, a k * b.getD k 0 := by
  rw [dot, List.length_ofFn, ← Fin.sum_univ_eq_sum_range (fun k => (List.ofFn a).getD k 0 * b.getD k 0)]
  refine sum_congr rfl fun k _ => ?_
  rw [List.getD_eq_getElem _ _ (by simp)]
  simp

/-- What the integrand gives at an integration point for the state `U`, `E`. -/
theorem point_ok (junk : Nat → Nat → ℝ) (disp eeq : Nat) (g : GradientDamage N) {dim nd ne : Nat} {x : Part}
    (h : Fits dim nd ne x) (hN : N = voigtSize dim) {pts : List (ℝ × IpData)} (hp : x.cell.Points pts) (p : ℝ × IpData)
    (hm : p ∈ pts) (old : ℝ) (hold : g.history.get p.2.cellId p.2.ipId = .ok old) (U E : List ℝ) :
    ∃ F H, gradient junk disp eeq g (movedPart U E x) p.2 = .ok ((OMap.set [] disp F).set eeq H) ∧
      F.length = dim * x.disp.nodes.length ∧ H.length = 1 * x.eeq.nodes.length ∧
      (∀ R : Nat → ℝ, dot F (Balance.restrict dim x.disp R) =
        ∑ i : Fin N, g.elastic.stress (strainVec N dim x p.2 fun i => U.getD i 0)
          (damage g old x p.2 fun i => E.getD i 0) i * strainVec N dim x p.2 R i) ∧
      ∀ R : Nat → ℝ, dot H (Balance.restrict 1 x.eeq R) =
        (nonlocal x p.2 (fun i => E.getD i 0) - g.norm (strainVec N dim x p.2 fun i => U.getD i 0)) * nonlocal x p.2 R +
        g.c * g.interaction.factor (damage g old x p.2 fun i => E.getD i 0) *
          ∑ b ∈ range dim, slope x p.2 (fun i => E.getD i 0) b * slope x p.2 R b := by
  obtain ⟨j1, j2, _⟩ := h.disp.point hp p hm
  obtain ⟨B, b1, b2, b3⟩ := strain_ok dim h.disp.dim1 h.disp.dim3 (gradients x.disp p.2) j1
  have hrows : (gradients x.disp p.2).rows = x.disp.nodes.length := h.disp.dof.count.symm
  rw [hrows] at b2 b3
  have hval : ∀ R : Nat → ℝ, ∀ i < B.rows, (strainAt dim x p.2 R).getD i 0 =
      ∑ k : Fin B.cols, B.coef i k * (Balance.restrict dim x.disp R).getD k 0 := by
    intro R i hi
    have := b3 (Balance.restrict dim x.disp R) (restrict_length _ _ _)
    rw [DMat.mulVec, Res.require, if_pos (by rw [b2, restrict_length])] at this
    rw [strainAt, ← Res.ok.inj this, List.getD_eq_getElem _ _ (by simpa using hi)]
    simp only [List.getElem_map, List.getElem_range]
    rw [sum_range_list, ← Fin.sum_univ_eq_sum_range (fun k => B.coef i k * (Balance.restrict dim x.disp R).getD k 0)]
  have hBr : B.rows = N := by
    have hu := b3 (Balance.restrict dim x.disp fun _ => 0) (restrict_length _ _ _)
    rw [DMat.mulVec, Res.require, if_pos (by rw [b2, restrict_length])] at hu
    have hl := congrArg List.length (Res.ok.inj hu)
    rw [hN, ← Balance.strains_length dim h.disp.dim1 h.disp.dim3 (gradients x.disp p.2)
      (Balance.restrict dim x.disp fun _ => 0), ← hl]
    simp
  have hs : x.eeq.interp.numNodes ≤ (x.eeq.interp.shape fun k => p.2.coords.getD k 0).length := (h.unity.shapeLen _).ge
  obtain ⟨Ne, h1, h2, h3, h4⟩ := nMatrix_fold junk (x.eeq.interp.shape fun k => p.2.coords.getD k 0) 1
    (1 * x.eeq.interp.numNodes) x.eeq.interp.numNodes hs
  have hNe : ∀ i < x.eeq.interp.numNodes, Ne.coef 0 i = (x.eeq.interp.shape fun k => p.2.coords.getD k 0).getD i 0 := by
    intro i hi
    have := h4 i hi 0 one_pos 0 one_pos
    simpa using this
  have hnm : (moved E x.eeq).nMatrix junk (fun k => p.2.coords.getD k 0) = .ok Ne := by
    rw [FemElement.nMatrix, (moved_nodesOk E x.eeq h.nodes).dimension, Res.bind_ok']
    exact h1
  have hsum : ∀ R : Nat → ℝ, nonlocal x p.2 R =
      ∑ k : Fin x.eeq.interp.numNodes, Ne.coef 0 k * (Balance.restrict 1 x.eeq R).getD k 0 := by
    intro R
    rw [nonlocal, ← Fin.sum_univ_eq_sum_range
      (fun i => (x.eeq.interp.shape fun k => p.2.coords.getD k 0).getD i 0 * R (number x.eeq i 0))]
    refine sum_congr rfl fun k _ => ?_
    rw [hNe k k.2, restrict_one h.nodes R k.2]
  have hslope : ∀ (R : Nat → ℝ) (b : Nat), slope x p.2 R b =
      ∑ k : Fin x.eeq.interp.numNodes, (gradients x.eeq p.2).coef k b * (Balance.restrict 1 x.eeq R).getD k 0 := by
    intro R b
    rw [slope, ← Fin.sum_univ_eq_sum_range
      (fun i => (gradients x.eeq p.2).coef i b * R (number x.eeq i 0))]
    refine sum_congr rfl fun k _ => ?_
    rw [restrict_one h.nodes R k.2]
  set u := Balance.restrict dim x.disp fun i => U.getD i 0 with hu
  set e := Balance.restrict 1 x.eeq fun i => E.getD i 0 with he
  have hul : u.length = B.cols := by rw [hu, restrict_length, b2]
  have hel : e.length = x.eeq.interp.numNodes := by rw [he, restrict_length, one_mul, h.nodes.count]
  have hg : gMatrix (moved E x.eeq) p.2 = .ok (Nabla.gradient (gradients x.eeq p.2)) := by
    rw [gMatrix, Res.require, if_pos (show (moved E x.eeq).interp.dim = p.2.jacobian.cols from h.dimension.trans j2.symm)]
    rfl
  have hbm : bMatrix (moved U x.disp) p.2 = .ok B := by
    rw [bMatrix, Res.require, if_pos (show (moved U x.disp).interp.dim = p.2.jacobian.cols from h.disp.dofDim.trans j2.symm)]
    exact b1
  have hue : (moved U x.disp).extractNodeValues 0 = .ok u := by
    rw [(moved_nodesOk U x.disp h.disp.dof).read.1, moved_values U x.disp h.disp.dof]
  have hee : (moved E x.eeq).extractNodeValues 0 = .ok e := by
    rw [(moved_nodesOk E x.eeq h.nodes).read.1, moved_values E x.eeq h.nodes]
  obtain ⟨q, hq⟩ : ∃ q : GradientDamage.Ip N (Nabla.gradient (gradients x.eeq p.2)).rows B.cols
    (Nabla.gradient (gradients x.eeq p.2)).cols, q = point B (Nabla.gradient (gradients x.eeq p.2)) Ne u e p.2 := ⟨_, rfl⟩
  have hqv : q.eeqValue = nonlocal x p.2 fun i => E.getD i 0 := by
    rw [hsum, hq]
    rfl
  have hqs : q.disp.apply = strainVec N dim x p.2 fun i => U.getD i 0 := by
    funext i
    rw [strainVec, hval _ _ (by rw [hBr]; exact i.2), hq]
    rfl
  have hqa : ∀ b, q.eeq.apply b = slope x p.2 (fun i => E.getD i 0) b := by
    intro b
    rw [hslope, hq]
    rfl
  refine ⟨List.ofFn (q.disp.B.transpose.mulVec (g.elastic.stress (strainVec N dim x p.2 fun i => U.getD i 0)
      (damage g old x p.2 fun i => E.getD i 0))),
    List.ofFn (q.eeq.N.transpose.mulVec (fun _ => nonlocal x p.2 (fun i => E.getD i 0) -
        g.norm (strainVec N dim x p.2 fun i => U.getD i 0)) +
      q.eeq.B.transpose.mulVec ((g.c * g.interaction.factor (damage g old x p.2 fun i => E.getD i 0)) • q.eeq.apply)),
    ?_, ?_, ?_, fun R => ?_, fun R => ?_⟩
  · rw [gradient]
    simp only [movedPart]
    rw [hbm, Res.bind_ok', hg, Res.bind_ok', hnm, Res.bind_ok', hue, Res.bind_ok', hee, Res.bind_ok', Res.require,
      if_pos ⟨hBr, hul.symm, hel.symm, h2, by rw [h3, hel, one_mul]⟩, ← hq, GradientDamage.gradient, GradientDamage.kappa]
    have hid : q.cellId = p.2.cellId ∧ q.ipId = p.2.ipId := by rw [hq]; exact ⟨rfl, rfl⟩
    rw [hid.1, hid.2, hold, Res.bind_ok', Res.bind_ok', Res.bind_ok', hqv, hqs]
    rfl
  · rw [List.length_ofFn, b2]
  · rw [List.length_ofFn, one_mul, h.nodes.count]
    rfl
  · rw [ofFn_dot]
    have hB : ∀ i j, q.disp.B i j = B.coef i j := by rw [hq]; exact fun _ _ => rfl
    simp only [Matrix.mulVec, dotProduct, Matrix.transpose_apply, hB, sum_mul]
    rw [sum_comm]
    refine sum_congr rfl fun i _ => ?_
    rw [strainVec, hval R i (by rw [hBr]; exact i.2), mul_sum]
    exact sum_congr rfl fun k _ => by ring
  · rw [ofFn_dot]
    have hn : ∀ i j, q.eeq.N i j = Ne.coef i j := by rw [hq]; exact fun _ _ => rfl
    have hb : ∀ i j, q.eeq.B i j = (gradients x.eeq p.2).coef j i := by rw [hq]; exact fun _ _ => rfl
    simp only [Pi.add_apply, Matrix.mulVec, dotProduct, Matrix.transpose_apply, hn, hb, Pi.smul_apply, smul_eq_mul, hqa,
      Fin.sum_univ_one, add_mul, sum_add_distrib]
    congr 1
    · rw [hsum R, mul_sum]
      refine sum_congr rfl fun k _ => ?_
      rw [show ((0 : Fin 1) : Nat) = 0 from rfl]
      ring
    · have hdim : (Nabla.gradient (gradients x.eeq p.2)).rows = dim := j1
      rw [← hdim, ← Fin.sum_univ_eq_sum_range (fun b => slope x p.2 (fun i => E.getD i 0) b * slope x p.2 R b), mul_sum]
      simp only [sum_mul]
      rw [sum_comm]
      refine sum_congr rfl fun b _ => ?_
      rw [hslope R b, mul_sum, mul_sum]
      exact sum_congr rfl fun k _ => by ring

/-- C109: for every schedule of the threads the residual of every state exists.  The block of the displacements is the
virtual work of the stresses at the damage of the nonlocal strains, the block of the nonlocal strains is the weak form of
`ē - c g Δē = ε_eq`. -/
theorem C109_weak_form (s : DofSizes) (junk : Nat → Nat → ℝ) {disp eeq : Nat} (hne : disp ≠ eeq) (g : GradientDamage N)
    {dim nd ne : Nat} (hN : N = voigtSize dim) (cells : List Part) (threads : List (List Part))
    (hp : threads.flatten.Perm cells) (hsd : s.size disp = .ok nd) (hse : s.size eeq = .ok ne)
    (hb : ∀ x ∈ cells, Fits dim nd ne x) (pts : Part → List (ℝ × IpData)) (hpts : ∀ x ∈ cells, x.cell.Points (pts x))
    (old : IpData → ℝ) (hold : ∀ x ∈ cells, ∀ p ∈ pts x, g.history.get p.2.cellId p.2.ipId = .ok (old p.2))
    (U E : List ℝ) :
    ∃ v a b, residual s junk disp eeq g threads U E = .ok v ∧ v.find? disp = some a ∧ v.find? eeq = some b ∧
      a.length = nd ∧ b.length = ne ∧
      (∀ R : Nat → ℝ, ∑ i ∈ range nd, a.getD i 0 * R i = (cells.map fun x => ((pts x).map fun p =>
        (∑ i : Fin N, g.elastic.stress (strainVec N dim x p.2 fun i => U.getD i 0)
          (damage g (old p.2) x p.2 fun i => E.getD i 0) i * strainVec N dim x p.2 R i) *
            p.2.jacobian.det * p.1).sum).sum) ∧
      ∀ R : Nat → ℝ, ∑ i ∈ range ne, b.getD i 0 * R i = (cells.map fun x => ((pts x).map fun p =>
        ((nonlocal x p.2 (fun i => E.getD i 0) - g.norm (strainVec N dim x p.2 fun i => U.getD i 0)) * nonlocal x p.2 R +
        g.c * g.interaction.factor (damage g (old p.2) x p.2 fun i => E.getD i 0) *
          ∑ b ∈ range dim, slope x p.2 (fun i => E.getD i 0) b * slope x p.2 R b) *
            p.2.jacobian.det * p.1).sum).sum := by
  have hex : ∀ (x : Part) (d : IpData), ∃ FH : List ℝ × List ℝ, (x ∈ cells ∧ ∃ p ∈ pts x, p.2 = d) →
      gradient junk disp eeq g (movedPart U E x) d = .ok ((OMap.set [] disp FH.1).set eeq FH.2) ∧
      FH.1.length = dim * x.disp.nodes.length ∧ FH.2.length = 1 * x.eeq.nodes.length ∧
      (∀ R : Nat → ℝ, dot FH.1 (Balance.restrict dim x.disp R) =
        ∑ i : Fin N, g.elastic.stress (strainVec N dim x d fun i => U.getD i 0)
          (damage g (old d) x d fun i => E.getD i 0) i * strainVec N dim x d R i) ∧
      ∀ R : Nat → ℝ, dot FH.2 (Balance.restrict 1 x.eeq R) =
        (nonlocal x d (fun i => E.getD i 0) - g.norm (strainVec N dim x d fun i => U.getD i 0)) * nonlocal x d R +
        g.c * g.interaction.factor (damage g (old d) x d fun i => E.getD i 0) *
          ∑ b ∈ range dim, slope x d (fun i => E.getD i 0) b * slope x d R b := by
    intro x d
    by_cases hx : x ∈ cells ∧ ∃ p ∈ pts x, p.2 = d
    · obtain ⟨hx, p, hp', rfl⟩ := hx
      obtain ⟨F, H, h⟩ := point_ok junk disp eeq g (hb x hx) hN (hpts x hx) p hp' (old p.2) (hold x hx p hp') U E
      exact ⟨(F, H), fun _ => h⟩
    · exact ⟨([], []), fun h => absurd h hx⟩
  choose FH hFH using hex
  obtain ⟨v, a, b, h1, h2, h3, h4, h5, h6, h7⟩ := assembled s hne dim nd ne cells (movedPart U E) threads hp hsd hse
    (gradient junk disp eeq g) (fun x d => (FH x d).1) (fun x d => (FH x d).2) pts (fun x hx => moved_fits (hb x hx) U E)
    hpts (fun x hx p hp' => by
      obtain ⟨k1, k2, k3, _⟩ := hFH x p.2 ⟨hx, p, hp', rfl⟩
      exact ⟨k1, by rw [k2]; simp [movedPart, moved_nodes], by rw [k3]; simp [movedPart, moved_nodes]⟩)
  refine ⟨v, a, b, h1, h2, h3, h4, h5, fun R => ?_, fun R => ?_⟩
  · rw [h6 R]
    congr 1
    refine List.map_congr_left fun x hx => ?_
    congr 1
    refine List.map_congr_left fun p hp' => ?_
    rw [show (movedPart U E x).disp = moved U x.disp from rfl, moved_restrict,
      (hFH x p.2 ⟨hx, p, hp', rfl⟩).2.2.2.1 R]
  · rw [h7 R]
    congr 1
    refine List.map_congr_left fun x hx => ?_
    congr 1
    refine List.map_congr_left fun p hp' => ?_
    rw [show (movedPart U E x).eeq = moved E x.eeq from rfl, moved_restrict,
      (hFH x p.2 ⟨hx, p, hp', rfl⟩).2.2.2.2 R]

/-! ### Consequences -/

/-- The integral over all cells of a function of the integration points. -/
noncomputable def integral (cells : List Part) (pts : Part → List (ℝ × IpData)) (f : Part → IpData → ℝ) : ℝ :=
  (cells.map fun x => ((pts x).map fun p => f x p.2 * p.2.jacobian.det * p.1).sum).sum

theorem integral_add (cells : List Part) (pts : Part → List (ℝ × IpData)) (f h : Part → IpData → ℝ) :
    integral cells pts (fun x d => f x d + h x d) = integral cells pts f + integral cells pts h := by
  rw [integral, integral, integral, ← List.sum_map_add]
  congr 1
  refine List.map_congr_left fun x _ => ?_
  rw [← List.sum_map_add]
  congr 1
  exact List.map_congr_left fun p _ => by ring

theorem integral_mul (cells : List Part) (pts : Part → List (ℝ × IpData)) (k : ℝ) (f : Part → IpData → ℝ) :
    integral cells pts (fun x d => k * f x d) = k * integral cells pts f := by
  rw [integral, integral, ← List.sum_map_mul_left]
  congr 1
  refine List.map_congr_left fun x _ => ?_
  rw [← List.sum_map_mul_left]
  congr 1
  exact List.map_congr_left fun p _ => by ring

theorem integral_congr {cells : List Part} {pts : Part → List (ℝ × IpData)} {f h : Part → IpData → ℝ}
    (hfh : ∀ x ∈ cells, ∀ p ∈ pts x, f x p.2 = h x p.2) : integral cells pts f = integral cells pts h := by
  rw [integral, integral]
  congr 1
  refine List.map_congr_left fun x hx => ?_
  congr 1
  exact List.map_congr_left fun p hp => by rw [hfh x hx p hp]

/-- Functions that differ by multiples of functions with vanishing integrals. -/
theorem integral_split {cells : List Part} {pts : Part → List (ℝ × IpData)} {A B W V : Part → IpData → ℝ}
    (h : integral cells pts W = 0) (h' : integral cells pts V = 0) (k l : ℝ)
    (hpt : ∀ x ∈ cells, ∀ p ∈ pts x, A x p.2 = B x p.2 + k * W x p.2 + l * V x p.2) :
    integral cells pts A = integral cells pts B := by
  rw [integral_congr (h := fun x d => (B x d + k * W x d) + l * V x d) hpt, integral_add, integral_add, integral_mul,
    integral_mul, h, h', mul_zero, mul_zero, add_zero, add_zero]

theorem integral_nonneg {cells : List Part} {pts : Part → List (ℝ × IpData)}
    (hw : ∀ x ∈ cells, ∀ p ∈ pts x, 0 ≤ p.2.jacobian.det * p.1) {f : Part → IpData → ℝ}
    (hf : ∀ x ∈ cells, ∀ p ∈ pts x, 0 ≤ f x p.2) : 0 ≤ integral cells pts f := by
  refine List.sum_nonneg fun y hy => ?_
  obtain ⟨x, hx, rfl⟩ := List.mem_map.1 hy
  refine List.sum_nonneg fun z hz => ?_
  obtain ⟨p, hp, rfl⟩ := List.mem_map.1 hz
  rw [mul_assoc]
  exact mul_nonneg (hf x hx p hp) (hw x hx p hp)

theorem integral_eq_zero {cells : List Part} {pts : Part → List (ℝ × IpData)}
    (hw : ∀ x ∈ cells, ∀ p ∈ pts x, 0 < p.2.jacobian.det * p.1) {f : Part → IpData → ℝ}
    (hf : ∀ x ∈ cells, ∀ p ∈ pts x, 0 ≤ f x p.2) (h : integral cells pts f ≤ 0) :
    ∀ x ∈ cells, ∀ p ∈ pts x, f x p.2 = 0 := by
  intro x hx p hp
  have key : ∀ (α : Type) (l : List α) (q : α → ℝ), (∀ a ∈ l, 0 ≤ q a) → ∀ a ∈ l, q a ≤ (l.map q).sum := by
    intro α l q
    induction l with
    | nil => intro _ a ha; cases ha
    | cons c t ih =>
      intro hq a ha
      rw [List.map_cons, List.sum_cons]
      have ht : 0 ≤ (t.map q).sum := List.sum_nonneg fun y hy => by
        obtain ⟨b, hb, rfl⟩ := List.mem_map.1 hy
        exact hq b (List.mem_cons_of_mem _ hb)
      rcases List.mem_cons.1 ha with rfl | ha
      · linarith
      · have := ih (fun b hb => hq b (List.mem_cons_of_mem _ hb)) a ha
        have := hq c List.mem_cons_self
        linarith
  have hpt : ∀ y ∈ cells, ∀ q ∈ pts y, 0 ≤ f y q.2 * q.2.jacobian.det * q.1 := fun y hy q hq => by
    rw [mul_assoc]
    exact mul_nonneg (hf y hy q hq) (hw y hy q hq).le
  have h1 := key _ (pts x) (fun p => f x p.2 * p.2.jacobian.det * p.1) (hpt x hx) p hp
  have h2 := key _ cells (fun x => ((pts x).map fun p => f x p.2 * p.2.jacobian.det * p.1).sum) (fun y hy =>
    List.sum_nonneg fun z hz => by
      obtain ⟨q, hq, rfl⟩ := List.mem_map.1 hz
      exact hpt y hy q hq) x hx
  have h3 : f x p.2 * (p.2.jacobian.det * p.1) ≤ 0 := by
    rw [← mul_assoc]
    exact (h1.trans h2).trans h
  have h4 := hw x hx p hp
  have h5 := hf x hx p hp
  nlinarith [mul_nonneg h5 h4.le]

theorem nonlocal_const {dim nd ne : Nat} {x : Part} (h : Fits dim nd ne x) (d : IpData) (k : ℝ) (E : Nat → ℝ)
    (hE : ∀ i < x.eeq.nodes.length, E (number x.eeq i 0) = k) : nonlocal x d E = k := by
  rw [nonlocal, sum_congr rfl fun i hi => by rw [hE i (by rw [h.nodes.count]; exact mem_range.1 hi)], ← sum_mul,
    h.unity.shapeSum, one_mul]

theorem slope_const {dim nd ne : Nat} {x : Part} (h : Fits dim nd ne x) (d : IpData) (k : ℝ) (E : Nat → ℝ)
    (hE : ∀ i < x.eeq.nodes.length, E (number x.eeq i 0) = k) (b : Nat) : slope x d E b = 0 := by
  rw [slope, sum_congr rfl fun i hi => by rw [hE i (by rw [h.nodes.count]; exact mem_range.1 hi)], ← sum_mul]
  have : ∑ i ∈ range x.eeq.interp.numNodes, (gradients x.eeq d).coef i b = 0 := by
    simp only [gradients, Jacobian.transform, sum_range_list]
    rw [sum_comm]
    refine sum_eq_zero fun j _ => ?_
    rw [← sum_mul, h.unity.derivSum, zero_mul]
  rw [this, zero_mul]

/-- A mesh, the integration points of its cells, an integrand with history data for all of them (`old`). -/
structure Setting (s : DofSizes) (disp eeq : Nat) (g : GradientDamage N) (dim nd ne : Nat) (cells : List Part)
    (pts : Part → List (ℝ × IpData)) (old : IpData → ℝ) : Prop where
  types : disp ≠ eeq
  size : N = voigtSize dim
  sizeDisp : s.size disp = .ok nd
  sizeEeq : s.size eeq = .ok ne
  fits : ∀ x ∈ cells, Fits dim nd ne x
  points : ∀ x ∈ cells, x.cell.Points (pts x)
  history : ∀ x ∈ cells, ∀ p ∈ pts x, g.history.get p.2.cellId p.2.ipId = .ok (old p.2)

variable {s : DofSizes} {disp eeq : Nat} {g : GradientDamage N} {dim nd ne : Nat} {cells : List Part}
  {pts : Part → List (ℝ × IpData)} {old : IpData → ℝ}

/-- The local equivalent strain of displacements `U`. -/
noncomputable def localStrain (g : GradientDamage N) (dim : Nat) (U : List ℝ) (x : Part) (d : IpData) : ℝ :=
  g.norm (strainVec N dim x d fun i => U.getD i 0)

/-- The nonlocal equivalent strain of the node values `E`. -/
noncomputable def nonlocalStrain (E : List ℝ) (x : Part) (d : IpData) : ℝ := nonlocal x d fun i => E.getD i 0

/-- The nonlocal strains `E` solve their equation for the displacements `U`: the assembled block is zero. -/
def Solves (s : DofSizes) (junk : Nat → Nat → ℝ) (disp eeq : Nat) (g : GradientDamage N) (threads : List (List Part))
    (U E : List ℝ) : Prop :=
  ∃ v b, residual s junk disp eeq g threads U E = .ok v ∧ v.find? eeq = some b ∧ ∀ y ∈ b, y = 0

/-- The weak form of a solution. -/
theorem Solves.weak {junk : Nat → Nat → ℝ} {threads : List (List Part)} {U E : List ℝ}
    (h : Solves s junk disp eeq g threads U E) (S : Setting s disp eeq g dim nd ne cells pts old)
    (hp : threads.flatten.Perm cells) (R : Nat → ℝ) :
    integral cells pts (fun x d => (nonlocalStrain E x d - localStrain g dim U x d) * nonlocal x d R +
      g.c * g.interaction.factor (damage g (old d) x d fun i => E.getD i 0) *
        ∑ b ∈ range dim, slope x d (fun i => E.getD i 0) b * slope x d R b) = 0 := by
  obtain ⟨v, b, h1, h2, h3⟩ := h
  obtain ⟨v', _, b', k1, _, k2, _, _, _, k3⟩ := C109_weak_form s junk S.types g S.size cells threads hp S.sizeDisp S.sizeEeq
    S.fits pts S.points old S.history U E
  rw [h1] at k1
  obtain rfl := Res.ok.inj k1
  rw [h2] at k2
  obtain rfl := Option.some.inj k2
  have := k3 R
  rw [sum_eq_zero fun i _ => by
    have : b.getD i 0 = 0 := by
      rw [List.getD_eq_getElem?_getD]
      cases hb : b[i]? with
      | none => rfl
      | some y => exact h3 y (List.mem_of_getElem? hb)
    rw [this, zero_mul]] at this
  exact this.symm

/-- C109 (total): the entries of the block of the nonlocal strains add up to the integral of the difference of nonlocal and
local strain; the gradient term only redistributes. -/
theorem C109_total (S : Setting s disp eeq g dim nd ne cells pts old) (junk : Nat → Nat → ℝ) (threads : List (List Part))
    (hp : threads.flatten.Perm cells) (U E : List ℝ) :
    ∃ v b, residual s junk disp eeq g threads U E = .ok v ∧ v.find? eeq = some b ∧
      b.sum = integral cells pts (nonlocalStrain E) - integral cells pts (localStrain g dim U) := by
  obtain ⟨v, _, b, h1, _, h2, _, h3, _, h4⟩ := C109_weak_form s junk S.types g S.size cells threads hp S.sizeDisp S.sizeEeq
    S.fits pts S.points old S.history U E
  refine ⟨v, b, h1, h2, ?_⟩
  have h5 := h4 fun _ => 1
  have hb : ∑ i ∈ range ne, b.getD i 0 * 1 = b.sum := by
    rw [← sum_range_list, ← h3]
    congr 1
    refine List.ext_getElem (by simp) fun i hi hi' => ?_
    simp [List.getElem?_eq_getElem hi']
  rw [hb] at h5
  rw [h5]
  rw [sub_eq_add_neg, ← neg_one_mul, ← integral_mul, ← integral_add]
  refine integral_congr (cells := cells) (pts := pts) (f := fun x d =>
    (nonlocal x d (fun i => E.getD i 0) - g.norm (strainVec N dim x d fun i => U.getD i 0)) * nonlocal x d (fun _ => 1) +
        g.c * g.interaction.factor (damage g (old d) x d fun i => E.getD i 0) *
          ∑ b ∈ range dim, slope x d (fun i => E.getD i 0) b * slope x d (fun _ => 1) b) fun x hx p _ => ?_
  rw [nonlocal_const (S.fits x hx) p.2 1 (fun _ => 1) fun _ _ => rfl, sum_eq_zero fun b _ => by
    rw [slope_const (S.fits x hx) p.2 1 (fun _ => 1) (fun _ _ => rfl) b, mul_zero]]
  simp only [nonlocalStrain, localStrain]
  ring

/-- C109 (total): nonlocal strains that solve their equation have the same integral as the local strains. -/
theorem C109_conserved {junk : Nat → Nat → ℝ} {threads : List (List Part)} {U E : List ℝ}
    (h : Solves s junk disp eeq g threads U E) (S : Setting s disp eeq g dim nd ne cells pts old)
    (hp : threads.flatten.Perm cells) : integral cells pts (nonlocalStrain E) = integral cells pts (localStrain g dim U) := by
  obtain ⟨v, b, h1, h2, h3⟩ := h
  obtain ⟨v', b', k1, k2, k3⟩ := C109_total S junk threads hp U E
  rw [h1] at k1
  obtain rfl := Res.ok.inj k1
  rw [h2] at k2
  obtain rfl := Option.some.inj k2
  rw [List.sum_eq_zero h3] at k3
  linarith

/-- C109 (bound): nonlocal strains that solve their equation are bounded in the mean by the local strains; so is their gradient. -/
theorem C109_bound {junk : Nat → Nat → ℝ} {threads : List (List Part)} {U E : List ℝ}
    (h : Solves s junk disp eeq g threads U E) (S : Setting s disp eeq g dim nd ne cells pts old)
    (hp : threads.flatten.Perm cells) (hw : ∀ x ∈ cells, ∀ p ∈ pts x, 0 ≤ p.2.jacobian.det * p.1) (hc : 0 ≤ g.c)
    (hf : ∀ w, 0 ≤ g.interaction.factor w) :
    integral cells pts (fun x d => nonlocalStrain E x d ^ 2 +
      2 * (g.c * g.interaction.factor (damage g (old d) x d fun i => E.getD i 0) *
        ∑ b ∈ range dim, slope x d (fun i => E.getD i 0) b ^ 2)) ≤
      integral cells pts (fun x d => localStrain g dim U x d ^ 2) ∧
    integral cells pts (fun x d => nonlocalStrain E x d ^ 2) ≤ integral cells pts (fun x d => localStrain g dim U x d ^ 2) := by
  have h1 := h.weak S hp fun i => E.getD i 0
  have h2 : 0 ≤ integral cells pts fun x d => (nonlocalStrain E x d - localStrain g dim U x d) ^ 2 :=
    integral_nonneg hw fun x _ p _ => sq_nonneg _
  have h3 : 0 ≤ integral cells pts fun x d => 2 * (g.c * g.interaction.factor (damage g (old d) x d fun i => E.getD i 0) *
        ∑ b ∈ range dim, slope x d (fun i => E.getD i 0) b ^ 2) :=
    integral_nonneg hw fun x _ p _ => mul_nonneg (by norm_num) (mul_nonneg (mul_nonneg hc (hf _))
      (sum_nonneg fun b _ => sq_nonneg _))
  have h4 : integral cells pts (fun x d => localStrain g dim U x d ^ 2) =
      integral cells pts (fun x d => nonlocalStrain E x d ^ 2 +
        2 * (g.c * g.interaction.factor (damage g (old d) x d fun i => E.getD i 0) *
          ∑ b ∈ range dim, slope x d (fun i => E.getD i 0) b ^ 2)) +
      integral cells pts (fun x d => (nonlocalStrain E x d - localStrain g dim U x d) ^ 2) := by
    rw [← integral_add]
    refine integral_split h1 h1 (-2) 0 fun x _ p _ => ?_
    have hs : ∑ b ∈ range dim, slope x p.2 (fun i => E.getD i 0) b * slope x p.2 (fun i => E.getD i 0) b =
        ∑ b ∈ range dim, slope x p.2 (fun i => E.getD i 0) b ^ 2 := sum_congr rfl fun b _ => (sq _).symm
    rw [hs]
    simp only [nonlocalStrain]
    ring
  have h5 := integral_add cells pts (fun x d => nonlocalStrain E x d ^ 2) fun x d =>
    2 * (g.c * g.interaction.factor (damage g (old d) x d fun i => E.getD i 0) *
          ∑ b ∈ range dim, slope x d (fun i => E.getD i 0) b ^ 2)
  constructor <;> linarith

/-- C109 (dependence): with a constant interaction, the nonlocal strains depend continuously on the local strains, whatever
the histories are: the mean square of their difference is at most that of the local strains. -/
theorem C109_stable {junk junk' : Nat → Nat → ℝ} {threads threads' : List (List Part)} {U U' E E' : List ℝ} {hist : History}
    {old' : IpData → ℝ} (h : Solves s junk disp eeq g threads U E)
    (h' : Solves s junk' disp eeq { g with history := hist } threads' U' E')
    (S : Setting s disp eeq g dim nd ne cells pts old)
    (S' : Setting s disp eeq { g with history := hist } dim nd ne cells pts old')
    (hp : threads.flatten.Perm cells) (hp' : threads'.flatten.Perm cells)
    (hw : ∀ x ∈ cells, ∀ p ∈ pts x, 0 ≤ p.2.jacobian.det * p.1) (hc : 0 ≤ g.c) (k : ℝ) (hk : 0 ≤ k)
    (hf : ∀ w, g.interaction.factor w = k) :
    integral cells pts (fun x d => (nonlocalStrain E x d - nonlocalStrain E' x d) ^ 2) ≤
      integral cells pts (fun x d => (localStrain g dim U x d - localStrain g dim U' x d) ^ 2) := by
  have hnl : ∀ x d, nonlocal x d (fun i => E.getD i 0 - E'.getD i 0) = nonlocalStrain E x d - nonlocalStrain E' x d := by
    intro x d
    simp only [nonlocal, nonlocalStrain, mul_sub, sum_sub_distrib]
  have hsl : ∀ x d b, slope x d (fun i => E.getD i 0 - E'.getD i 0) b =
      slope x d (fun i => E.getD i 0) b - slope x d (fun i => E'.getD i 0) b := by
    intro x d b
    simp only [slope, mul_sub, sum_sub_distrib]
  have h1 := h.weak S hp fun i => E.getD i 0 - E'.getD i 0
  have h1' := h'.weak S' hp' fun i => E.getD i 0 - E'.getD i 0
  have h2 : 0 ≤ integral cells pts fun x d => ((nonlocalStrain E x d - nonlocalStrain E' x d) -
      (localStrain g dim U x d - localStrain g dim U' x d)) ^ 2 :=
    integral_nonneg hw fun x _ p _ => sq_nonneg _
  have h3 : 0 ≤ integral cells pts fun x d => 2 * (g.c * k *
        ∑ b ∈ range dim, slope x d (fun i => E.getD i 0 - E'.getD i 0) b ^ 2) :=
    integral_nonneg hw fun x _ p _ => mul_nonneg (by norm_num) (mul_nonneg (mul_nonneg hc hk)
      (sum_nonneg fun b _ => sq_nonneg _))
  have h4 : integral cells pts (fun x d => (localStrain g dim U x d - localStrain g dim U' x d) ^ 2) =
      integral cells pts (fun x d => (nonlocalStrain E x d - nonlocalStrain E' x d) ^ 2) +
      integral cells pts (fun x d => 2 * (g.c * k * ∑ b ∈ range dim, slope x d (fun i => E.getD i 0 - E'.getD i 0) b ^ 2)) +
      integral cells pts (fun x d => ((nonlocalStrain E x d - nonlocalStrain E' x d) -
        (localStrain g dim U x d - localStrain g dim U' x d)) ^ 2) := by
    rw [← integral_add, ← integral_add]
    refine integral_split h1 h1' (-2) 2 fun x _ p _ => ?_
    have hs : ∑ b ∈ range dim, slope x p.2 (fun i => E.getD i 0 - E'.getD i 0) b ^ 2 =
        ∑ b ∈ range dim, slope x p.2 (fun i => E.getD i 0) b * slope x p.2 (fun i => E.getD i 0 - E'.getD i 0) b -
        ∑ b ∈ range dim, slope x p.2 (fun i => E'.getD i 0) b * slope x p.2 (fun i => E.getD i 0 - E'.getD i 0) b := by
      rw [← sum_sub_distrib]
      refine sum_congr rfl fun b _ => ?_
      rw [hsl]
      ring
    rw [hs, hnl, hf, hf]
    simp only [localStrain]
    ring
  linarith

/-- C109 (uniqueness): with a constant interaction and positive weights, local strains determine the nonlocal strain at all
integration points. -/
theorem C109_unique {junk junk' : Nat → Nat → ℝ} {threads threads' : List (List Part)} {U U' E E' : List ℝ} {hist : History}
    {old' : IpData → ℝ} (h : Solves s junk disp eeq g threads U E)
    (h' : Solves s junk' disp eeq { g with history := hist } threads' U' E')
    (S : Setting s disp eeq g dim nd ne cells pts old)
    (S' : Setting s disp eeq { g with history := hist } dim nd ne cells pts old')
    (hp : threads.flatten.Perm cells) (hp' : threads'.flatten.Perm cells)
    (hw : ∀ x ∈ cells, ∀ p ∈ pts x, 0 < p.2.jacobian.det * p.1) (hc : 0 ≤ g.c) (k : ℝ) (hk : 0 ≤ k)
    (hf : ∀ w, g.interaction.factor w = k)
    (hU : ∀ x ∈ cells, ∀ p ∈ pts x, localStrain g dim U x p.2 = localStrain g dim U' x p.2) :
    ∀ x ∈ cells, ∀ p ∈ pts x, nonlocalStrain E x p.2 = nonlocalStrain E' x p.2 := by
  have h1 := C109_stable h h' S S' hp hp' (fun x hx p hp => (hw x hx p hp).le) hc k hk hf
  have h2 : integral cells pts (fun x d => (localStrain g dim U x d - localStrain g dim U' x d) ^ 2) = 0 := by
    rw [integral_congr (h := fun _ _ => 0 * 0) fun x hx p hp => by rw [hU x hx p hp]; ring, integral_mul, zero_mul]
  rw [h2] at h1
  intro x hx p hp
  have := integral_eq_zero hw (fun x _ p _ => sq_nonneg _) h1 x hx p hp
  exact sub_eq_zero.1 (pow_eq_zero_iff (by norm_num) |>.1 this)

/-! ### Homogeneous states -/

/-- Cell and displacement element. -/
def body (x : Part) : Cell × FemElement ℝ := (x.cell, x.disp)

theorem entries_zero {b : List ℝ} {n : Nat} (hb : b.length = n) (h : ∀ R : Nat → ℝ, ∑ i ∈ range n, b.getD i 0 * R i = 0) :
    ∀ y ∈ b, y = 0 := by
  intro y hy
  obtain ⟨i, hi, rfl⟩ := List.mem_iff_getElem.1 hy
  have := h fun k => if k = i then 1 else 0
  rw [sum_eq_single_of_mem i (mem_range.2 (hb ▸ hi)) (fun k _ hk => by rw [if_neg hk, mul_zero]), if_pos rfl, mul_one,
    List.getD_eq_getElem _ _ hi] at this
  exact this

/-- The strain of affine displacements. -/
theorem affine_strain {label : Cell × FemElement ℝ → Nat → Nat} {num : Nat → Nat → Nat} {pos : Nat → Nat → ℝ}
    (hcon : Connected dim nd (cells.map body) label num pos) (t : Nat → ℝ) (W : Nat → Nat → ℝ) {U : List ℝ}
    (hU : Statics.AffineVector dim (cells.map body) label num pos t W U) (S : Setting s disp eeq g dim nd ne cells pts old)
    (x : Part) (hx : x ∈ cells) (p : ℝ × IpData) (hm : p ∈ pts x) :
    strainVec N dim x p.2 (fun i => U.getD i 0) = fun i : Fin N => (voigt dim W).getD i 0 := by
  funext i
  have := Statics.C103_strain hcon t W hU (body x) (List.mem_map.2 ⟨x, hx, rfl⟩) (pts x) (S.points x hx) p hm
  rw [strainVec, strainAt]
  exact congrArg (fun l : List ℝ => l.getD i 0) this

/-- C109 (homogeneous states): affine displacements and nonlocal strains that have the equivalent strain of the affine
displacements at all nodes solve the equation of the nonlocal strains, for every history and every interaction. -/
theorem C109_homogeneous {label : Cell × FemElement ℝ → Nat → Nat} {num : Nat → Nat → Nat} {pos : Nat → Nat → ℝ}
    (hcon : Connected dim nd (cells.map body) label num pos) (t : Nat → ℝ) (W : Nat → Nat → ℝ) {U E : List ℝ}
    (hU : Statics.AffineVector dim (cells.map body) label num pos t W U) (S : Setting s disp eeq g dim nd ne cells pts old)
    (hE : ∀ x ∈ cells, ∀ i < x.eeq.nodes.length, E.getD (number x.eeq i 0) 0 = g.norm fun i => (voigt dim W).getD i 0)
    (junk : Nat → Nat → ℝ) (threads : List (List Part)) (hp : threads.flatten.Perm cells) :
    Solves s junk disp eeq g threads U E := by
  obtain ⟨v, _, b, h1, _, h2, _, h3, _, h4⟩ := C109_weak_form s junk S.types g S.size cells threads hp S.sizeDisp S.sizeEeq
    S.fits pts S.points old S.history U E
  refine ⟨v, b, h1, h2, entries_zero h3 fun R => ?_⟩
  rw [h4 R]
  refine List.sum_eq_zero fun y hy => ?_
  obtain ⟨x, hx, rfl⟩ := List.mem_map.1 hy
  refine List.sum_eq_zero fun z hz => ?_
  obtain ⟨p, hm, rfl⟩ := List.mem_map.1 hz
  rw [affine_strain hcon t W hU S x hx p hm, nonlocal_const (S.fits x hx) p.2 _ _ (hE x hx), sub_self, zero_mul, zero_add,
    sum_eq_zero fun b _ => by rw [slope_const (S.fits x hx) p.2 _ _ (hE x hx) b, zero_mul]]
  ring

/-- C109 (homogeneous states): in these states, if the history is the same everywhere, the forces at a node of the mesh are the
uniform stress times the integrals of the gradient of its shape function. -/
theorem C109_homogeneous_forces {label : Cell × FemElement ℝ → Nat → Nat} {num : Nat → Nat → Nat} {pos : Nat → Nat → ℝ}
    (hcon : Connected dim nd (cells.map body) label num pos) (t : Nat → ℝ) (W : Nat → Nat → ℝ) {U E : List ℝ}
    (hU : Statics.AffineVector dim (cells.map body) label num pos t W U) (pts' : Cell × FemElement ℝ → List (ℝ × IpData)) (k0 : ℝ)
    (S : Setting s disp eeq g dim nd ne cells (fun x => pts' (body x)) fun _ => k0)
    (hE : ∀ x ∈ cells, ∀ i < x.eeq.nodes.length, E.getD (number x.eeq i 0) 0 = g.norm fun i => (voigt dim W).getD i 0)
    (junk : Nat → Nat → ℝ) (threads : List (List Part)) (hp : threads.flatten.Perm cells) :
    ∃ v a, residual s junk disp eeq g threads U E = .ok v ∧ v.find? disp = some a ∧ a.length = nd ∧
      ∀ x ∈ cells, ∀ i < x.disp.nodes.length, ∀ c < dim, a.getD (num (label (body x) i) c) 0 =
        ∑ b ∈ range dim, tensor dim (List.ofFn (g.elastic.stress (fun i => (voigt dim W).getD i 0)
          (g.law.damage (max k0 (g.norm fun i => (voigt dim W).getD i 0))))) c b *
            flux (cells.map body) label pts' (label (body x) i) b := by
  obtain ⟨v, a, _, h1, h2, _, h3, _, h4, _⟩ := C109_weak_form s junk S.types g S.size cells threads hp S.sizeDisp S.sizeEeq
    S.fits (fun x => pts' (body x)) S.points (fun _ => k0) S.history U E
  refine ⟨v, a, h1, h2, h3, fun x0 hx0 i0 hi0 c hc => ?_⟩
  obtain ⟨sig, hsig⟩ : ∃ sig : Fin N → ℝ, sig = g.elastic.stress (fun i => (voigt dim W).getD i 0)
          (g.law.damage (max k0 (g.norm fun i => (voigt dim W).getD i 0))) := ⟨_, rfl⟩
  rw [← hsig]
  have hB := (S.fits x0 hx0).disp
  have hlt := Statics.number_lt hcon (body x0) (List.mem_map.2 ⟨x0, hx0, rfl⟩) i0 hi0 c hc
  have h5 := h4 fun k => if k = num (label (body x0) i0) c then 1 else 0
  rw [sum_eq_single_of_mem _ (mem_range.2 hlt) (fun k _ hk => by rw [if_neg hk, mul_zero]), if_pos rfl, mul_one] at h5
  rw [h5, ← Statics.unit_work hcon pts' (List.ofFn sig) (by
    rw [List.length_ofFn, S.size, Statics.voigt_voigtSize dim hB.dim1 hB.dim3]) (body x0) (List.mem_map.2 ⟨x0, hx0, rfl⟩) i0 hi0 c hc,
    List.map_map]
  congr 1
  refine List.map_congr_left fun x hx => ?_
  show _ = ((pts' (body x)).map _).sum
  congr 1
  refine List.map_congr_left fun p hm => ?_
  rw [affine_strain hcon t W hU S x hx p hm, damage, nonlocal_const (S.fits x hx) p.2 _ _ (hE x hx), ← hsig, ofFn_dot]
  rfl

/-- C109 (homogeneous states): inside a plane mesh of linear triangles and quadrilaterals these states need no forces; a state
that is homogeneous stays admissible whatever the damage is. -/
theorem C109_homogeneous_plane {label : Cell × FemElement ℝ → Nat → Nat} {num : Nat → Nat → Nat} {pos : Nat → Nat → ℝ}
    (hcon : Connected 2 nd (cells.map body) label num pos) {sc : ℝ} (hpoly : ∀ x ∈ cells, Polygon sc (body x))
    (t : Nat → ℝ) (W : Nat → Nat → ℝ) {U E : List ℝ}
    (hU : Statics.AffineVector 2 (cells.map body) label num pos t W U) (pts' : Cell × FemElement ℝ → List (ℝ × IpData))
    (k0 : ℝ) (S : Setting s disp eeq g 2 nd ne cells (fun x => pts' (body x)) fun _ => k0)
    (hE : ∀ x ∈ cells, ∀ i < x.eeq.nodes.length, E.getD (number x.eeq i 0) 0 = g.norm fun i => (voigt 2 W).getD i 0)
    (junk : Nat → Nat → ℝ) (threads : List (List Part)) (hp : threads.flatten.Perm cells) :
    ∃ v a, residual s junk disp eeq g threads U E = .ok v ∧ v.find? disp = some a ∧ a.length = nd ∧
      ∀ x ∈ cells, ∀ i < x.disp.nodes.length, Inside (cells.map body) label (label (body x) i) → ∀ c < 2,
        a.getD (num (label (body x) i) c) 0 = 0 := by
  obtain ⟨v, a, h1, h2, h3, h4⟩ := C109_homogeneous_forces hcon t W hU pts' k0 S hE junk threads hp
  refine ⟨v, a, h1, h2, h3, fun x hx i hi hin c hc => ?_⟩
  rw [h4 x hx i hi c hc]
  refine sum_eq_zero fun b hb => ?_
  rw [C88_flux_plane hcon (fun y hy => by
    obtain ⟨z, hz, rfl⟩ := List.mem_map.1 hy
    exact hpoly z hz) pts' (fun y hy => by
    obtain ⟨z, hz, rfl⟩ := List.mem_map.1 hy
    exact S.points z hz) _ hin b (mem_range.1 hb), mul_zero]

/-- C109 (homogeneous states): inside a mesh of linear tetrahedra these states need no forces. -/
theorem C109_homogeneous_space {label : Cell × FemElement ℝ → Nat → Nat} {num : Nat → Nat → Nat} {pos : Nat → Nat → ℝ}
    (hcon : Connected 3 nd (cells.map body) label num pos) {sc : ℝ}
    (htet : ∀ x ∈ cells, x.disp.interp = Interpolation.tetrahedronLinear ∧ (x.cell.rule.map fun r => r.1).sum = sc)
    (t : Nat → ℝ) (W : Nat → Nat → ℝ) {U E : List ℝ}
    (hU : Statics.AffineVector 3 (cells.map body) label num pos t W U) (pts' : Cell × FemElement ℝ → List (ℝ × IpData))
    (k0 : ℝ) (S : Setting s disp eeq g 3 nd ne cells (fun x => pts' (body x)) fun _ => k0)
    (hE : ∀ x ∈ cells, ∀ i < x.eeq.nodes.length, E.getD (number x.eeq i 0) 0 = g.norm fun i => (voigt 3 W).getD i 0)
    (junk : Nat → Nat → ℝ) (threads : List (List Part)) (hp : threads.flatten.Perm cells) :
    ∃ v a, residual s junk disp eeq g threads U E = .ok v ∧ v.find? disp = some a ∧ a.length = nd ∧
      ∀ x ∈ cells, ∀ i < x.disp.nodes.length, InsideSpace (cells.map body) label (label (body x) i) → ∀ c < 3,
        a.getD (num (label (body x) i) c) 0 = 0 := by
  obtain ⟨v, a, h1, h2, h3, h4⟩ := C109_homogeneous_forces hcon t W hU pts' k0 S hE junk threads hp
  refine ⟨v, a, h1, h2, h3, fun x hx i hi hin c hc => ?_⟩
  rw [h4 x hx i hi c hc]
  refine sum_eq_zero fun b hb => ?_
  rw [C88_flux_space hcon (fun y hy => by
    obtain ⟨z, hz, rfl⟩ := List.mem_map.1 hy
    exact htet z hz) pts' (fun y hy => by
    obtain ⟨z, hz, rfl⟩ := List.mem_map.1 hy
    exact S.points z hz) _ hin b (mem_range.1 hb), mul_zero]

end GradientMesh

end NuTo
