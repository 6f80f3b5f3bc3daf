/-
C77: internal forces do the work of the stresses on every virtual displacement and are self-equilibrated.
-/
import Verif.Lemmas.Balance
import Verif.Props.Interpolation
import Mathlib.Tactic.Linarith
import Mathlib.Tactic.NormNum

namespace NuTo

open Assembly Finset

namespace Balance

/-! ### Specification -/

/-- All tables have the announced sizes, the shape functions add up to one and their derivatives to zero. -/
structure Unity (I : Interpolation ℝ) : Prop where
  shapeLen : ∀ x, (I.shape x).length = I.numNodes
  derivLen : ∀ x, (I.deriv x).length = I.numNodes
  shapeSum : ∀ x, ∑ i ∈ range I.numNodes, (I.shape x).getD i 0 = 1
  derivSum : ∀ x j, ∑ i ∈ range I.numNodes, ((I.deriv x).getD i []).getD j 0 = 0

/-- An element with one node per shape function, all with `dim` components. -/
structure Nodes (dim : Nat) (e : FemElement ℝ) : Prop where
  ne : e.nodes ≠ []
  count : e.nodes.length = e.interp.numNodes
  wf : ∀ n ∈ e.nodes, n.WF ∧ n.dofNumbers.length = dim

/-- Component `a` of node `i` of an element. -/
def component (e : FemElement ℝ) (i a : Nat) : ℝ := ((e.nodes.getD i ⟨[], []⟩).values.headD []).getD a 0

/-- Global number of component `a` of node `i` of an element. -/
def number (e : FemElement ℝ) (i a : Nat) : Nat := ((e.nodes.getD i ⟨[], []⟩).dofNumbers.getD a 0).toNat

/-- All numbers of an element are below `n`. -/
def Numbered (n : Nat) (e : FemElement ℝ) : Prop := ∀ m ∈ e.nodes, ∀ g ∈ m.dofNumbers, 0 ≤ g ∧ g < (n : Int)

/-- The values of an element, node by node. -/
def values (dim : Nat) (e : FemElement ℝ) : List ℝ :=
  (List.range (dim * e.nodes.length)).map fun k => component e (k / dim) (k % dim)

/-- The values of a global vector at the dofs of an element, node by node. -/
def restrict (dim : Nat) (e : FemElement ℝ) (R : Nat → ℝ) : List ℝ :=
  (List.range (dim * e.nodes.length)).map fun k => R (number e (k / dim) (k % dim))

/-- Derivatives of the shape functions with respect to the coordinates at a point. -/
noncomputable def gradients (e : FemElement ℝ) (d : IpData) : DMat ℝ :=
  ⟨e.interp.numNodes, d.jacobian.rows, d.jacobian.transform (e.interp.deriv fun k => d.coords.getD k 0)⟩

/-- Engineering strains of the displacements `u`. -/
noncomputable def strains (dim : Nat) (G : DMat ℝ) (u : List ℝ) : List ℝ :=
  let g := displacementGradient dim G u
  match dim with
  | 1 => [g 0 0]
  | 2 => [g 0 0, g 1 1, g 0 1 + g 1 0]
  | _ => [g 0 0, g 1 1, g 2 2, g 1 2 + g 2 1, g 0 2 + g 2 0, g 0 1 + g 1 0]

/-- Scalar product. -/
def dot (a b : List ℝ) : ℝ := ∑ k ∈ range a.length, a.getD k 0 * b.getD k 0

/-- A cell and its dof element in a space of dimension `dim` with `n` dofs. -/
structure Body (dim n : Nat) (x : Cell × FemElement ℝ) : Prop where
  dim1 : 1 ≤ dim
  dim3 : dim ≤ 3
  dof : Nodes dim x.2
  coord : Nodes dim x.1.coordElement
  dofDim : x.2.interp.dim = dim
  coordDim : x.1.coordElement.interp.dim = dim
  dofUnity : Unity x.2.interp
  coordUnity : Unity x.1.coordElement.interp
  numbered : Numbered n x.2

/-! ### Reading elements -/

theorem Nodes.read {dim : Nat} {e : FemElement ℝ} (h : Nodes dim e) :
    e.extractNodeValues 0 = .ok (values dim e) ∧ ∃ nums, e.dofNumbering = .ok nums ∧
      nums.length = dim * e.nodes.length ∧
      (∀ k < dim * e.nodes.length, (nums.getD k 0).toNat = number e (k / dim) (k % dim)) ∧
      ∀ n, Numbered n e → ∀ g ∈ nums, 0 ≤ g ∧ g < (n : Int) := by
  obtain ⟨vals, nums, h1, h2, h3, h4, h5⟩ := C63_order e dim 0 h.ne (fun m hm =>
    ⟨(h.wf m hm).1, (h.wf m hm).2, List.length_pos_iff.2 (h.wf m hm).1.1⟩)
  have hk : ∀ k < dim * e.nodes.length, k / dim < e.nodes.length ∧ k % dim < dim ∧ dim * (k / dim) + k % dim = k := by
    intro k hk
    have hd : 0 < dim := Nat.pos_of_ne_zero fun h0 => by rw [h0, Nat.zero_mul] at hk; omega
    exact ⟨Nat.div_lt_of_lt_mul hk, Nat.mod_lt _ hd, Nat.div_add_mod k dim⟩
  have hread : ∀ k < dim * e.nodes.length, ∃ (i : Nat) (hi : i < e.nodes.length) (a : Nat), i = k / dim ∧
      a = k % dim ∧ a < dim ∧
      vals[k]? = some (component e i a) ∧ nums[k]? = some (e.nodes[i].dofNumbers.getD a 0) ∧
      a < e.nodes[i].dofNumbers.length := by
    intro k hk'
    obtain ⟨a1, a2, a3⟩ := hk k hk'
    refine ⟨k / dim, a1, k % dim, rfl, rfl, a2, ?_⟩
    obtain ⟨x, d, b1, b2, b3, b4⟩ := h5 (k / dim) (k % dim) a1 a2
    rw [a3] at b1 b2
    obtain ⟨w1, w2⟩ := h.wf _ (List.getElem_mem a1)
    have hn : e.nodes.getD (k / dim) ⟨[], []⟩ = e.nodes[k / dim] := List.getD_eq_getElem _ _ a1
    refine ⟨?_, ?_, by rw [w2]; exact a2⟩
    · rw [b1, component, hn]
      congr 1
      rw [Node.getValue] at b3
      cases hv : e.nodes[k / dim].values with
      | nil => exact absurd hv w1.1
      | cons v t =>
        rw [hv] at b3
        have hvl : v.length = dim := by rw [w1.2 v (by rw [hv]; exact List.mem_cons_self), w2]
        simp [List.getElem?_eq_getElem (show k % dim < v.length by omega)] at b3
        rw [List.headD_cons, List.getD_eq_getElem _ _ (by omega)]
        exact b3.symm
    · rw [b2]
      congr 1
      rw [Node.getDofNumber, if_neg (by omega)] at b4
      rw [Int.toNat_natCast, List.getElem?_eq_getElem (by rw [w2]; exact a2)] at b4
      rw [List.getD_eq_getElem _ _ (by rw [w2]; exact a2)]
      cases b4
      rfl
  refine ⟨?_, nums, h2, h4, ?_, ?_⟩
  · rw [show (0 : Int) = ((0 : Nat) : Int) from rfl, h1]
    congr 1
    refine List.ext_getElem (by rw [values, List.length_map, List.length_range, h3]) fun k k1 k2 => ?_
    obtain ⟨i, hi, a, rfl, rfl, _, g1, _⟩ := hread k (by omega)
    rw [List.getElem?_eq_getElem k1] at g1
    simp only [values, List.getElem_map, List.getElem_range]
    exact Option.some.inj g1
  · intro k hk'
    obtain ⟨i, hi, a, rfl, rfl, _, _, g1, _⟩ := hread k hk'
    rw [List.getD_eq_getElem?_getD, g1, number, List.getD_eq_getElem _ _ hi]
    rfl
  · intro n hN g hg
    obtain ⟨k, hk', rfl⟩ := List.mem_iff_getElem.1 hg
    obtain ⟨i, hi, a, rfl, rfl, _, _, g1, g2⟩ := hread k (by omega)
    rw [List.getElem?_eq_getElem hk'] at g1
    rw [Option.some.inj g1, List.getD_eq_getElem _ _ g2]
    exact hN _ (List.getElem_mem hi) _ (List.getElem_mem g2)

theorem values_length (dim : Nat) (e : FemElement ℝ) : (values dim e).length = dim * e.nodes.length := by
  rw [values, List.length_map, List.length_range]

theorem restrict_length (dim : Nat) (e : FemElement ℝ) (R : Nat → ℝ) :
    (restrict dim e R).length = dim * e.nodes.length := by
  rw [restrict, List.length_map, List.length_range]

theorem index_lt {dim m i a : Nat} (hi : i < m) (ha : a < dim) : dim * i + a < dim * m := by
  calc dim * i + a < dim * i + dim := by omega
    _ = dim * (i + 1) := by ring
    _ ≤ dim * m := Nat.mul_le_mul_left _ hi

theorem values_getD {dim : Nat} {e : FemElement ℝ} {i a : Nat} (hi : i < e.nodes.length) (ha : a < dim) :
    (values dim e).getD (dim * i + a) 0 = component e i a := by
  have := index_lt hi ha
  rw [List.getD_eq_getElem _ _ (by rw [values_length]; exact this)]
  simp only [values, List.getElem_map, List.getElem_range]
  rw [Nat.mul_add_div (by omega), Nat.div_eq_of_lt ha, add_zero, Nat.mul_add_mod, Nat.mod_eq_of_lt ha]

theorem restrict_getD {dim : Nat} {e : FemElement ℝ} {R : Nat → ℝ} {i a : Nat} (hi : i < e.nodes.length)
    (ha : a < dim) : (restrict dim e R).getD (dim * i + a) 0 = R (number e i a) := by
  have := index_lt hi ha
  rw [List.getD_eq_getElem _ _ (by rw [restrict_length]; exact this)]
  simp only [restrict, List.getElem_map, List.getElem_range]
  rw [Nat.mul_add_div (by omega), Nat.div_eq_of_lt ha, add_zero, Nat.mul_add_mod, Nat.mod_eq_of_lt ha]

/-! ### Assembly -/

theorem vector_cell (c : Cell) (pts : List (ℝ × IpData)) (h : c.Points pts) (dof m : Nat)
    (f : IpData → Res (DofVec ℝ)) (F : IpData → List ℝ) (hf : ∀ p ∈ pts, f p.2 = .ok [(dof, F p.2)])
    (hl : ∀ p ∈ pts, (F p.2).length = m) :
    ∃ r, c.integrateVector f = .ok r ∧ r.Sorted ∧ (∀ y, r.find? dof = some y → y.length = m) ∧
      ∀ i, coef r dof i = (pts.map fun p => (F p.2).getD i 0 * p.2.jacobian.det * p.1).sum := by
  obtain ⟨r, h1, h2, h3, _, h5⟩ := C57_vector c pts h (fun d => [(dof, F d)]) (fun _ => m)
    (fun p _ => by simp [OMap.Sorted]) (fun p hp d x hx => by
      simp only [OMap.find?] at hx
      split at hx
      · cases hx; exact hl p hp
      · cases hx)
  refine ⟨r, ?_, h2, fun y => h3 dof y, fun i => ?_⟩
  · rw [← h1]
    exact integrateGeneric_congr _ c _ _ _ pts h hf
  · rw [h5]
    simp [coef, OMap.find?]

theorem adds_sum (r : DofVec ℝ) (dof n m : Nat) (nums : List Int) (R : Nat → ℝ)
    (hn : ∀ g ∈ nums, 0 ≤ g ∧ g < (n : Int)) (hm : nums.length = m) :
    ∑ i ∈ range n, VecCell.adds ⟨r, fun d => if d = dof then nums else []⟩ dof i * R i =
      ∑ k ∈ range m, coef r dof k * R (nums.getD k 0).toNat := by
  unfold VecCell.adds coef
  dsimp only
  cases r.find? dof with
  | none => simp
  | some vals =>
    dsimp only
    rw [if_pos rfl, ← hm]
    exact scatter_sum n nums vals R hn

theorem assembled (s : DofSizes) (dof n : Nat) (cells : List (Cell × FemElement ℝ))
    (threads : List (List (Cell × FemElement ℝ))) (hp : threads.flatten.Perm cells) (hs : s.size dof = .ok n)
    (f : FemElement ℝ → IpData → Res (DofVec ℝ)) (V : Cell × FemElement ℝ → VecCell ℝ)
    (hv : ∀ x ∈ cells, vecCell dof f x = .ok (V x)) (hfit : ∀ x ∈ cells, VecCell.Fits (V x) [dof] fun _ => n) :
    ∃ v x, assembleVector s dof f threads = .ok v ∧ v.find? dof = some x ∧ x.length = n ∧
      ∀ R : Nat → ℝ, ∑ i ∈ range n, x.getD i 0 * R i =
        (cells.map fun c => ∑ i ∈ range n, VecCell.adds (V c) dof i * R i).sum := by
  have hmem : ∀ t ∈ threads, ∀ x ∈ t, x ∈ cells := fun t ht x hx =>
    hp.mem_iff.1 (List.mem_flatten.2 ⟨t, ht, hx⟩)
  have hmap : (threads.mapM fun (t : List (Cell × FemElement ℝ)) => t.mapM (vecCell dof f)) =
      .ok (threads.map fun t => t.map V) :=
    Res.mapM_ok _ _ _ fun t ht => Res.mapM_ok _ _ _ fun x hx => hv x (hmem t ht x hx)
  have hperm : (threads.map fun t => t.map V).flatten.Perm (cells.map V) := by
    rw [← List.map_flatten]
    exact hp.map V
  obtain ⟨v, h1, _, _, h4⟩ := C13_buildVector s [dof] (fun _ => n) (cells.map V) _ hperm (List.nodup_singleton _)
    (fun d hd => by rw [List.mem_singleton.1 hd]; exact hs) (fun c hc => by
      obtain ⟨x, hx, rfl⟩ := List.mem_map.1 hc
      exact hfit x hx)
  obtain ⟨x, g1, g2, g3⟩ := h4 dof (List.mem_singleton.2 rfl)
  refine ⟨v, x, ?_, g1, g2, fun R => ?_⟩
  · rw [assembleVector, hmap, Res.bind_ok', h1]
  · rw [← list_sum_range]
    refine sum_congr rfl fun i hi => ?_
    rw [List.getD_eq_getElem?_getD, g3 i (mem_range.1 hi), Option.getD_some, List.map_map]
    rw [← List.sum_map_mul_right]
    rfl

/-- Integration and assembly of a vector function: the sum of the assembled vector weighted by `R` is the sum over all
integration points of the local vectors weighted by `R`. -/
theorem assembled_points (s : DofSizes) (dof dim n : Nat) (cells : List (Cell × FemElement ℝ))
    (threads : List (List (Cell × FemElement ℝ))) (hp : threads.flatten.Perm cells) (hs : s.size dof = .ok n)
    (f : FemElement ℝ → IpData → Res (DofVec ℝ)) (F : FemElement ℝ → IpData → List ℝ)
    (pts : Cell × FemElement ℝ → List (ℝ × IpData))
    (hc : ∀ x ∈ cells, Nodes dim x.2 ∧ Numbered n x.2 ∧ x.1.Points (pts x) ∧
      ∀ p ∈ pts x, f x.2 p.2 = .ok [(dof, F x.2 p.2)] ∧ (F x.2 p.2).length = dim * x.2.nodes.length) :
    ∃ v x, assembleVector s dof f threads = .ok v ∧ v.find? dof = some x ∧ x.length = n ∧
      ∀ R : Nat → ℝ, ∑ i ∈ range n, x.getD i 0 * R i =
        (cells.map fun c => ((pts c).map fun p =>
          dot (F c.2 p.2) (restrict dim c.2 R) * p.2.jacobian.det * p.1).sum).sum := by
  have hcell : ∀ x ∈ cells, ∃ V, vecCell dof f x = .ok V ∧ VecCell.Fits V [dof] (fun _ => n) ∧
      ∀ R : Nat → ℝ, ∑ i ∈ range n, VecCell.adds V dof i * R i =
        ((pts x).map fun p => dot (F x.2 p.2) (restrict dim x.2 R) * p.2.jacobian.det * p.1).sum := by
    intro x hx
    obtain ⟨k1, k2, k3, k4⟩ := hc x hx
    obtain ⟨r, r1, r2, r3, r4⟩ := vector_cell x.1 (pts x) k3 dof (dim * x.2.nodes.length) (f x.2) (F x.2)
      (fun p hp => (k4 p hp).1) (fun p hp => (k4 p hp).2)
    obtain ⟨_, nums, n1, n2, n3, n4⟩ := k1.read
    have n5 := n4 n k2
    refine ⟨⟨r, fun d => if d = dof then nums else []⟩, ?_, ⟨r2, ?_⟩, ?_⟩
    · rw [vecCell, r1, Res.bind_ok', n1, Res.bind_ok']
    · intro d hd vals hvals
      obtain rfl := List.mem_singleton.1 hd
      dsimp only
      rw [if_pos rfl]
      refine ⟨n5, ?_⟩
      rw [n2, r3 vals hvals]
    · intro R
      rw [adds_sum r dof n _ nums R n5 n2]
      calc ∑ k ∈ range (dim * x.2.nodes.length), coef r dof k * R (nums.getD k 0).toNat
          = ∑ k ∈ range (dim * x.2.nodes.length), ((pts x).map fun p =>
              (F x.2 p.2).getD k 0 * p.2.jacobian.det * p.1 * R (nums.getD k 0).toNat).sum := by
            refine sum_congr rfl fun k _ => ?_
            rw [r4, List.sum_map_mul_right]
        _ = _ := by
            rw [list_sum_range]
            congr 1
            refine List.map_congr_left fun p hp => ?_
            rw [dot, (k4 p hp).2, sum_mul, sum_mul]
            refine sum_congr rfl fun k hk => ?_
            have hk' := mem_range.1 hk
            have hR : (restrict dim x.2 R).getD k 0 = R (number x.2 (k / dim) (k % dim)) := by
              rw [restrict, List.getD_eq_getElem _ _ (by simpa using hk')]
              simp only [List.getElem_map, List.getElem_range]
            rw [n3 k hk', hR]
            ring
  have : Inhabited (VecCell ℝ) := ⟨⟨[], fun _ => []⟩⟩
  choose! V hV1 hV2 hV3 using hcell
  obtain ⟨v, x, h1, h2, h3, h4⟩ := assembled s dof n cells threads hp hs f V hV1 hV2
  refine ⟨v, x, h1, h2, h3, fun R => ?_⟩
  rw [h4 R]
  congr 1
  exact List.map_congr_left fun c hc => hV3 c hc R

/-! ### Strain operator -/

theorem dot_mulVec (B : DMat ℝ) (s r : List ℝ) (hs : s.length = B.rows) (hr : r.length = B.cols) :
    ∃ f e, B.transpose.mulVec s = .ok f ∧ B.mulVec r = .ok e ∧ f.length = B.cols ∧ e.length = B.rows ∧
      dot f r = dot s e := by
  refine ⟨_, _, by rw [DMat.mulVec, Res.require, if_pos (show B.transpose.cols = s.length from hs.symm)], by rw [DMat.mulVec, Res.require, if_pos hr.symm],
    by simp [DMat.transpose], by simp, ?_⟩
  rw [dot, dot, List.length_map, List.length_range, hs]
  simp only [DMat.transpose]
  calc _ = ∑ k ∈ range B.cols, ∑ i ∈ range B.rows, s.getD i 0 * (B.coef i k * r.getD k 0) := by
        refine sum_congr rfl fun k hk => ?_
        rw [List.getD_eq_getElem _ _ (by simpa using hk)]
        simp only [List.getElem_map, List.getElem_range]
        rw [sum_range_list, sum_mul]
        exact sum_congr rfl fun i _ => by ring
    _ = _ := by
        rw [sum_comm]
        refine sum_congr rfl fun i hi => ?_
        have hB : ((List.range B.rows).map fun i => ((List.range B.cols).map fun j => B.coef i j * r.getD j 0).sum).getD
            i 0 = ((List.range B.cols).map fun j => B.coef i j * r.getD j 0).sum := by
          rw [List.getD_eq_getElem _ _ (by simpa using hi)]
          simp only [List.getElem_map, List.getElem_range]
        rw [hB, sum_range_list, mul_sum]

theorem strain_ok (dim : Nat) (h1 : 1 ≤ dim) (h3 : dim ≤ 3) (G : DMat ℝ) (hG : G.cols = dim) :
    ∃ B, Nabla.strain G = .ok B ∧ B.cols = dim * G.rows ∧
      ∀ u : List ℝ, u.length = dim * G.rows → B.mulVec u = .ok (strains dim G u) := by
  have hcols : ∀ (B : DMat ℝ) (u e : List ℝ), B.mulVec u = .ok e → B.cols = u.length := by
    intro B u e h
    by_contra hne
    rw [DMat.mulVec, Res.require, if_neg hne] at h
    cases h
  have huniq : ∀ B B' : DMat ℝ, Nabla.strain G = .ok B → Nabla.strain G = .ok B' → B = B' := by
    intro B B' h h'
    rw [h] at h'
    exact Res.ok.inj h'
  interval_cases dim
  · obtain ⟨B, b1, b2⟩ := C39_strain1 G (List.replicate G.rows 0) hG (by simp)
    refine ⟨B, b1, by rw [hcols _ _ _ b2]; simp, fun u hu => ?_⟩
    obtain ⟨B', c1, c2⟩ := C39_strain1 G u hG (by omega)
    obtain rfl := huniq B B' b1 c1
    exact c2
  · obtain ⟨B, b1, b2⟩ := C39_strain2 G (List.replicate (2 * G.rows) 0) hG (by simp)
    refine ⟨B, b1, by rw [hcols _ _ _ b2]; simp, fun u hu => ?_⟩
    obtain ⟨B', c1, c2⟩ := C39_strain2 G u hG (by omega)
    obtain rfl := huniq B B' b1 c1
    exact c2
  · obtain ⟨B, b1, b2⟩ := C39_strain3 G (List.replicate (3 * G.rows) 0) hG (by simp)
    refine ⟨B, b1, by rw [hcols _ _ _ b2]; simp, fun u hu => ?_⟩
    obtain ⟨B', c1, c2⟩ := C39_strain3 G u hG (by omega)
    obtain rfl := huniq B B' b1 c1
    exact c2

/-! ### C77 -/

/-- The Jacobian of a body at an integration point. -/
theorem Body.jacobian {dim n : Nat} {x : Cell × FemElement ℝ} (h : Body dim n x) (i : Nat) (xi : List ℝ) :
    ∃ d, x.1.ipData i xi = .ok d ∧ d.coords = xi ∧ d.jacobian.rows = dim ∧ d.jacobian.cols = dim ∧
      Jacobian.make (values dim x.1.coordElement) dim
        (x.1.coordElement.interp.deriv fun k => xi.getD k 0) = .ok d.jacobian := by
  have hv := h.coord.read.1
  have hl : (x.1.coordElement.interp.deriv fun k => xi.getD k 0).length = x.1.coordElement.nodes.length := by
    rw [h.coordUnity.derivLen, h.coord.count]
  have hpos : 0 < x.1.coordElement.nodes.length := List.length_pos_iff.2 h.coord.ne
  have hdiv : (values dim x.1.coordElement).length /
      (x.1.coordElement.interp.deriv fun k => xi.getD k 0).length = dim := by
    rw [hl, values_length, Nat.mul_div_cancel _ hpos]
  have hne : (x.1.coordElement.interp.deriv fun k => xi.getD k 0).length ≠ 0 := by rw [hl]; omega
  have key : ∃ J, Jacobian.make (values dim x.1.coordElement) dim
      (x.1.coordElement.interp.deriv fun k => xi.getD k 0) = .ok J ∧ J.rows = dim ∧ J.cols = dim := by
    have h1 := h.dim1
    have h3 := h.dim3
    clear hv
    generalize values dim x.1.coordElement = w at hdiv ⊢
    clear h
    interval_cases dim
    · exact ⟨_, make_square1 _ _ hne hdiv, rfl, rfl⟩
    · exact ⟨_, make_square2 _ _ hne hdiv, rfl, rfl⟩
    · exact ⟨_, make_square3 _ _ hne hdiv, rfl, rfl⟩
  obtain ⟨J, j1, j2, j3⟩ := key
  refine ⟨⟨x.1.id, i, xi, J⟩, ?_, rfl, j2, j3, j1⟩
  rw [Cell.ipData, hv, Res.bind_ok', h.coordDim, j1, Res.bind_ok']

/-- C77: the data of all integration points of a body exist. -/
theorem C77_points {dim n : Nat} {x : Cell × FemElement ℝ} (h : Body dim n x) : ∃ pts, x.1.Points pts := by
  unfold Cell.Points
  generalize x.1.rule.zipIdx = l
  induction l with
  | nil => exact ⟨[], List.Forall₂.nil⟩
  | cons ip t ih =>
    obtain ⟨pts, hp⟩ := ih
    obtain ⟨d, h1, _⟩ := h.jacobian ip.2 ip.1.2
    exact ⟨(ip.1.1, d) :: pts, List.Forall₂.cons ⟨rfl, h1⟩ hp⟩

theorem Body.point {dim n : Nat} {x : Cell × FemElement ℝ} (h : Body dim n x) {pts : List (ℝ × IpData)}
    (hp : x.1.Points pts) (p : ℝ × IpData) (hm : p ∈ pts) :
    p.2.jacobian.rows = dim ∧ p.2.jacobian.cols = dim ∧
      Jacobian.make (values dim x.1.coordElement) dim
        (x.1.coordElement.interp.deriv fun k => p.2.coords.getD k 0) = .ok p.2.jacobian := by
  unfold Cell.Points at hp
  generalize x.1.rule.zipIdx = l at hp
  induction hp with
  | nil => cases hm
  | cons hh _ ih =>
    rcases List.mem_cons.1 hm with rfl | hm
    · obtain ⟨d, h1, h2, h3, h4, h5⟩ := h.jacobian _ _
      rw [hh.2] at h1
      obtain rfl := Res.ok.inj h1
      rw [h2]
      exact ⟨h3, h4, h5⟩
    · exact ih hm

/-- C77: at an integration point the local internal forces do the work of the stresses on every virtual
displacement. -/
theorem C77_point (dof dim n : Nat) (sigma : List ℝ → IpData → List ℝ) (hsig : ∀ e d, (sigma e d).length = e.length)
    {x : Cell × FemElement ℝ} (h : Body dim n x) {pts : List (ℝ × IpData)} (hp : x.1.Points pts) (p : ℝ × IpData)
    (hm : p ∈ pts) :
    ∃ f, momentum dof (fun e d => .ok (sigma e d)) x.2 p.2 = .ok [(dof, f)] ∧ f.length = dim * x.2.nodes.length ∧
      ∀ R : Nat → ℝ, dot f (restrict dim x.2 R) =
        dot (sigma (strains dim (gradients x.2 p.2) (values dim x.2)) p.2)
          (strains dim (gradients x.2 p.2) (restrict dim x.2 R)) := by
  obtain ⟨j1, j2, _⟩ := h.point hp p hm
  obtain ⟨B, b1, b2, b3⟩ := strain_ok dim h.dim1 h.dim3 (gradients x.2 p.2) j1
  have hrows : (gradients x.2 p.2).rows = x.2.nodes.length := h.dof.count.symm
  rw [hrows] at b2 b3
  have hu := b3 (values dim x.2) (values_length _ _)
  have hBr : B.rows = (strains dim (gradients x.2 p.2) (values dim x.2)).length := by
    rw [DMat.mulVec, Res.require, if_pos (by rw [b2, values_length])] at hu
    rw [← Res.ok.inj hu]
    simp
  have hsl := hsig (strains dim (gradients x.2 p.2) (values dim x.2)) p.2
  obtain ⟨f, _, f1, _, f3, _, _⟩ := dot_mulVec B _ (values dim x.2) (hsl.trans hBr.symm) (by rw [b2, values_length])
  refine ⟨f, ?_, by rw [f3, b2], fun R => ?_⟩
  · rw [momentum, bMatrix, Res.require, if_pos (by rw [h.dofDim, j2])]
    rw [gradients] at b1
    rw [b1, Res.bind_ok', h.dof.read.1, Res.bind_ok', hu, Res.bind_ok',
      Res.bind_ok', f1, Res.bind_ok']
  · obtain ⟨f', e, g1, g2, _, _, g5⟩ := dot_mulVec B _ (restrict dim x.2 R) (hsl.trans hBr.symm)
      (by rw [b2, restrict_length])
    rw [f1] at g1
    obtain rfl := Res.ok.inj g1
    rw [b3 _ (restrict_length _ _ _)] at g2
    rw [g5, Res.ok.inj g2]

/-- C77 (virtual work): for every schedule of the threads the assembled internal forces exist, and their work on an
arbitrary virtual displacement `R` of the dofs is the integral of the stresses times the virtual strains. -/
theorem C77_virtual_work (s : DofSizes) (dof dim n : Nat) (sigma : List ℝ → IpData → List ℝ)
    (hsig : ∀ e d, (sigma e d).length = e.length) (cells : List (Cell × FemElement ℝ))
    (threads : List (List (Cell × FemElement ℝ))) (hp : threads.flatten.Perm cells) (hs : s.size dof = .ok n)
    (hb : ∀ x ∈ cells, Body dim n x) (pts : Cell × FemElement ℝ → List (ℝ × IpData))
    (hpts : ∀ x ∈ cells, x.1.Points (pts x)) :
    ∃ v f, assembleVector s dof (momentum dof fun e d => .ok (sigma e d)) threads = .ok v ∧
      v.find? dof = some f ∧ f.length = n ∧ ∀ R : Nat → ℝ, ∑ i ∈ range n, f.getD i 0 * R i =
        (cells.map fun x => ((pts x).map fun p =>
          dot (sigma (strains dim (gradients x.2 p.2) (values dim x.2)) p.2)
            (strains dim (gradients x.2 p.2) (restrict dim x.2 R)) * p.2.jacobian.det * p.1).sum).sum := by
  have hF : ∀ (e : FemElement ℝ) (d : IpData), ∃ F : List ℝ, (∃ x ∈ cells, x.2 = e ∧ ∃ p ∈ pts x, p.2 = d) →
      momentum dof (fun e d => .ok (sigma e d)) e d = .ok [(dof, F)] ∧ F.length = dim * e.nodes.length ∧
      ∀ R : Nat → ℝ, dot F (restrict dim e R) = dot (sigma (strains dim (gradients e d) (values dim e)) d)
          (strains dim (gradients e d) (restrict dim e R)) := by
    intro e d
    by_cases hx : ∃ x ∈ cells, x.2 = e ∧ ∃ p ∈ pts x, p.2 = d
    · obtain ⟨x, hx, rfl, p, hp', rfl⟩ := hx
      obtain ⟨F, h1⟩ := C77_point dof dim n sigma hsig (hb x hx) (hpts x hx) p hp'
      exact ⟨F, fun _ => h1⟩
    · exact ⟨[], fun h => absurd h hx⟩
  choose F hF using hF
  obtain ⟨v, f, h1, h2, h3, h4⟩ := assembled_points s dof dim n cells threads hp hs _ F pts (fun x hx =>
    ⟨(hb x hx).dof, (hb x hx).numbered, hpts x hx, fun p hp' =>
      ⟨(hF x.2 p.2 ⟨x, hx, rfl, p, hp', rfl⟩).1, (hF x.2 p.2 ⟨x, hx, rfl, p, hp', rfl⟩).2.1⟩⟩)
  refine ⟨v, f, h1, h2, h3, fun R => ?_⟩
  rw [h4]
  congr 1
  refine List.map_congr_left fun x hx => ?_
  congr 1
  refine List.map_congr_left fun p hp' => ?_
  rw [(hF x.2 p.2 ⟨x, hx, rfl, p, hp', rfl⟩).2.2 R]

theorem dot_zero (a b : List ℝ) (h : ∀ x ∈ b, x = 0) : dot a b = 0 := by
  refine sum_eq_zero fun k _ => ?_
  have hk : b.getD k 0 = 0 := by
    rw [List.getD_eq_getElem?_getD]
    cases hb : b[k]? with
    | none => rfl
    | some y => exact h y (List.mem_of_getElem? hb)
  rw [hk, mul_zero]

/-- C77: the strains of a virtual displacement that is rigid (`t + W x`, `W` antisymmetric) on the nodes of an element
vanish where the Jacobian is regular. -/
theorem C77_rigid_strains {dim n : Nat} {x : Cell × FemElement ℝ} (h : Body dim n x) {pts : List (ℝ × IpData)}
    (hp : x.1.Points pts) (p : ℝ × IpData) (hm : p ∈ pts) (hdet : p.2.jacobian.det ≠ 0)
    (hiso : x.2.interp = x.1.coordElement.interp) (t : Nat → ℝ) (W : Nat → Nat → ℝ) (hW : ∀ a b, W a b = -W b a)
    (R : Nat → ℝ) (hR : ∀ i < x.2.nodes.length, ∀ a < dim, R (number x.2 i a) =
      t a + ∑ c ∈ range dim, W a c * component x.1.coordElement i c) :
    ∀ y ∈ strains dim (gradients x.2 p.2) (restrict dim x.2 R), y = 0 := by
  obtain ⟨j1, j2, j3⟩ := h.point hp p hm
  have hcount : x.2.nodes.length = x.1.coordElement.nodes.length := by
    rw [h.dof.count, h.coord.count, hiso]
  have hlen : (x.1.coordElement.interp.deriv fun k => p.2.coords.getD k 0).length = x.2.nodes.length := by
    rw [h.coordUnity.derivLen, hcount, h.coord.count]
  obtain ⟨B, e, b1, b2, b3⟩ := C39_rigid j3 (by rw [j1, j2]) hdet (by
    intro j
    rw [hlen, hcount, h.coord.count]
    exact h.coordUnity.derivSum _ j) t W hW (restrict dim x.2 R)
    (by rw [restrict_length, j1, hlen]) (by
    intro i hi a ha
    rw [j1] at ha ⊢
    rw [hlen] at hi
    rw [restrict_getD hi ha, hR i hi a ha]
    congr 1
    refine sum_congr rfl fun c hc => ?_
    rw [values_getD (hcount ▸ hi) (mem_range.1 hc)])
  have hG : gradients x.2 p.2 = ⟨(x.1.coordElement.interp.deriv fun k => p.2.coords.getD k 0).length,
      p.2.jacobian.rows, p.2.jacobian.transform (x.1.coordElement.interp.deriv fun k => p.2.coords.getD k 0)⟩ := by
    rw [gradients, hlen, h.dof.count, hiso]
  obtain ⟨B', c1, c2, c3⟩ := strain_ok dim h.dim1 h.dim3 (gradients x.2 p.2) j1
  rw [hG, b1] at c1
  obtain rfl := Res.ok.inj c1
  have hrows : (gradients x.2 p.2).rows = x.2.nodes.length := h.dof.count.symm
  rw [hrows] at c3
  rw [c3 _ (restrict_length _ _ _)] at b2
  rw [Res.ok.inj b2]
  exact b3

/-- C77: on a mesh of isoparametric elements with regular Jacobians the assembled internal forces, for any state of
stress, do no work on rigid body motions. -/
theorem C77_self_equilibrated (s : DofSizes) (dof dim n : Nat) (sigma : List ℝ → IpData → List ℝ)
    (hsig : ∀ e d, (sigma e d).length = e.length) (cells : List (Cell × FemElement ℝ))
    (threads : List (List (Cell × FemElement ℝ))) (hp : threads.flatten.Perm cells) (hs : s.size dof = .ok n)
    (hb : ∀ x ∈ cells, Body dim n x) (hiso : ∀ x ∈ cells, x.2.interp = x.1.coordElement.interp)
    (hdet : ∀ x ∈ cells, ∀ pts, x.1.Points pts → ∀ p ∈ pts, p.2.jacobian.det ≠ 0) :
    ∃ v f, assembleVector s dof (momentum dof fun e d => .ok (sigma e d)) threads = .ok v ∧
      v.find? dof = some f ∧ f.length = n ∧
      ∀ (t : Nat → ℝ) (W : Nat → Nat → ℝ), (∀ a b, W a b = -W b a) → ∀ R : Nat → ℝ,
        (∀ x ∈ cells, ∀ i < x.2.nodes.length, ∀ a < dim, R (number x.2 i a) =
          t a + ∑ c ∈ range dim, W a c * component x.1.coordElement i c) →
        ∑ i ∈ range n, f.getD i 0 * R i = 0 := by
  have hex : ∀ x : Cell × FemElement ℝ, ∃ pts, x ∈ cells → x.1.Points pts := by
    intro x
    by_cases hx : x ∈ cells
    · obtain ⟨pts, h⟩ := C77_points (hb x hx)
      exact ⟨pts, fun _ => h⟩
    · exact ⟨[], fun h => absurd h hx⟩
  choose pts hpts using hex
  obtain ⟨v, f, h1, h2, h3, h4⟩ := C77_virtual_work s dof dim n sigma hsig cells threads hp hs hb pts hpts
  refine ⟨v, f, h1, h2, h3, fun t W hW R hR => ?_⟩
  rw [h4 R]
  refine List.sum_eq_zero fun y hy => ?_
  obtain ⟨x, hx, rfl⟩ := List.mem_map.1 hy
  refine List.sum_eq_zero fun z hz => ?_
  obtain ⟨p, hp', rfl⟩ := List.mem_map.1 hz
  rw [dot_zero _ _ (C77_rigid_strains (hb x hx) (hpts x hx) p hp' (hdet x hx _ (hpts x hx) p hp') (hiso x hx) t W hW R
    (hR x hx)), zero_mul, zero_mul]

/-- C77: the resultant of the internal forces in every direction vanishes, also if displacements and coordinates are
interpolated differently and where the Jacobian is singular. -/
theorem C77_resultant (s : DofSizes) (dof dim n : Nat) (sigma : List ℝ → IpData → List ℝ)
    (hsig : ∀ e d, (sigma e d).length = e.length) (cells : List (Cell × FemElement ℝ))
    (threads : List (List (Cell × FemElement ℝ))) (hp : threads.flatten.Perm cells) (hs : s.size dof = .ok n)
    (hb : ∀ x ∈ cells, Body dim n x) :
    ∃ v f, assembleVector s dof (momentum dof fun e d => .ok (sigma e d)) threads = .ok v ∧
      v.find? dof = some f ∧ f.length = n ∧ ∀ (t : Nat → ℝ) (R : Nat → ℝ),
        (∀ x ∈ cells, ∀ i < x.2.nodes.length, ∀ a < dim, R (number x.2 i a) = t a) →
        ∑ i ∈ range n, f.getD i 0 * R i = 0 := by
  have hex : ∀ x : Cell × FemElement ℝ, ∃ pts, x ∈ cells → x.1.Points pts := by
    intro x
    by_cases hx : x ∈ cells
    · obtain ⟨pts, h⟩ := C77_points (hb x hx)
      exact ⟨pts, fun _ => h⟩
    · exact ⟨[], fun h => absurd h hx⟩
  choose pts hpts using hex
  obtain ⟨v, f, h1, h2, h3, h4⟩ := C77_virtual_work s dof dim n sigma hsig cells threads hp hs hb pts hpts
  refine ⟨v, f, h1, h2, h3, fun t R hR => ?_⟩
  rw [h4 R]
  refine List.sum_eq_zero fun y hy => ?_
  obtain ⟨x, hx, rfl⟩ := List.mem_map.1 hy
  refine List.sum_eq_zero fun z hz => ?_
  obtain ⟨p, hp', rfl⟩ := List.mem_map.1 hz
  have hB := hb x hx
  have hg : ∀ a < dim, ∀ b, displacementGradient dim (gradients x.2 p.2) (restrict dim x.2 R) a b = 0 := by
    intro a ha b
    calc displacementGradient dim (gradients x.2 p.2) (restrict dim x.2 R) a b
        = ∑ i ∈ range x.2.interp.numNodes, t a *
            p.2.jacobian.transform (x.2.interp.deriv fun k => p.2.coords.getD k 0) i b := by
          rw [displacementGradient]
          refine sum_congr rfl fun i hi => ?_
          have hi' : i < x.2.nodes.length := by rw [hB.dof.count]; exact mem_range.1 hi
          rw [restrict_getD hi' ha, hR x hx i hi' a ha]
          rfl
      _ = t a * ∑ j ∈ range p.2.jacobian.cols, (∑ i ∈ range x.2.interp.numNodes,
            ((x.2.interp.deriv fun k => p.2.coords.getD k 0).getD i []).getD j 0) * p.2.jacobian.inv j b := by
          rw [← mul_sum]
          congr 1
          simp only [Jacobian.transform, sum_range_list, sum_mul]
          rw [sum_comm]
      _ = 0 := by
          rw [sum_eq_zero, mul_zero]
          intro j _
          rw [hB.dofUnity.derivSum, zero_mul]
  rw [dot_zero, zero_mul, zero_mul]
  have h1 := hB.dim1
  have h3 := hB.dim3
  clear hB hR h4 hb
  interval_cases dim <;> simp [strains, hg]

/-- C77: the interpolation types with exactly coded coefficients meet `Unity`. -/
theorem C77_types (I : Interpolation ℝ) (hI : I ∈ exactTypes) : Unity I := by
  have hs := C27_sizes I (List.mem_append_left _ hI)
  have hu := C27_partition_of_unity_partial I hI
  have hd : ∀ x, (I.deriv x).length = I.numNodes := fun x => by
    have := congrArg List.length (hs x).2.2
    simpa using this
  refine ⟨fun x => (hs x).2.1, hd, fun x => ?_, fun x j => ?_⟩
  · rw [← (hu x).1, ← (hs x).2.1, ← sum_range_list]
    congr 1
    refine List.ext_getElem (by simp) fun k h1 h2 => ?_
    simp only [List.getElem_map, List.getElem_range, List.getD_eq_getElem _ _ h2]
  · refine Eq.trans ?_ ((hu x).2 j)
    rw [← hd x, ← sum_range_list]
    congr 1
    refine List.ext_getElem (by simp) fun k h1 h2 => ?_
    have h2' : k < (I.deriv x).length := by simpa using h2
    simp only [List.getElem_map, List.getElem_range, List.getD_eq_getElem _ _ h2']

/-- A triangle with its displacements: the nodes carry the numbers 0 to 5. -/
noncomputable def exampleBody : Cell × FemElement ℝ :=
  (⟨0, ⟨nodesAt [[0, 0], [2, 0], [0, 3]], Interpolation.triangleLinear⟩, [(1 / 2, [1 / 3, 1 / 3])]⟩,
   ⟨[⟨[[0, 0]], [0, 1]⟩, ⟨[[1 / 10, 0]], [2, 3]⟩, ⟨[[0, 1 / 5]], [4, 5]⟩], Interpolation.triangleLinear⟩)

theorem exampleBody_ok : Body 2 6 exampleBody where
  dim1 := by norm_num
  dim3 := by norm_num
  dof := ⟨by simp [exampleBody], rfl, by simp [exampleBody, Node.WF]⟩
  coord := ⟨by simp [exampleBody, nodesAt], rfl, by simp [exampleBody, nodesAt, Node.ofVector, Node.WF]⟩
  dofDim := rfl
  coordDim := rfl
  dofUnity := C77_types _ (by simp [exactTypes, exampleBody])
  coordUnity := C77_types _ (by simp [exactTypes, exampleBody])
  numbered := by simp [exampleBody, Numbered]

/-- The triangle meets the hypotheses of `C77_self_equilibrated`. -/
example : (∀ x ∈ [exampleBody], Body 2 6 x) ∧ (∀ x ∈ [exampleBody], x.2.interp = x.1.coordElement.interp) ∧
    ∀ x ∈ [exampleBody], ∀ pts, x.1.Points pts → ∀ p ∈ pts, p.2.jacobian.det ≠ 0 := by
  refine ⟨by simpa using exampleBody_ok, by simp [exampleBody], ?_⟩
  intro x hx pts hp p hm
  obtain rfl := List.mem_singleton.1 hx
  obtain ⟨_, _, h⟩ := exampleBody_ok.point hp p hm
  have hv : values 2 exampleBody.1.coordElement = [0, 0, 2, 0, 0, 3] := by
    simp [values, exampleBody, nodesAt, Node.ofVector, component, List.range_succ]
  rw [hv, make_square2 _ _ (by simp [exampleBody, Interpolation.triangleLinear, Interpolation.triangleLinearDeriv])
    (by simp [exampleBody, Interpolation.triangleLinear, Interpolation.triangleLinearDeriv])] at h
  rw [← Res.ok.inj h]
  simp [exampleBody, Interpolation.triangleLinear, Interpolation.triangleLinearDeriv, Jacobian.det2,
    Jacobian.calculate, List.range_succ]

end Balance

end NuTo
