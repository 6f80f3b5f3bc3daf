/-
C25: the node orders of gmsh.
-/
import Verif.Model.Gmsh
import Verif.Props.Interpolation
import Verif.Props.Lobatto
import Verif.Props.UnitMesh
import Verif.Props.Jacobian
import Mathlib.Data.List.GetD

namespace NuTo

namespace Gmsh

open NuTo.Interpolation

/-! ### The documentation of gmsh -/

/-- Corners of gmsh's reference cells (gmsh reference manual, "Node ordering"). -/
noncomputable def line : List (List ℝ) := [[-1], [1]]
noncomputable def triangle : List (List ℝ) := [[0, 0], [1, 0], [0, 1]]
noncomputable def quadrangle : List (List ℝ) := [[-1, -1], [1, -1], [1, 1], [-1, 1]]
noncomputable def tetrahedron : List (List ℝ) := [[0, 0, 0], [1, 0, 0], [0, 1, 0], [0, 0, 1]]
noncomputable def hexahedron : List (List ℝ) :=
  [[-1, -1, -1], [1, -1, -1], [1, 1, -1], [-1, 1, -1],
   [-1, -1, 1], [1, -1, 1], [1, 1, 1], [-1, 1, 1]]
noncomputable def prism : List (List ℝ) :=
  [[0, 0, -1], [1, 0, -1], [0, 1, -1], [0, 0, 1], [1, 0, 1], [0, 1, 1]]
noncomputable def pyramid : List (List ℝ) :=
  [[-1, -1, 0], [1, -1, 0], [1, 1, 0], [-1, 1, 0], [0, 0, 1]]

/-- The nodes of gmsh's elements: every node is the centre of some corners (of one corner,
of the corners of an edge, of a face or of the cell), in the order of the reference manual:
corners, edges, faces, cell. -/
def gmshNodes (type : Int) : List (List Nat) :=
  match type with
  | 1 => [[0], [1]]
  | 2 => [[0], [1], [2]]
  | 3 => [[0], [1], [2], [3]]
  | 4 => [[0], [1], [2], [3]]
  | 5 => [[0], [1], [2], [3], [4], [5], [6], [7]]
  | 6 => [[0], [1], [2], [3], [4], [5]]
  | 7 => [[0], [1], [2], [3], [4]]
  | 8 => [[0], [1], [0, 1]]
  | 9 => [[0], [1], [2], [0, 1], [1, 2], [2, 0]]
  | 10 => [[0], [1], [2], [3], [0, 1], [1, 2], [2, 3], [3, 0], [0, 1, 2, 3]]
  | 11 => [[0], [1], [2], [3], [0, 1], [1, 2], [2, 0], [3, 0], [3, 2], [3, 1]]
  | 12 => [[0], [1], [2], [3], [4], [5], [6], [7],
      [0, 1], [0, 3], [0, 4], [1, 2], [1, 5], [2, 3], [2, 6], [3, 7], [4, 5], [4, 7], [5, 6], [6, 7],
      [0, 3, 2, 1], [0, 1, 5, 4], [0, 4, 7, 3], [1, 2, 6, 5], [2, 3, 7, 6], [4, 5, 6, 7],
      [0, 1, 2, 3, 4, 5, 6, 7]]
  | 13 => [[0], [1], [2], [3], [4], [5],
      [0, 1], [0, 2], [0, 3], [1, 2], [1, 4], [2, 5], [3, 4], [3, 5], [4, 5],
      [0, 1, 4, 3], [0, 3, 5, 2], [1, 2, 5, 4]]
  | 16 => [[0], [1], [2], [3], [0, 1], [1, 2], [2, 3], [3, 0]]
  | _ => []

/-- The corners of gmsh's reference cell of an element type. -/
noncomputable def gmshCorners (type : Int) : List (List ℝ) :=
  match type with
  | 1 | 8 => line
  | 2 | 9 => triangle
  | 3 | 10 | 16 => quadrangle
  | 4 | 11 => tetrahedron
  | 5 | 12 => hexahedron
  | 6 | 13 => prism
  | 7 => pyramid
  | _ => []

/-- Component `d` of the reference coordinates of node `j`: the mean of its corners. -/
noncomputable def gmshRef (type : Int) (j d : Nat) : ℝ :=
  let cs := (gmshNodes type).getD j []
  (cs.map fun c => ((gmshCorners type).getD c []).getD d 0).sum / cs.length

/-- The element types without the pyramid. -/
def goodTypes : List Int := [1, 2, 3, 4, 5, 6, 8, 9, 10, 11, 12, 13, 16]

/-- The Lobatto nodes of order two. -/
noncomputable def lob2 : List ℝ := [-1, 0, 1]

/-! ### Node order -/

/-- The permutation of the nodes of an element type. -/
def perm (type : Int) : List Nat :=
  match type with
  | 8 => [0, 2, 1]
  | 10 => [0, 4, 1, 7, 8, 5, 3, 6, 2]
  | 12 => [0, 8, 1, 9, 20, 11, 3, 13, 2, 10, 21, 12, 22, 26,
           23, 15, 24, 14, 4, 16, 5, 17, 25, 18, 7, 19, 6]
  | t => List.range (gmshNodes t).length

theorem lookup_mapM (nodePtrs : Int → Option Nat) (ids : List Int) (old : List Nat)
    (h : ids.map nodePtrs = old.map some) : ids.mapM (lookup nodePtrs) = .ok old := by
  induction ids generalizing old with
  | nil =>
    cases old with
    | nil => rfl
    | cons _ _ => cases h
  | cons a ids ih =>
    cases old with
    | nil => cases h
    | cons n old =>
      rw [List.map_cons, List.map_cons] at h
      injection h with h1 h2
      rw [List.mapM_cons, ih old h2, lookup, h1]
      rfl

theorem reorder_ok (r old : List Nat) (hl : r.length = old.length)
    (h : ∀ j ∈ r, j < old.length) : reorder r old = .ok (r.map fun j => old.getD j 0) := by
  rw [reorder, Res.mapM_ok _ (fun i => old.getD (r.getD i 0) 0)]
  · congr 1
    apply List.ext_getElem
    · simp [hl]
    · intro i h1 h2
      have hi : i < r.length := by simpa using h2
      simp [hi]
  · intro i hi
    have hi' : i < r.length := by rw [hl]; exact List.mem_range.1 hi
    have hj := h r[i] (List.getElem_mem hi')
    simp [hi', hj]

theorem map_range_getD (old : List Nat) :
    (List.range old.length).map (fun j => old.getD j 0) = old := by
  apply List.ext_getElem
  · simp
  · intro i h1 h2
    simp [h2]

theorem permuteNodes_ok {type : Int} (ht : type ∈ goodTypes) (old : List Nat)
    (hl : old.length = (gmshNodes type).length) :
    permuteNodes type old = .ok ((perm type).map fun j => old.getD j 0) := by
  simp only [goodTypes, List.mem_cons, List.not_mem_nil, or_false] at ht
  rcases ht with rfl | rfl | rfl | rfl | rfl | rfl | rfl | rfl | rfl | rfl | rfl | rfl | rfl
  case inr.inr.inr.inr.inr.inr.inl =>
    match old, hl with
    | [a, b, c], _ => rfl
  case inr.inr.inr.inr.inr.inr.inr.inr.inl =>
    exact reorder_ok _ _ (by rw [hl]; rfl) (by rw [hl]; decide)
  case inr.inr.inr.inr.inr.inr.inr.inr.inr.inr.inl =>
    exact reorder_ok _ _ (by rw [hl]; rfl) (by rw [hl]; decide)
  all_goals
    · show Res.ok old = _
      rw [perm, ← hl, map_range_getD]
      all_goals decide

theorem coords_perm {type : Int} (ht : type ∈ goodTypes) :
    ∃ I, interpolation lob2 type = .ok I ∧ I.numNodes = (gmshNodes type).length ∧
      I.coords = (perm type).map fun j => (List.range I.dim).map (gmshRef type j) := by
  simp only [goodTypes, List.mem_cons, List.not_mem_nil, or_false] at ht
  rcases ht with rfl | rfl | rfl | rfl | rfl | rfl | rfl | rfl | rfl | rfl | rfl | rfl | rfl
  all_goals
    refine ⟨_, rfl, rfl, ?_⟩
    norm_num [gmshRef, gmshNodes, gmshCorners, line, triangle, quadrangle, tetrahedron,
      hexahedron, prism, perm, List.range_succ, lob2, trussLobatto, quadLobatto, brickLobatto,
      Lobatto.node, trussLinear, trussLinearCoords, triangleLinear, triangleLinearCoords,
      quadLinear, quadLinearCoords, tetrahedronLinear, tetrahedronLinearCoords, brickLinear,
      brickLinearCoords, prismLinear, prismLinearCoords, triangleQuadratic,
      triangleQuadraticCoords, tetrahedronQuadratic, tetrahedronQuadraticCoords, prismQuadratic,
      prismQuadraticCoords, quadSerendipity, quadSerendipityCoords]

/-- C25: the node order.  Local node `i` of the created element is a node `j` of the gmsh
element whose reference coordinates are the local coordinates of shape function `i`; no node
is lost.

Partial: false for pyramids, see `C25_pyramid_counterexample`. -/
theorem C25_node_order_partial (type : Int) (ht : type ∈ goodTypes) :
    ∃ I, interpolation lob2 type = .ok I ∧
      ∀ (nodePtrs : Int → Option Nat) (e : Element) (old : List Nat), e.type = type →
        e.nodes.map nodePtrs = old.map some → numNodes type = .ok old.length →
        ∃ l, elementNodes nodePtrs e = .ok l ∧ l.Perm old ∧ l.length = I.numNodes ∧
          ∀ i < I.numNodes, ∃ j < old.length, l[i]? = old[j]? ∧
            I.localCoords i = .ok ((List.range I.dim).map (gmshRef type j)) := by
  obtain ⟨I, hI, hnum, hco⟩ := coords_perm ht
  refine ⟨I, hI, fun nodePtrs e old he hp hlen => ?_⟩
  have hlen' : old.length = (gmshNodes type).length := by
    simp only [goodTypes, List.mem_cons, List.not_mem_nil, or_false] at ht
    rcases ht with rfl | rfl | rfl | rfl | rfl | rfl | rfl | rfl | rfl | rfl | rfl | rfl | rfl <;>
      (injection hlen with hlen; rw [← hlen]; rfl)
  have hperm : (perm type).Perm (List.range old.length) := by
    rw [hlen']
    clear hI hco hlen hlen' he hnum
    simp only [goodTypes, List.mem_cons, List.not_mem_nil, or_false] at ht
    rcases ht with rfl | rfl | rfl | rfl | rfl | rfl | rfl | rfl | rfl | rfl | rfl | rfl | rfl <;>
      decide
  have hpl : (perm type).length = old.length := by rw [hperm.length_eq, List.length_range]
  refine ⟨(perm type).map fun j => old.getD j 0, ?_, ?_, ?_, ?_⟩
  · rw [elementNodes, lookup_mapM _ _ _ hp, Res.bind_ok, he, permuteNodes_ok ht old hlen']
  · have := hperm.map fun j => old.getD j 0
    rwa [map_range_getD] at this
  · rw [List.length_map, hpl, hlen', hnum]
  · intro i hi
    have hi' : i < (perm type).length := by rw [hpl, hlen', ← hnum]; exact hi
    have hj : (perm type)[i] < old.length :=
      List.mem_range.1 (hperm.mem_iff.1 (List.getElem_mem hi'))
    refine ⟨(perm type)[i], hj, by simp [hi', hj], ?_⟩
    rw [localCoords, hco]
    simp [hi']

/-! ### Geometry -/

theorem lob2_separated : Lobatto.Separated lob2 := by
  intro i j hij hj
  have hj' : j < 3 := hj
  have hcases : (i = 0 ∧ j = 1) ∨ (i = 0 ∧ j = 2) ∨ (i = 1 ∧ j = 2) := by omega
  rcases hcases with ⟨rfl, rfl⟩ | ⟨rfl, rfl⟩ | ⟨rfl, rfl⟩ <;>
    norm_num [Lobatto.node, lob2, Lobatto.tol]

theorem nodal {type : Int} (ht : type ∈ goodTypes) {I : Interpolation ℝ}
    (hI : interpolation lob2 type = .ok I) {i : Nat} (hi : i < I.numNodes) :
    ∃ c, I.localCoords i = .ok c ∧
      I.shape (vec c) = (List.range I.numNodes).map fun k => if k = i then 1 else 0 := by
  by_cases h8 : type = 8
  · subst h8
    obtain rfl : trussLobatto lob2 = I := by injection hI
    obtain ⟨c, h1, h2⟩ := (C28_lobatto lob2 lob2_separated).1 i hi
    refine ⟨c, ?_, h2⟩
    rw [Lobatto.trussCoords, if_pos (show i < lob2.length from hi)] at h1
    cases h1
    have hi3 : i < 3 := hi
    rw [localCoords, trussLobatto]
    interval_cases i <;> rfl
  by_cases h10 : type = 10
  · subst h10
    obtain rfl : quadLobatto lob2 = I := by injection hI
    obtain ⟨c, h1, h2⟩ := (C28_lobatto lob2 lob2_separated).2.1 i hi
    refine ⟨c, ?_, h2⟩
    have hi' : i < lob2.length * lob2.length := hi
    rw [Lobatto.quadCoords, if_pos hi'] at h1
    cases h1
    simp [localCoords, quadLobatto, hi']
  by_cases h12 : type = 12
  · subst h12
    obtain rfl : brickLobatto lob2 = I := by injection hI
    obtain ⟨c, h1, h2⟩ := (C28_lobatto lob2 lob2_separated).2.2 i hi
    refine ⟨c, ?_, h2⟩
    have hi' : i < lob2.length * lob2.length * lob2.length := hi
    rw [Lobatto.brickCoords, if_pos hi'] at h1
    cases h1
    simp [localCoords, brickLobatto, hi']
  have hmem : I ∈ exactTypes := by
    simp only [goodTypes, List.mem_cons, List.not_mem_nil, or_false] at ht
    rcases ht with rfl | rfl | rfl | rfl | rfl | rfl | rfl | rfl | rfl | rfl | rfl | rfl | rfl
    all_goals first
      | exact absurd rfl h8
      | exact absurd rfl h10
      | exact absurd rfl h12
      | (injection hI with hI; subst hI; simp [exactTypes])
  exact (C28_nodal_partial I hmem i).1 hi

theorem position_unit {I : Interpolation ℝ} {ξ : Nat → ℝ} {n i : Nat}
    (hs : I.shape ξ = (List.range n).map fun k => if k = i then 1 else 0)
    (cs : List (List ℝ)) (hl : cs.length = n) (hi : i < n) (d : Nat) :
    I.position cs ξ d = (cs.getD i []).getD d 0 := by
  have hz : List.zipWith (fun (N : ℝ) (c : List ℝ) => N * c.getD d 0) (I.shape ξ) cs =
      (List.range n).map fun k => if k = i then (cs.getD i []).getD d 0 else 0 := by
    rw [hs]
    apply List.ext_getElem
    · simp [hl]
    · intro k h1 h2
      have hk : k < cs.length := by simpa [hl] using h2
      by_cases hki : k = i
      · subst hki; simp [hk]
      · simp [hki]
  rw [position, hz, ← List.sum_toFinset _ List.nodup_range, List.toFinset_range,
    Finset.sum_ite_eq' (Finset.range n) i]
  simp [hi]

/-- C25: geometry.  With arbitrary node positions the created element maps the reference
coordinates of every gmsh node to the position of that node. -/
theorem C25_geometry_partial (type : Int) (ht : type ∈ goodTypes)
    (nodePtrs : Int → Option Nat) (e : Element) (old : List Nat) (he : e.type = type)
    (hp : e.nodes.map nodePtrs = old.map some) (hlen : numNodes type = .ok old.length)
    (pos : Nat → List ℝ) :
    ∃ I l, interpolation lob2 type = .ok I ∧ elementNodes nodePtrs e = .ok l ∧
      ∀ j < old.length, ∀ d,
        I.position (l.map pos) (vec ((List.range I.dim).map (gmshRef type j))) d =
          (pos (old.getD j 0)).getD d 0 := by
  obtain ⟨I, hI, hnum, hco⟩ := coords_perm ht
  have hlen' : old.length = (gmshNodes type).length := by
    clear hp
    simp only [goodTypes, List.mem_cons, List.not_mem_nil, or_false] at ht
    rcases ht with rfl | rfl | rfl | rfl | rfl | rfl | rfl | rfl | rfl | rfl | rfl | rfl | rfl <;>
      (injection hlen with hlen; rw [← hlen]; rfl)
  have hperm : (perm type).Perm (List.range old.length) := by
    rw [hlen']
    clear hI hco hlen hlen' he hnum hp
    simp only [goodTypes, List.mem_cons, List.not_mem_nil, or_false] at ht
    rcases ht with rfl | rfl | rfl | rfl | rfl | rfl | rfl | rfl | rfl | rfl | rfl | rfl | rfl <;>
      decide
  have hpl : (perm type).length = old.length := by rw [hperm.length_eq, List.length_range]
  refine ⟨I, (perm type).map fun j => old.getD j 0, hI, ?_, ?_⟩
  · rw [elementNodes, lookup_mapM _ _ _ hp, Res.bind_ok, he, permuteNodes_ok ht old hlen']
  · intro j hj d
    obtain ⟨i, hi, hij⟩ := List.getElem_of_mem (hperm.mem_iff.2 (List.mem_range.2 hj))
    have hin : i < I.numNodes := by rw [hnum, ← hlen', ← hpl]; exact hi
    obtain ⟨c, hc, hs⟩ := nodal ht hI hin
    have hcc : c = (List.range I.dim).map (gmshRef type j) := by
      rw [localCoords, hco] at hc
      simp only [List.getElem?_map, List.getElem?_eq_getElem hi, Option.map_some, hij] at hc
      injection hc with hc
      exact hc.symm
    rw [← hcc, position_unit hs _ (by rw [List.length_map, List.length_map, hpl, hlen', hnum]) hin]
    have : (((perm type).map fun j => old.getD j 0).map pos).getD i [] = pos (old.getD j 0) := by
      simp [hi, hij]
    rw [this]

/-! ### Orientation -/

theorem lob2_deriv : Lobatto.deriv lob2 0 = [-(1 / 2), 0, 1 / 2] := by
  norm_num [Lobatto.deriv, lob2, Lobatto.sumStep, Lobatto.prodStep, Lobatto.weight,
    Lobatto.weightStep, Lobatto.node, List.range_succ]

theorem lob2_shape : Lobatto.shape lob2 0 = [0, 1, 0] := by
  have h := shape_node (i := 1) lob2_separated (by decide)
  have hn : Lobatto.node lob2 1 = 0 := rfl
  rw [hn] at h
  have hl := Lobatto.shape_length lob2 0
  match hs : Lobatto.shape lob2 0, hl with
  | [a, b, c], _ =>
    have h0 := h 0
    have h1 := h 1
    have h2 := h 2
    rw [hs] at h0 h1 h2
    simp at h0 h1 h2
    rw [h0, h1, h2]

/-- Linear functions are differentiated exactly at the origin. -/
structure Complete (I : Interpolation ℝ) : Prop where
  pos : 0 < I.numNodes
  dim : 1 ≤ I.dim ∧ I.dim ≤ 3
  len : (I.deriv fun _ => 0).length = I.numNodes
  const : ∀ j < I.dim, ∑ k ∈ Finset.range I.numNodes,
    ((I.deriv fun _ => 0).getD k []).getD j 0 = 0
  linear : ∀ e < I.dim, ∀ j < I.dim, ∑ k ∈ Finset.range I.numNodes,
    (I.coords.getD k []).getD e 0 * ((I.deriv fun _ => 0).getD k []).getD j 0 =
      if e = j then 1 else 0

/-- `Complete` for tables of rational numbers. -/
def completeQ (n d : Nat) (co de : List (List ℚ)) : Prop :=
  (∀ j < d, ((List.range n).map fun k => (de.getD k []).getD j 0).sum = 0) ∧
  ∀ e < d, ∀ j < d, ((List.range n).map fun k =>
    (co.getD k []).getD e 0 * (de.getD k []).getD j 0).sum = if e = j then 1 else 0

instance (n d : Nat) (co de : List (List ℚ)) : Decidable (completeQ n d co de) := by
  unfold completeQ; infer_instance

/-- The entries of a table as real numbers. -/
noncomputable def castTable (l : List (List ℚ)) : List (List ℝ) :=
  l.map fun r => r.map fun q : ℚ => (q : ℝ)

theorem castTable_getD (l : List (List ℚ)) (k j : Nat) :
    ((castTable l).getD k []).getD j 0 = (((l.getD k []).getD j 0 : ℚ) : ℝ) := by
  by_cases hk : k < l.length
  · by_cases hj : j < l[k].length
    · simp [castTable, hk, hj]
    · simp [castTable, hk, hj]
  · simp [castTable, hk]

theorem complete_of_rat {I : Interpolation ℝ} (co de : List (List ℚ))
    (h1 : I.coords = castTable co) (h2 : (I.deriv fun _ => 0) = castTable de)
    (h3 : de.length = I.numNodes) (h4 : 0 < I.numNodes) (h5 : 1 ≤ I.dim ∧ I.dim ≤ 3)
    (h6 : completeQ I.numNodes I.dim co de) : Complete I := by
  refine ⟨h4, h5, by rw [h2, castTable, List.length_map, h3], fun j hj => ?_,
    fun e he j hj => ?_⟩
  · have := h6.1 j hj
    rw [← List.sum_toFinset _ List.nodup_range, List.toFinset_range] at this
    rw [h2]
    simp only [castTable_getD]
    rw [← Rat.cast_sum, this, Rat.cast_zero]
  · have := h6.2 e he j hj
    rw [← List.sum_toFinset _ List.nodup_range, List.toFinset_range] at this
    rw [h1, h2]
    simp only [castTable_getD]
    have hc : ∀ k, (((co.getD k []).getD e 0 : ℚ) : ℝ) * (((de.getD k []).getD j 0 : ℚ) : ℝ) =
        (((co.getD k []).getD e 0 * (de.getD k []).getD j 0 : ℚ) : ℝ) := fun k => by push_cast; rfl
    simp only [hc]
    rw [← Rat.cast_sum, this]
    split <;> simp

theorem complete_trussLobatto : Complete (trussLobatto lob2) := by
  refine complete_of_rat [[-1], [0], [1]] [[-(1 / 2)], [0], [1 / 2]] ?_ ?_ rfl (by decide)
    (by decide) (by decide +kernel)
  · simp [trussLobatto, castTable, lob2]
  · simp [trussLobatto, castTable, lob2_deriv]

theorem complete_quadLobatto : Complete (quadLobatto lob2) := by
  refine complete_of_rat ((List.range 9).map fun i => [[-1, 0, 1].getD (i % 3) 0,
      [-1, 0, 1].getD (i / 3) 0])
    ((List.range 3).flatMap fun j => (List.range 3).map fun i =>
      [[-(1 / 2), 0, 1 / 2].getD i 0 * [0, 1, 0].getD j 0,
       [0, 1, 0].getD i 0 * [-(1 / 2), 0, 1 / 2].getD j 0]) ?_ ?_ rfl (by decide)
    (by decide) (by decide +kernel)
  · simp [quadLobatto, castTable, lob2, Lobatto.node, List.range_succ]
  · simp [quadLobatto, castTable, Lobatto.quadDeriv, lob2_deriv, lob2_shape, List.range_succ,
      show lob2.length = 3 from rfl]

theorem complete_brickLobatto : Complete (brickLobatto lob2) := by
  refine complete_of_rat ((List.range 27).map fun i => [[-1, 0, 1].getD (i % 3) 0,
      [-1, 0, 1].getD (i % 9 / 3) 0, [-1, 0, 1].getD (i / 9) 0])
    ((List.range 3).flatMap fun k => (List.range 3).flatMap fun j => (List.range 3).map fun i =>
      [[-(1 / 2), 0, 1 / 2].getD i 0 * [0, 1, 0].getD j 0 * [0, 1, 0].getD k 0,
       [0, 1, 0].getD i 0 * [-(1 / 2), 0, 1 / 2].getD j 0 * [0, 1, 0].getD k 0,
       [0, 1, 0].getD i 0 * [0, 1, 0].getD j 0 * [-(1 / 2), 0, 1 / 2].getD k 0]) ?_ ?_ rfl
    (by decide) (by decide) (by decide +kernel)
  · simp [brickLobatto, castTable, lob2, Lobatto.node, List.range_succ]
  · simp [brickLobatto, castTable, Lobatto.brickDeriv, lob2_deriv, lob2_shape, List.range_succ,
      show lob2.length = 3 from rfl]

theorem complete {type : Int} (ht : type ∈ goodTypes ∨ type = 7) {I : Interpolation ℝ}
    (hI : interpolation lob2 type = .ok I) : Complete I := by
  simp only [goodTypes, List.mem_cons, List.not_mem_nil, or_false] at ht
  rcases ht with (rfl | rfl | rfl | rfl | rfl | rfl | rfl | rfl | rfl | rfl | rfl | rfl | rfl) | rfl
  all_goals
    injection hI with hI
    subst hI
    first
    | exact complete_trussLobatto
    | exact complete_quadLobatto
    | exact complete_brickLobatto
    | skip
  · refine complete_of_rat (trussLinear (K := ℚ)).coords ((trussLinear (K := ℚ)).deriv fun _ => 0) ?_ ?_ rfl
      (by decide) (by decide) (by decide +kernel)
    · simp [trussLinear, trussLinearCoords, castTable]
    · norm_num [trussLinear, trussLinearDeriv, castTable]
  · refine complete_of_rat (triangleLinear (K := ℚ)).coords ((triangleLinear (K := ℚ)).deriv fun _ => 0) ?_ ?_ rfl
      (by decide) (by decide) (by decide +kernel)
    · simp [triangleLinear, triangleLinearCoords, castTable]
    · norm_num [triangleLinear, triangleLinearDeriv, castTable]
  · refine complete_of_rat (quadLinear (K := ℚ)).coords ((quadLinear (K := ℚ)).deriv fun _ => 0) ?_ ?_ rfl
      (by decide) (by decide) (by decide +kernel)
    · simp [quadLinear, quadLinearCoords, castTable]
    · norm_num [quadLinear, quadLinearDeriv, castTable]
  · refine complete_of_rat (tetrahedronLinear (K := ℚ)).coords ((tetrahedronLinear (K := ℚ)).deriv fun _ => 0) ?_ ?_ rfl
      (by decide) (by decide) (by decide +kernel)
    · simp [tetrahedronLinear, tetrahedronLinearCoords, castTable]
    · norm_num [tetrahedronLinear, tetrahedronLinearDeriv, castTable]
  · refine complete_of_rat (brickLinear (K := ℚ)).coords ((brickLinear (K := ℚ)).deriv fun _ => 0) ?_ ?_ rfl
      (by decide) (by decide) (by decide +kernel)
    · simp [brickLinear, brickLinearCoords, castTable]
    · norm_num [brickLinear, brickLinearDeriv, castTable]
  · refine complete_of_rat (prismLinear (K := ℚ)).coords ((prismLinear (K := ℚ)).deriv fun _ => 0) ?_ ?_ rfl
      (by decide) (by decide) (by decide +kernel)
    · simp [prismLinear, prismLinearCoords, castTable]
    · norm_num [prismLinear, prismLinearDeriv, castTable, triangleLinearShape, triangleLinearDeriv, trussLinearShape, trussLinearDeriv]
  · refine complete_of_rat (triangleQuadratic (K := ℚ)).coords ((triangleQuadratic (K := ℚ)).deriv fun _ => 0) ?_ ?_ rfl
      (by decide) (by decide) (by decide +kernel)
    · simp [triangleQuadratic, triangleQuadraticCoords, castTable]
    · norm_num [triangleQuadratic, triangleQuadraticDeriv, castTable]
  · refine complete_of_rat (tetrahedronQuadratic (K := ℚ)).coords ((tetrahedronQuadratic (K := ℚ)).deriv fun _ => 0) ?_ ?_ rfl
      (by decide) (by decide) (by decide +kernel)
    · simp [tetrahedronQuadratic, tetrahedronQuadraticCoords, castTable]
    · norm_num [tetrahedronQuadratic, tetrahedronQuadraticDeriv, castTable]
  · refine complete_of_rat (prismQuadratic (K := ℚ)).coords ((prismQuadratic (K := ℚ)).deriv fun _ => 0) ?_ ?_ rfl
      (by decide) (by decide) (by decide +kernel)
    · simp [prismQuadratic, prismQuadraticCoords, castTable]
    · norm_num [prismQuadratic, prismQuadraticDeriv, castTable, triangleQuadraticShape, triangleQuadraticDeriv, trussQuadraticShape, trussQuadraticDeriv]
  · refine complete_of_rat (quadSerendipity (K := ℚ)).coords ((quadSerendipity (K := ℚ)).deriv fun _ => 0) ?_ ?_ rfl
      (by decide) (by decide) (by decide +kernel)
    · simp [quadSerendipity, quadSerendipityCoords, castTable]
    · norm_num [quadSerendipity, quadSerendipityDeriv, castTable]
  · refine complete_of_rat (pyramidLinear (K := ℚ)).coords ((pyramidLinear (K := ℚ)).deriv fun _ => 0) ?_ ?_ rfl
      (by decide) (by decide) (by decide +kernel)
    · simp [pyramidLinear, pyramidLinearCoords, castTable]
    · norm_num [pyramidLinear, pyramidLinearDeriv, castTable, dblEpsilon]

theorem flatten_getD (X : List (List ℝ)) (m : Nat) (hm : ∀ x ∈ X, x.length = m) (k d : Nat)
    (hk : k < X.length) (hd : d < m) :
    X.flatten.getD (m * k + d) 0 = (X.getD k []).getD d 0 := by
  induction X generalizing k with
  | nil => exact absurd hk (Nat.not_lt_zero _)
  | cons x X ih =>
    have hx := hm x List.mem_cons_self
    cases k with
    | zero =>
      rw [List.flatten_cons, List.getD_append _ _ _ _ (by omega)]
      simp
    | succ k =>
      rw [List.flatten_cons, List.getD_append_right _ _ _ _ (by rw [hx, Nat.mul_succ]; omega),
        show m * (k + 1) + d - x.length = m * k + d by rw [hx, Nat.mul_succ]; omega,
        ih (fun y hy => hm y (List.mem_cons_of_mem _ hy)) k (by simpa using hk)]
      simp

theorem flatten_length (X : List (List ℝ)) (m : Nat) (hm : ∀ x ∈ X, x.length = m) :
    X.flatten.length = X.length * m := by
  induction X with
  | nil => simp
  | cons x X ih =>
    rw [List.flatten_cons, List.length_append, ih fun y hy => hm y (List.mem_cons_of_mem _ hy),
      hm x List.mem_cons_self, List.length_cons, Nat.succ_mul, Nat.add_comm]

/-- Acceptance of an element whose nodes are the image of its local nodes under an affine
map. -/
theorem check_affine {I : Interpolation ℝ} (hC : Complete I) (X : List (List ℝ)) (m : Nat)
    (hm : ∀ x ∈ X, x.length = m) (hl : X.length = I.numNodes) (A : Nat → Nat → ℝ) (b : Nat → ℝ)
    (hX : ∀ k < I.numNodes, ∀ d < m, (X.getD k []).getD d 0 =
      ∑ f ∈ Finset.range I.dim, A d f * (I.coords.getD k []).getD f 0 + b d) :
    (m = I.dim → checkJacobian I X = if 0 < (Jacobian.toMat I.dim I.dim A).det then .ok ()
      else .throw) ∧
    (m = I.dim + 1 → m ≤ 3 → checkJacobian I X =
      if 0 < ((Jacobian.toMat m I.dim A).transpose * Jacobian.toMat m I.dim A).det then .ok ()
      else .throw) ∧
    (m ≠ I.dim → ¬ (m = I.dim + 1 ∧ m ≤ 3) → checkJacobian I X = .throw) := by
  have hflat : X.flatten.length = (I.deriv fun _ => 0).length * m := by
    rw [flatten_length X m hm, hl, hC.len]
  have hpos : 0 < (I.deriv fun _ => 0).length := by rw [hC.len]; exact hC.pos
  have hout := Jacobian.C40_outcomes X.flatten I.dim m (I.deriv fun _ => 0) hpos hflat
  have hdim := hC.dim
  have hent : ∀ J, Jacobian.make X.flatten I.dim (I.deriv fun _ => 0) = .ok J →
      J.rows = m ∧ J.cols = I.dim ∧ ∀ d < m, ∀ j < I.dim, J.jac d j = A d j := by
    intro J hJ
    obtain ⟨_, hc, hr, _, _⟩ := Jacobian.make_cases hJ
    have hr' : J.rows = m := by rw [hr, hflat, Nat.mul_div_cancel_left _ hpos]
    refine ⟨hr', hc, fun d hd j hj => ?_⟩
    rw [Jacobian.C40_entries hJ, hr', hC.len]
    have : ∀ k ∈ Finset.range I.numNodes,
        X.flatten.getD (m * k + d) 0 * ((I.deriv fun _ => 0).getD k []).getD j 0 =
        ∑ f ∈ Finset.range I.dim, A d f * ((I.coords.getD k []).getD f 0 *
          ((I.deriv fun _ => 0).getD k []).getD j 0) +
          b d * ((I.deriv fun _ => 0).getD k []).getD j 0 := by
      intro k hk
      have hk' := Finset.mem_range.1 hk
      rw [flatten_getD X m hm k d (by rw [hl]; exact hk') hd, hX k hk' d hd, add_mul,
        Finset.sum_mul]
      congr 1
      exact Finset.sum_congr rfl fun f _ => by ring
    rw [Finset.sum_congr rfl this, Finset.sum_add_distrib, ← Finset.mul_sum, hC.const j hj,
      mul_zero, add_zero, Finset.sum_comm]
    have h2 : ∀ f ∈ Finset.range I.dim, ∑ k ∈ Finset.range I.numNodes,
        A d f * ((I.coords.getD k []).getD f 0 * ((I.deriv fun _ => 0).getD k []).getD j 0) =
        if f = j then A d f else 0 := by
      intro f hf
      rw [← Finset.mul_sum, hC.linear f (Finset.mem_range.1 hf) j hj]
      split <;> simp
    rw [Finset.sum_congr rfl h2, Finset.sum_ite_eq' (Finset.range I.dim) j, if_pos
      (Finset.mem_range.2 hj)]
  refine ⟨fun h => ?_, fun h h3 => ?_, fun h h' => ?_⟩
  · obtain ⟨J, hJ⟩ := hout.1.2 (Or.inl ⟨h.symm, by omega, by omega⟩)
    obtain ⟨hr, hc, he⟩ := hent J hJ
    have hdet := (Jacobian.C40_square hJ (by rw [hr, hc, h])).1
    have hmat : (Jacobian.toMat J.rows J.rows J.jac).det = (Jacobian.toMat I.dim I.dim A).det := by
      obtain ⟨r, c, jac, inv, det, nrm⟩ := J
      dsimp only at hr hc he ⊢
      subst hr h
      congr 1
      funext i j
      exact he i i.2 j j.2
    rw [checkJacobian, hJ, Res.bind_ok, hdet, hmat]
    by_cases hp : 0 < (Jacobian.toMat I.dim I.dim A).det
    · rw [if_pos hp, if_neg (not_le.2 hp)]; rfl
    · rw [if_neg hp, if_pos (not_lt.1 hp)]
  · obtain ⟨J, hJ⟩ := hout.1.2 (Or.inr ⟨h, by omega, by omega⟩)
    obtain ⟨hr, hc, he⟩ := hent J hJ
    have hdet := (Jacobian.C40_embedded hJ (by rw [hr, hc, h])).1
    have hmat : Jacobian.toMat J.rows J.cols J.jac = Jacobian.toMat J.rows J.cols A := by
      funext i j
      exact he i (by rw [← hr]; exact i.2) j (by rw [← hc]; exact j.2)
    rw [hmat] at hdet
    have hdet' : J.det = Real.sqrt
        ((Jacobian.toMat m I.dim A).transpose * Jacobian.toMat m I.dim A).det := by
      rw [hdet]
      obtain ⟨r, c, jac, inv, det, nrm⟩ := J
      dsimp only at hr hc ⊢
      subst hr hc
      rfl
    rw [checkJacobian, hJ, Res.bind_ok, hdet']
    by_cases hp : 0 < ((Jacobian.toMat m I.dim A).transpose * Jacobian.toMat m I.dim A).det
    · rw [if_pos hp, if_neg (not_le.2 (Real.sqrt_pos.2 hp))]; rfl
    · rw [if_neg hp, if_pos (by rw [Real.sqrt_eq_zero_of_nonpos (not_lt.1 hp)])]
  · rw [checkJacobian, hout.2.2 ⟨fun hc => h hc.symm, fun hc => h' ⟨hc.1, by omega⟩⟩]
    rfl

/-- C25: orientation.  The nodes of the gmsh element are the image of gmsh's reference cell
under the affine map `ξ ↦ A ξ + b`.  In a space of the dimension of the element it is
accepted exactly if the map preserves the orientation; lines in the plane and surfaces in
space are accepted exactly if they are not degenerate; everything else (lines in space) is
rejected. -/
theorem C25_orientation_partial (type : Int) (ht : type ∈ goodTypes)
    (nodePtrs : Int → Option Nat) (e : Element) (old : List Nat) (he : e.type = type)
    (hp : e.nodes.map nodePtrs = old.map some) (hlen : numNodes type = .ok old.length)
    (pos : Nat → List ℝ) (m : Nat) (A : Nat → Nat → ℝ) (b : Nat → ℝ)
    (hm : ∀ n ∈ old, (pos n).length = m)
    (hpos : ∀ j < old.length, ∀ d < m, (pos (old.getD j 0)).getD d 0 =
      ∑ f ∈ Finset.range 3, A d f * gmshRef type j f + b d) :
    ∃ I l, interpolation lob2 type = .ok I ∧ elementNodes nodePtrs e = .ok l ∧
    (m = I.dim → checkJacobian I (l.map pos) =
      if 0 < (Jacobian.toMat I.dim I.dim A).det then .ok () else .throw) ∧
    (m = I.dim + 1 → m ≤ 3 → checkJacobian I (l.map pos) =
      if 0 < ((Jacobian.toMat m I.dim A).transpose * Jacobian.toMat m I.dim A).det then .ok ()
      else .throw) ∧
    (m ≠ I.dim → ¬ (m = I.dim + 1 ∧ m ≤ 3) → checkJacobian I (l.map pos) = .throw) := by
  obtain ⟨I, hI, hnode⟩ := C25_node_order_partial type ht
  obtain ⟨l, hl, hperm, hlenl, hcoord⟩ := hnode nodePtrs e old he hp hlen
  refine ⟨I, l, hI, hl, ?_⟩
  refine check_affine (complete (Or.inl ht) hI) _ m ?_ (by rw [List.length_map, hlenl]) A b ?_
  · intro x hx
    obtain ⟨n, hn, rfl⟩ := List.mem_map.1 hx
    exact hm n (hperm.mem_iff.1 hn)
  · intro k hk d hd
    obtain ⟨j, hj, hlj, hco⟩ := hcoord k hk
    have hk' : k < l.length := by rw [hlenl]; exact hk
    have hlk : l[k] = old.getD j 0 := by
      rw [List.getElem?_eq_getElem hk', List.getElem?_eq_getElem hj] at hlj
      injection hlj with hlj
      simp [hlj, hj]
    have hck : I.coords.getD k [] = (List.range I.dim).map (gmshRef type j) := by
      rw [localCoords] at hco
      split at hco
      · next c hc =>
        injection hco with hco
        simp [hc, hco]
      · cases hco
    have hx : (l.map pos).getD k [] = pos (old.getD j 0) := by
      simp [hk', hlk]
    rw [hx, hpos j hj d hd, hck]
    congr 1
    have hzero : ∀ f, I.dim ≤ f → gmshRef type j f = 0 := by
      have : ∀ c, ∀ f, I.dim ≤ f → ((gmshCorners type).getD c []).getD f 0 = 0 := by
        intro c f hf
        have hcl : ∀ x ∈ gmshCorners type, x.length ≤ I.dim := by
          clear hpos hnode hcoord hm hco hck hlen
          simp only [goodTypes, List.mem_cons, List.not_mem_nil, or_false] at ht
          rcases ht with rfl | rfl | rfl | rfl | rfl | rfl | rfl | rfl | rfl | rfl | rfl | rfl |
            rfl <;> (injection hI with hI; subst hI; simp only [gmshCorners, line, triangle,
              quadrangle, tetrahedron, hexahedron, prism, List.mem_cons, List.not_mem_nil,
              or_false]; rintro x hx; rcases hx with rfl | rfl | rfl | rfl | rfl | rfl | rfl | rfl)
              <;> exact Nat.le_refl _
        by_cases hc : c < (gmshCorners type).length
        · have h1 := hcl _ (List.getElem_mem hc)
          have h2 : ((gmshCorners type).getD c []) = (gmshCorners type)[c] := by simp [hc]
          rw [h2]
          exact List.getD_eq_default _ _ (by omega)
        · simp [hc]
      intro f hf
      simp only [gmshRef]
      have hs : ∀ cs : List Nat, (cs.map fun c => ((gmshCorners type).getD c []).getD f 0).sum
          = 0 := by
        intro cs
        induction cs with
        | nil => rfl
        | cons c cs ih => rw [List.map_cons, List.sum_cons, ih, this c f hf, add_zero]
      rw [hs, zero_div]
    have hdim := (complete (Or.inl ht) hI).dim
    have hsub : Finset.range I.dim ⊆ Finset.range 3 := by
      intro f hf
      rw [Finset.mem_range] at hf ⊢
      omega
    rw [← Finset.sum_subset hsub]
    · refine Finset.sum_congr rfl fun f hf => ?_
      have hf' := Finset.mem_range.1 hf
      simp [hf']
    · intro f _ hf
      rw [hzero f (by rw [Finset.mem_range] at hf; omega), mul_zero]

/-! ### The pyramid -/

/-- C25 is false for pyramids: the nodes keep the order of gmsh, but node 0 of
`InterpolationPyramidLinear` is at `(1, 1, 0)` and the base runs clockwise.  A pyramid that is
the image of gmsh's reference pyramid under an affine map is accepted exactly if the map
*reverses* the orientation; so gmsh's own reference pyramid is rejected. -/
theorem C25_pyramid_counterexample (nodePtrs : Int → Option Nat) (e : Element) (old : List Nat)
    (he : e.type = 7) (hp : e.nodes.map nodePtrs = old.map some) (hlen : old.length = 5)
    (pos : Nat → List ℝ) (A : Nat → Nat → ℝ) (b : Nat → ℝ)
    (hm : ∀ n ∈ old, (pos n).length = 3)
    (hpos : ∀ j < 5, ∀ d < 3, (pos (old.getD j 0)).getD d 0 =
      ∑ f ∈ Finset.range 3, A d f * gmshRef 7 j f + b d) :
    interpolation lob2 7 = .ok pyramidLinear ∧ elementNodes nodePtrs e = .ok old ∧
    checkJacobian pyramidLinear (old.map pos) =
      if (Jacobian.toMat 3 3 A).det < 0 then .ok () else .throw := by
  have hI : interpolation lob2 7 = .ok pyramidLinear := rfl
  refine ⟨hI, ?_, ?_⟩
  · rw [elementNodes, lookup_mapM _ _ _ hp, Res.bind_ok, he]
    rfl
  · have h := (check_affine (complete (Or.inr rfl) hI) (old.map pos) 3 ?_
      (by rw [List.length_map, hlen]; rfl)
      (fun d f => match f with | 0 => -A d 1 | 1 => -A d 0 | f => A d f) b ?_).1 rfl
    · rw [h]
      have hdet : (Jacobian.toMat 3 3
          (fun d f => match f with | 0 => -A d 1 | 1 => -A d 0 | f => A d f)).det =
          -(Jacobian.toMat 3 3 A).det := by
        rw [Matrix.det_fin_three, Matrix.det_fin_three]
        simp only [Jacobian.toMat, Fin.isValue, Fin.val_zero, Fin.val_one, Fin.val_two]
        ring
      have hd : (pyramidLinear (K := ℝ)).dim = 3 := rfl
      rw [hd, hdet]
      by_cases hn : (Jacobian.toMat 3 3 A).det < 0
      · rw [if_pos hn, if_pos (by linarith)]
      · rw [if_neg hn, if_neg (by linarith)]
    · intro x hx
      obtain ⟨n, hn, rfl⟩ := List.mem_map.1 hx
      exact hm n hn
    · intro k hk d hd
      have hk5 : k < 5 := hk
      have hx : (old.map pos).getD k [] = pos (old.getD k 0) := by
        simp [hlen, hk5]
      rw [hx, hpos k hk5 d hd]
      have hdim : (pyramidLinear (K := ℝ)).dim = 3 := rfl
      rw [hdim]
      interval_cases k <;>
        norm_num [Finset.sum_range_succ, gmshRef, gmshNodes, gmshCorners, pyramid, pyramidLinear,
          pyramidLinearCoords] <;> ring

/-- The hypotheses are met: the reference hexahedron with 27 nodes and the reference pyramid,
with the identity as affine map. -/
example : ∃ (nodePtrs : Int → Option Nat) (e : Element) (old : List Nat) (pos : Nat → List ℝ),
    e.type = 12 ∧ e.nodes.map nodePtrs = old.map some ∧ numNodes 12 = .ok old.length ∧
    (∀ n ∈ old, (pos n).length = 3) ∧
    (∀ j < old.length, ∀ d < 3, (pos (old.getD j 0)).getD d 0 =
      ∑ f ∈ Finset.range 3, (if d = f then 1 else 0) * gmshRef 12 j f + 0) ∧
    0 < (Jacobian.toMat 3 3 fun d f => if d = f then 1 else 0).det := by
  refine ⟨fun i => if 1 ≤ i ∧ i ≤ 27 then some (i - 1).toNat else none,
    ⟨1, 12, [1], (List.range 27).map fun i => (i : Int) + 1⟩, List.range 27,
    fun n => (List.range 3).map (gmshRef 12 n), rfl, by decide, rfl, by simp, ?_, ?_⟩
  · intro j hj d hd
    have hj' : j < 27 := hj
    have : (List.range 27).getD j 0 = j := by simp [hj']
    rw [this]
    interval_cases d <;> simp
  · rw [Matrix.det_fin_three]
    simp [Jacobian.toMat]

end Gmsh

end NuTo
