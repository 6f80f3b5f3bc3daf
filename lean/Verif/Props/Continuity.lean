import Verif.Lemmas.ContinuityLobatto

/-!
C92: the interpolated fields of two elements agree on a common facet.
-/

set_option linter.unusedSectionVars false

namespace NuTo

namespace Continuity

open Interpolation

variable {K : Type} [Field K] [LinearOrder K] [IsStrictOrderedRing K]

theorem types_exact {S : EShape} {I : Interpolation K} (hI : (S, I) ∈ (types : List (EShape × Interpolation K))) :
    I ∈ (exactTypes : List (Interpolation K)) := by
  simp only [types, List.mem_cons, List.not_mem_nil, or_false, Prod.mk.injEq] at hI
  rcases hI with ⟨rfl, rfl⟩ | ⟨rfl, rfl⟩ | ⟨rfl, rfl⟩ | ⟨rfl, rfl⟩ | ⟨rfl, rfl⟩ | ⟨rfl, rfl⟩ | ⟨rfl, rfl⟩ | ⟨rfl, rfl⟩ | ⟨rfl, rfl⟩ |
    ⟨rfl, rfl⟩ | ⟨rfl, rfl⟩ | ⟨rfl, rfl⟩ <;> simp [exactTypes]

theorem localCoords_iff (I : Interpolation K) (i : Nat) (c : List K) : I.localCoords i = .ok c ↔ I.coords[i]? = some c := by
  unfold localCoords
  split <;> simp_all

theorem value_node {I : Interpolation K} (hI : I ∈ (exactTypes : List (Interpolation K))) (v : Nat → K) {i : Nat} {c : List K}
    (h : I.coords[i]? = some c) : i < I.numNodes ∧ value I v c = v i := by
  have h' := (localCoords_iff I i c).2 h
  by_cases hi : i < I.numNodes
  · refine ⟨hi, ?_⟩
    obtain ⟨c', h1, h2⟩ := (C28_nodal_partial I hI i).1 hi
    rw [h'] at h1
    cases h1
    rw [value, h2, Finset.sum_eq_single i]
    · simp [hi]
    · intro k hk hne
      simp [Finset.mem_range.1 hk, hne]
    · intro h3
      exact absurd (Finset.mem_range.2 hi) h3
  · rw [(C28_nodal_partial I hI i).2 (by omega)] at h'
    cases h'

theorem facet_coords {F : EShape} {M : Interpolation K} (hM : M ∈ (facetTypes F : List (Interpolation K))) :
    M.coords.length = M.numNodes ∧ ∀ c ∈ M.coords, ∃ s t, c = point F s t := by
  cases F <;> simp only [facetTypes, List.mem_cons, List.not_mem_nil, or_false] at hM
  · rcases hM with rfl | rfl | rfl <;>
      simp [trussLinear, trussLinearCoords, trussQuadratic, trussQuadraticCoords, truss3rdOrder, truss3rdOrderCoords, point]
  · rcases hM with rfl | rfl <;>
      simp [triangleLinear, triangleLinearCoords, triangleQuadratic, triangleQuadraticCoords, point]
  · rcases hM with rfl | rfl | rfl <;>
      simp [quadLinear, quadLinearCoords, quadSerendipity, quadSerendipityCoords, quadNine, point]

/-- The nodes of the element on the facet are the nodes of the functions on the facet. -/
theorem node_iff {I M : Interpolation K} (hI : I ∈ (exactTypes : List (Interpolation K))) {F : EShape} {p : K → K → List K} {nodes : List Nat}
    (h : HasTrace I F p M nodes) {s t : K} (hst : Within F s t) :
    (∃ i, I.localCoords i = .ok (p s t)) ↔ point F s t ∈ M.coords := by
  obtain ⟨hlen, hpt⟩ := facet_coords h.elem
  constructor
  · rintro ⟨i, hi⟩
    rw [localCoords_iff] at hi
    have h1 := h.value (fun k => if k = i then 1 else 0) s t hst
    rw [(value_node hI _ hi).2, if_pos rfl, value] at h1
    have h2 : ∃ k ∈ Finset.range M.numNodes, nodes.getD k 0 = i := by
      by_contra hno
      push Not at hno
      rw [Finset.sum_eq_zero] at h1
      · exact one_ne_zero h1
      · intro k hk
        rw [if_neg (hno k hk), mul_zero]
    obtain ⟨k, hk, hki⟩ := h2
    have hk' : k < M.coords.length := by rw [hlen]; exact Finset.mem_range.1 hk
    obtain ⟨s', t', hst'⟩ := hpt M.coords[k] (List.getElem_mem hk')
    have h3 : M.coords[k]? = some (point F s' t') := by rw [List.getElem?_eq_getElem hk', hst']
    have h4 := h.coords k (Finset.mem_range.1 hk) s' t' h3
    rw [hki, hi] at h4
    rw [h.inj s t s' t' (Option.some.inj h4), ← hst']
    exact List.getElem_mem hk'
  · intro hm
    obtain ⟨k, hk, hkm⟩ := List.getElem_of_mem hm
    exact ⟨_, (localCoords_iff _ _ _).2 (h.coords k (by omega) s t (by rw [List.getElem?_eq_getElem hk, hkm]))⟩

theorem symmetry_within {F : EShape} {g : K → K → K × K} (hg : g ∈ (symmetries F : List (K → K → K × K))) {s t : K} (h : Within F s t) :
    Within F (g s t).1 (g s t).2 := by
  cases F <;> simp only [symmetries, List.mem_cons, List.not_mem_nil, or_false] at hg
  · rcases hg with rfl | rfl <;> simp only [Within] at h ⊢ <;> constructor <;> linarith
  · rcases hg with rfl | rfl | rfl | rfl | rfl | rfl <;> simp only [Within] at h ⊢ <;> obtain ⟨h1, h2, h3⟩ := h <;>
      refine ⟨?_, ?_, ?_⟩ <;> linarith
  · rcases hg with rfl | rfl | rfl | rfl | rfl | rfl | rfl | rfl <;> simp only [Within] at h ⊢ <;> obtain ⟨h1, h2, h3, h4⟩ := h <;>
      refine ⟨?_, ?_, ?_, ?_⟩ <;> linarith

/-- The functions on the facet are known from their nodes. -/
theorem same_type {F : EShape} {M M' : Interpolation K} (hM : M ∈ (facetTypes F : List (Interpolation K)))
    (hM' : M' ∈ (facetTypes F : List (Interpolation K))) {g : K → K → K × K} (hg : g ∈ (symmetries F : List (K → K → K × K)))
    (h : ∀ s t, Within F s t → (point F s t ∈ M.coords ↔ point F (g s t).1 (g s t).2 ∈ M'.coords)) : M = M' := by
  cases F <;> simp only [facetTypes, symmetries, List.mem_cons, List.not_mem_nil, or_false] at hM hM' hg
  · have h0 := h 0 0 (by norm_num [Within])
    have h1 := h (1 / 3) 0 (by norm_num [Within])
    clear h
    rcases hM with rfl | rfl | rfl <;> rcases hM' with rfl | rfl | rfl <;> first | rfl | (exfalso; rcases hg with rfl | rfl) <;>
      (revert h0 h1; norm_num [trussLinear, trussLinearCoords, trussQuadratic, trussQuadraticCoords, truss3rdOrder, truss3rdOrderCoords, point])
  · have h0 := h (1 / 2) 0 (by norm_num [Within])
    clear h
    rcases hM with rfl | rfl <;> rcases hM' with rfl | rfl <;> first | rfl | (exfalso; rcases hg with rfl | rfl | rfl | rfl | rfl | rfl) <;>
      norm_num [triangleLinear, triangleLinearCoords, triangleQuadratic, triangleQuadraticCoords, point] at h0
  · have h0 := h 0 0 (by norm_num [Within])
    have h1 := h 0 1 (by norm_num [Within])
    clear h
    rcases hM with rfl | rfl | rfl <;> rcases hM' with rfl | rfl | rfl <;> first | rfl | (exfalso; rcases hg with rfl | rfl | rfl | rfl | rfl | rfl | rfl | rfl) <;>
      (revert h0 h1; norm_num [quadLinear, quadLinearCoords, quadSerendipity, quadSerendipityCoords, quadNine, point])

end Continuity

open Continuity Interpolation

variable {K : Type} [Field K] [LinearOrder K] [IsStrictOrderedRing K]

/-- C92: two elements touch along a facet (an edge in the plane); `p` and `q` are the facet in the local coordinates of
the elements, in any of the orientations `g`.  If the nodes of the two elements on the facet coincide and carry the
same values, the interpolated values agree at every point of the facet, for any two of the classes.

Partial: false for the class with truncated decimals (`C92_truncated_counterexample`) and if the elements do not share
all nodes (`C92_prism_brick_counterexample`); see `C92_lobatto` for the other classes. -/
theorem C92_continuous_partial (S T : EShape) (I J : Interpolation K) (hI : (S, I) ∈ (types : List (EShape × Interpolation K)))
    (hJ : (T, J) ∈ (types : List (EShape × Interpolation K))) (F : EShape) (p q : K → K → List K)
    (hp : (F, p) ∈ (facets S : List (EShape × (K → K → List K)))) (hq : (F, q) ∈ (facets T : List (EShape × (K → K → List K))))
    (g : K → K → K × K) (hg : g ∈ (symmetries F : List (K → K → K × K))) (v w : Nat → K)
    (hsame : ∀ s t, Within F s t → ((∃ i, I.localCoords i = .ok (p s t)) ↔ ∃ j, J.localCoords j = .ok (q (g s t).1 (g s t).2)))
    (hvalue : ∀ i j s t, Within F s t → I.localCoords i = .ok (p s t) → J.localCoords j = .ok (q (g s t).1 (g s t).2) → v i = w j)
    (s t : K) (hst : Within F s t) : value I v (p s t) = value J w (q (g s t).1 (g s t).2) := by
  obtain ⟨M, nodes, hM⟩ := exists_trace S I hI F p hp
  obtain ⟨M', nodes', hM'⟩ := exists_trace T J hJ F q hq
  have e : M = M' := by
    refine same_type hM.elem hM'.elem hg fun s t h => ?_
    rw [← node_iff (types_exact hI) hM h, ← node_iff (types_exact hJ) hM' (symmetry_within hg h)]
    exact hsame s t h
  subst e
  rw [hM.value v s t hst, hM'.value w _ _ (symmetry_within hg hst)]
  refine symmetric F M hM.elem g hg _ _ ?_ s t
  intro k k' s t h h1 h2
  have hlen := (facet_coords hM.elem).1
  have l1 : k < M.numNodes := by
    obtain ⟨h3, _⟩ := List.getElem?_eq_some_iff.1 h1
    omega
  have l2 : k' < M.numNodes := by
    obtain ⟨h3, _⟩ := List.getElem?_eq_some_iff.1 h2
    omega
  exact hvalue _ _ s t h ((localCoords_iff _ _ _).2 (hM.coords k l1 s t h1)) ((localCoords_iff _ _ _).2 (hM'.coords k' l2 _ _ h2))

/-- C92: the same for two elements of the Lobatto classes of one order, of any order; `nodes` are the nodes in one direction. -/
theorem C92_lobatto (nodes : List K) (h : LobattoNodes nodes) (S : EShape) (I : Interpolation K) (hI : Completeness.lobattoOf S nodes = some I)
    (F : EShape) (p q : K → K → List K)
    (hp : (F, p) ∈ (facets S : List (EShape × (K → K → List K)))) (hq : (F, q) ∈ (facets S : List (EShape × (K → K → List K))))
    (g : K → K → K × K) (hg : g ∈ (symmetries F : List (K → K → K × K))) (v w : Nat → K)
    (hvalue : ∀ i j s t, Within F s t → I.localCoords i = .ok (p s t) → I.localCoords j = .ok (q (g s t).1 (g s t).2) → v i = w j)
    (s t : K) : value I v (p s t) = value I w (q (g s t).1 (g s t).2) := by
  have hlen1 : (Factory.lobattoTruss nodes).coords.length = (Factory.lobattoTruss nodes).numNodes := by simp [Factory.lobattoTruss]
  have hlen2 : (Factory.lobattoQuad nodes).coords.length = (Factory.lobattoQuad nodes).numNodes := by
    simp [Factory.lobattoQuad, List.length_flatMap]
  cases S <;> simp only [Completeness.lobattoOf, Option.some.injEq, reduceCtorEq] at hI
  · simp [facets] at hp
  · subst hI
    obtain ⟨rfl, e, he⟩ := lobatto_trace_quad h F p hp
    obtain ⟨_, e', he'⟩ := lobatto_trace_quad h _ q hq
    rw [he.value, he'.value]
    refine lobatto_symmetric_line h g hg _ _ ?_ s t
    intro k k' s t hst h1 h2
    have l1 := (List.getElem?_eq_some_iff.1 h1).1
    have l2 := (List.getElem?_eq_some_iff.1 h2).1
    exact hvalue _ _ s t hst ((localCoords_iff _ _ _).2 (he.coords k (hlen1 ▸ l1) s t h1))
      ((localCoords_iff _ _ _).2 (he'.coords k' (hlen1 ▸ l2) _ _ h2))
  · subst hI
    obtain ⟨rfl, e, he⟩ := lobatto_trace_brick h F p hp
    obtain ⟨_, e', he'⟩ := lobatto_trace_brick h _ q hq
    rw [he.value, he'.value]
    refine lobatto_symmetric_quad h g hg _ _ ?_ s t
    intro k k' s t hst h1 h2
    have l1 := (List.getElem?_eq_some_iff.1 h1).1
    have l2 := (List.getElem?_eq_some_iff.1 h2).1
    exact hvalue _ _ s t hst ((localCoords_iff _ _ _).2 (he.coords k (hlen2 ▸ l1) s t h1))
      ((localCoords_iff _ _ _).2 (he'.coords k' (hlen2 ▸ l2) _ _ h2))

namespace Continuity

/-- The reference elements as inequalities `0 ≤ …` -/
def bounds : EShape → (Nat → K) → List K
  | .line, x => [1 + x 0, 1 - x 0]
  | .triangle, x => [x 0, x 1, 1 - x 0 - x 1]
  | .quadrilateral, x => [1 + x 0, 1 - x 0, 1 + x 1, 1 - x 1]
  | .tetrahedron, x => [x 0, x 1, x 2, 1 - x 0 - x 1 - x 2]
  | .hexahedron, x => [1 + x 0, 1 - x 0, 1 + x 1, 1 - x 1, 1 + x 2, 1 - x 2]
  | .prism, x => [x 0, x 1, 1 - x 0 - x 1, 1 + x 2, 1 - x 2]
  | .pyramid, x => [x 2, 1 - x 2 - x 0, 1 - x 2 + x 0, 1 - x 2 - x 1, 1 - x 2 + x 1]

/-- The boundary of the reference element: one of the inequalities is an equation. -/
def Boundary (S : EShape) (x : Nat → K) : Prop := (∀ b ∈ bounds S x, 0 ≤ b) ∧ 0 ∈ bounds S x

theorem facet_boundary (S F : EShape) (p : K → K → List K)
    (hp : (F, p) ∈ (facets S : List (EShape × (K → K → List K)))) (s t : K) (h : Within F s t) :
    (p s t).length = S.dim ∧ Boundary S (vec (p s t)) := by
  cases S <;> simp only [facets, List.mem_cons, List.not_mem_nil, or_false, Prod.mk.injEq] at hp
  · rcases hp with ⟨rfl, rfl⟩ | ⟨rfl, rfl⟩ | ⟨rfl, rfl⟩ <;> simp only [Within] at h <;> refine ⟨rfl, ?_, ?_⟩ <;>
      simp only [bounds, vec, List.getD_cons_zero, List.getD_cons_succ, List.mem_cons, List.not_mem_nil, or_false, forall_eq_or_imp, forall_eq] <;>
      grind
  · rcases hp with ⟨rfl, rfl⟩ | ⟨rfl, rfl⟩ | ⟨rfl, rfl⟩ | ⟨rfl, rfl⟩ <;> simp only [Within] at h <;> refine ⟨rfl, ?_, ?_⟩ <;>
      simp only [bounds, vec, List.getD_cons_zero, List.getD_cons_succ, List.mem_cons, List.not_mem_nil, or_false, forall_eq_or_imp, forall_eq] <;>
      grind
  · rcases hp with ⟨rfl, rfl⟩ | ⟨rfl, rfl⟩ | ⟨rfl, rfl⟩ | ⟨rfl, rfl⟩ <;> simp only [Within] at h <;> refine ⟨rfl, ?_, ?_⟩ <;>
      simp only [bounds, vec, List.getD_cons_zero, List.getD_cons_succ, List.mem_cons, List.not_mem_nil, or_false, forall_eq_or_imp, forall_eq] <;>
      grind
  · rcases hp with ⟨rfl, rfl⟩ | ⟨rfl, rfl⟩ | ⟨rfl, rfl⟩ | ⟨rfl, rfl⟩ | ⟨rfl, rfl⟩ | ⟨rfl, rfl⟩ <;> simp only [Within] at h <;> refine ⟨rfl, ?_, ?_⟩ <;>
      simp only [bounds, vec, List.getD_cons_zero, List.getD_cons_succ, List.mem_cons, List.not_mem_nil, or_false, forall_eq_or_imp, forall_eq] <;>
      grind
  · rcases hp with ⟨rfl, rfl⟩ | ⟨rfl, rfl⟩ | ⟨rfl, rfl⟩ | ⟨rfl, rfl⟩ | ⟨rfl, rfl⟩ <;> simp only [Within] at h <;> refine ⟨rfl, ?_, ?_⟩ <;>
      simp only [bounds, vec, List.getD_cons_zero, List.getD_cons_succ, List.mem_cons, List.not_mem_nil, or_false, forall_eq_or_imp, forall_eq] <;>
      grind
  · rcases hp with ⟨rfl, rfl⟩ | ⟨rfl, rfl⟩ | ⟨rfl, rfl⟩ | ⟨rfl, rfl⟩ | ⟨rfl, rfl⟩ <;> simp only [Within] at h <;> refine ⟨rfl, ?_, ?_⟩ <;>
      simp only [bounds, vec, List.getD_cons_zero, List.getD_cons_succ, List.mem_cons, List.not_mem_nil, or_false, forall_eq_or_imp, forall_eq] <;>
      grind

theorem boundary_facet (S : EShape) (x : List K) (hx : x.length = S.dim) (hS : S ≠ .line) (h : Boundary S (vec x)) :
    ∃ F p, (F, p) ∈ (facets S : List (EShape × (K → K → List K))) ∧ ∃ s t, Within F s t ∧ x = p s t := by
  obtain ⟨h1, h2⟩ := h
  cases S
  · exact absurd rfl hS
  · obtain ⟨a, b, rfl⟩ : ∃ a b, x = [a, b] := by
      match x, hx with
      | [a, b], _ => exact ⟨a, b, rfl⟩
    simp only [bounds, vec, List.getD_cons_zero, List.getD_cons_succ, List.mem_cons, List.not_mem_nil, or_false, forall_eq_or_imp, forall_eq] at h1 h2
    rcases h2 with h2 | h2 | h2
    · refine ⟨_, _, .tail _ (.tail _ (.head _)), 2*b-1, 0, ?_, ?_⟩
      · simp only [Within]; grind
      · simp only [List.cons.injEq, and_true]; grind
    · refine ⟨_, _, .head _, 2*a-1, 0, ?_, ?_⟩
      · simp only [Within]; grind
      · simp only [List.cons.injEq, and_true]; grind
    · refine ⟨_, _, .tail _ (.head _), 2*b-1, 0, ?_, ?_⟩
      · simp only [Within]; grind
      · simp only [List.cons.injEq, and_true]; grind
  · obtain ⟨a, b, rfl⟩ : ∃ a b, x = [a, b] := by
      match x, hx with
      | [a, b], _ => exact ⟨a, b, rfl⟩
    simp only [bounds, vec, List.getD_cons_zero, List.getD_cons_succ, List.mem_cons, List.not_mem_nil, or_false, forall_eq_or_imp, forall_eq] at h1 h2
    rcases h2 with h2 | h2 | h2 | h2
    · refine ⟨_, _, .tail _ (.tail _ (.tail _ (.head _))), b, 0, ?_, ?_⟩
      · simp only [Within]; grind
      · simp only [List.cons.injEq, and_true]; grind
    · refine ⟨_, _, .tail _ (.head _), b, 0, ?_, ?_⟩
      · simp only [Within]; grind
      · simp only [List.cons.injEq, and_true]; grind
    · refine ⟨_, _, .head _, a, 0, ?_, ?_⟩
      · simp only [Within]; grind
      · simp only [List.cons.injEq, and_true]; grind
    · refine ⟨_, _, .tail _ (.tail _ (.head _)), a, 0, ?_, ?_⟩
      · simp only [Within]; grind
      · simp only [List.cons.injEq, and_true]; grind
  · obtain ⟨a, b, c, rfl⟩ : ∃ a b c, x = [a, b, c] := by
      match x, hx with
      | [a, b, c], _ => exact ⟨a, b, c, rfl⟩
    simp only [bounds, vec, List.getD_cons_zero, List.getD_cons_succ, List.mem_cons, List.not_mem_nil, or_false, forall_eq_or_imp, forall_eq] at h1 h2
    rcases h2 with h2 | h2 | h2 | h2
    · refine ⟨_, _, .tail _ (.tail _ (.head _)), b, c, ?_, ?_⟩
      · simp only [Within]; grind
      · simp only [List.cons.injEq, and_true]; grind
    · refine ⟨_, _, .tail _ (.head _), a, c, ?_, ?_⟩
      · simp only [Within]; grind
      · simp only [List.cons.injEq, and_true]; grind
    · refine ⟨_, _, .head _, a, b, ?_, ?_⟩
      · simp only [Within]; grind
      · simp only [List.cons.injEq, and_true]; grind
    · refine ⟨_, _, .tail _ (.tail _ (.tail _ (.head _))), b, c, ?_, ?_⟩
      · simp only [Within]; grind
      · simp only [List.cons.injEq, and_true]; grind
  · obtain ⟨a, b, c, rfl⟩ : ∃ a b c, x = [a, b, c] := by
      match x, hx with
      | [a, b, c], _ => exact ⟨a, b, c, rfl⟩
    simp only [bounds, vec, List.getD_cons_zero, List.getD_cons_succ, List.mem_cons, List.not_mem_nil, or_false, forall_eq_or_imp, forall_eq] at h1 h2
    rcases h2 with h2 | h2 | h2 | h2 | h2 | h2
    · refine ⟨_, _, .tail _ (.tail _ (.tail _ (.tail _ (.head _)))), b, c, ?_, ?_⟩
      · simp only [Within]; grind
      · simp only [List.cons.injEq, and_true]; grind
    · refine ⟨_, _, .tail _ (.tail _ (.tail _ (.tail _ (.tail _ (.head _))))), b, c, ?_, ?_⟩
      · simp only [Within]; grind
      · simp only [List.cons.injEq, and_true]; grind
    · refine ⟨_, _, .tail _ (.tail _ (.head _)), a, c, ?_, ?_⟩
      · simp only [Within]; grind
      · simp only [List.cons.injEq, and_true]; grind
    · refine ⟨_, _, .tail _ (.tail _ (.tail _ (.head _))), a, c, ?_, ?_⟩
      · simp only [Within]; grind
      · simp only [List.cons.injEq, and_true]; grind
    · refine ⟨_, _, .head _, a, b, ?_, ?_⟩
      · simp only [Within]; grind
      · simp only [List.cons.injEq, and_true]; grind
    · refine ⟨_, _, .tail _ (.head _), a, b, ?_, ?_⟩
      · simp only [Within]; grind
      · simp only [List.cons.injEq, and_true]; grind
  · obtain ⟨a, b, c, rfl⟩ : ∃ a b c, x = [a, b, c] := by
      match x, hx with
      | [a, b, c], _ => exact ⟨a, b, c, rfl⟩
    simp only [bounds, vec, List.getD_cons_zero, List.getD_cons_succ, List.mem_cons, List.not_mem_nil, or_false, forall_eq_or_imp, forall_eq] at h1 h2
    rcases h2 with h2 | h2 | h2 | h2 | h2
    · refine ⟨_, _, .tail _ (.tail _ (.tail _ (.head _))), 2*b-1, c, ?_, ?_⟩
      · simp only [Within]; grind
      · simp only [List.cons.injEq, and_true]; grind
    · refine ⟨_, _, .tail _ (.tail _ (.head _)), 2*a-1, c, ?_, ?_⟩
      · simp only [Within]; grind
      · simp only [List.cons.injEq, and_true]; grind
    · refine ⟨_, _, .tail _ (.tail _ (.tail _ (.tail _ (.head _)))), 2*b-1, c, ?_, ?_⟩
      · simp only [Within]; grind
      · simp only [List.cons.injEq, and_true]; grind
    · refine ⟨_, _, .head _, a, b, ?_, ?_⟩
      · simp only [Within]; grind
      · simp only [List.cons.injEq, and_true]; grind
    · refine ⟨_, _, .tail _ (.head _), a, b, ?_, ?_⟩
      · simp only [Within]; grind
      · simp only [List.cons.injEq, and_true]; grind
  · obtain ⟨a, b, c, rfl⟩ : ∃ a b c, x = [a, b, c] := by
      match x, hx with
      | [a, b, c], _ => exact ⟨a, b, c, rfl⟩
    simp only [bounds, vec, List.getD_cons_zero, List.getD_cons_succ, List.mem_cons, List.not_mem_nil, or_false, forall_eq_or_imp, forall_eq] at h1 h2
    rcases h2 with h2 | h2 | h2 | h2 | h2
    · refine ⟨_, _, .head _, a, b, ?_, ?_⟩
      · simp only [Within]; grind
      · simp only [List.cons.injEq, and_true]; grind
    · refine ⟨_, _, .tail _ (.head _), (1-c-b)/2, c, ?_, ?_⟩
      · simp only [Within]; grind
      · simp only [List.cons.injEq, and_true]; grind
    · refine ⟨_, _, .tail _ (.tail _ (.head _)), (1-c-b)/2, c, ?_, ?_⟩
      · simp only [Within]; grind
      · simp only [List.cons.injEq, and_true]; grind
    · refine ⟨_, _, .tail _ (.tail _ (.tail _ (.head _))), (1-c-a)/2, c, ?_, ?_⟩
      · simp only [Within]; grind
      · simp only [List.cons.injEq, and_true]; grind
    · refine ⟨_, _, .tail _ (.tail _ (.tail _ (.tail _ (.head _)))), (1-c-a)/2, c, ?_, ?_⟩
      · simp only [Within]; grind
      · simp only [List.cons.injEq, and_true]; grind

end Continuity

/-- C92: the facets are the boundary of the reference element. -/
theorem C92_facets (S : EShape) (hS : S ≠ .line) (x : List K) :
    (∃ F p, (F, p) ∈ (facets S : List (EShape × (K → K → List K))) ∧ ∃ s t, Within F s t ∧ x = p s t) ↔
      x.length = S.dim ∧ Boundary S (vec x) := by
  constructor
  · rintro ⟨F, p, hp, s, t, hst, rfl⟩
    exact facet_boundary S F p hp s t hst
  · rintro ⟨h1, h2⟩
    exact boundary_facet S x h1 hS h2

/-- Two triangles of order 4 share the edge opposite to node 0 of both.  All nodes on the edge carry the value 0, but the
coefficients of the function of node 0 are truncated decimals: it does not vanish on the edge. -/
theorem C92_truncated_counterexample :
    let I : Interpolation ℚ := triangle4thOrder
    let p : ℚ → ℚ → List ℚ := fun s _ => [(1 - s) / 2, (1 + s) / 2]
    let v : Nat → ℚ := fun i => if i = 0 then 1 else 0
    (EShape.line, p) ∈ (facets .triangle : List (EShape × (ℚ → ℚ → List ℚ))) ∧
    (∀ i j s t, Within .line s t → I.localCoords i = .ok (p s t) → I.localCoords j = .ok (p s t) → v i = 0) ∧
    value I v (p (1 / 2) 0) ≠ value I (fun _ => 0) (p (1 / 2) 0) := by
  refine ⟨by simp [facets], ?_, by decide +kernel⟩
  intro i j s t _ hi _
  rw [localCoords_iff] at hi
  by_cases h0 : i = 0
  · subst h0
    simp [triangle4thOrder, triangle4thOrderCoords] at hi
    exfalso
    linarith [hi.1, hi.2]
  · simp [h0]

/-- A prism and a brick of order 2 share the nodes of a rectangular face that both have, with equal values, but the prism has
a node in the middle of the face. -/
theorem C92_prism_brick_counterexample :
    let I : Interpolation ℚ := prismQuadratic
    let J : Interpolation ℚ := brickQuadratic
    let p : ℚ → ℚ → List ℚ := fun s t => [(1 + s) / 2, 0, t]
    let q : ℚ → ℚ → List ℚ := fun s t => [s, t, -1]
    let v : Nat → ℚ := fun i => if I.localCoords i = .ok [1 / 2, 0, 0] then 1 else 0
    (EShape.quadrilateral, p) ∈ (facets .prism : List (EShape × (ℚ → ℚ → List ℚ))) ∧
    (EShape.quadrilateral, q) ∈ (facets .hexahedron : List (EShape × (ℚ → ℚ → List ℚ))) ∧
    (∀ s t, Within .quadrilateral s t → (∃ j, J.localCoords j = .ok (q s t)) → ∃ i, I.localCoords i = .ok (p s t)) ∧
    (∀ i j s t, Within .quadrilateral s t → I.localCoords i = .ok (p s t) → J.localCoords j = .ok (q s t) → v i = 0) ∧
    value I v (p 0 0) ≠ value J (fun _ => 0) (q 0 0) := by
  have hq : HasTrace (brickQuadratic : Interpolation ℚ) .quadrilateral (fun s t => [s, t, -1]) quadSerendipity _ := trace_brickQuadratic_0
  have hp : HasTrace (prismQuadratic : Interpolation ℚ) .quadrilateral (fun s t => [(1 + s) / 2, 0, t]) quadNine _ := trace_prismQuadratic_2
  refine ⟨by simp [facets], by simp [facets], ?_, ?_, by decide +kernel⟩
  · intro s t hst h
    rw [node_iff (by simp [exactTypes]) hq hst] at h
    rw [node_iff (by simp [exactTypes]) hp hst]
    have hsub : ∀ c ∈ (quadSerendipity : Interpolation ℚ).coords, c ∈ (quadNine : Interpolation ℚ).coords := by decide +kernel
    exact hsub _ h
  · intro i j s t hst hi hj
    refine if_neg fun h => ?_
    rw [hi] at h
    simp only [Res.ok.injEq, List.cons.injEq, and_true, true_and] at h
    obtain rfl : s = 0 := by linarith [h.1]
    obtain rfl : t = 0 := h.2
    have h1 := (node_iff (by simp [exactTypes]) hq hst).1 ⟨j, hj⟩
    have h2 : point .quadrilateral 0 0 ∉ (quadSerendipity : Interpolation ℚ).coords := by decide +kernel
    exact h2 h1

/-! Examples -/

/-- A tetrahedron with 10 nodes meets a prism with 18 nodes; the node values are those of the same quadratic function. -/
example : ∃ v w : Nat → ℚ,
    (∀ s t, Within .triangle s t → ((∃ i, (tetrahedronQuadratic : Interpolation ℚ).localCoords i = .ok [s, t, 0]) ↔
      ∃ j, (prismQuadratic : Interpolation ℚ).localCoords j = .ok [t, s, 1])) ∧
    (∀ i j s t, Within .triangle s t → (tetrahedronQuadratic : Interpolation ℚ).localCoords i = .ok [s, t, 0] →
      (prismQuadratic : Interpolation ℚ).localCoords j = .ok [t, s, 1] → v i = w j) ∧
    value (tetrahedronQuadratic : Interpolation ℚ) v [1 / 3, 1 / 4, 0] = 1 / 9 + 1 / 2 := by
  refine ⟨fun i => let c := (tetrahedronQuadratic : Interpolation ℚ).coords.getD i []; c.getD 0 0 ^ 2 + 2 * c.getD 1 0,
    fun i => let c := (prismQuadratic : Interpolation ℚ).coords.getD i []; c.getD 1 0 ^ 2 + 2 * c.getD 0 0, ?_, ?_, by decide +kernel⟩
  · intro s t h
    rw [node_iff (by simp [exactTypes]) trace_tetrahedronQuadratic_0 h,
      node_iff (by simp [exactTypes]) trace_prismQuadratic_1 (s := t) (t := s) ⟨h.2.1, h.1, by linarith [h.2.2]⟩]
    simp only [triangleQuadratic, triangleQuadraticCoords, point, List.mem_cons, List.cons.injEq, and_true, List.not_mem_nil, or_false]
    grind
  · intro i j s t _ hi hj
    rw [localCoords_iff] at hi hj
    simp [List.getD_eq_getElem?_getD, hi, hj]

/-- Nodes of a Lobatto element of order 2 -/
example : LobattoNodes [(-1 : ℚ), 0, 1] := by
  refine ⟨?_, by decide, by decide +kernel, by decide +kernel, by decide +kernel⟩
  intro i j hi hj
  simp only [List.length_cons, List.length_nil] at hj
  interval_cases j <;> interval_cases i <;> norm_num [Lobatto.node, Lobatto.tol]

/-- A point in a face of the pyramid -/
example : Boundary .pyramid (vec [(1 : ℚ) / 2, 0, 1 / 2]) ∧ ¬ Boundary .pyramid (vec [(1 : ℚ) / 4, 0, 1 / 2]) := by
  constructor <;> norm_num [Boundary, bounds, vec]

end NuTo
