import Verif.Props.Completeness
import Verif.Props.Lobatto

/-!
# C75 for the Lobatto interpolations
-/

set_option linter.unusedSectionVars false

namespace NuTo

namespace Completeness

open Interpolation

section

variable {K : Type} [Field K] [LinearOrder K] [IsStrictOrderedRing K]

open Lobatto Finset

theorem lobatto_1d {nodes : List K} (h : Separated nodes) {x : K} (hx : Regular nodes x) (m : Nat) (hm : m < nodes.length) :
    ∑ i ∈ range nodes.length, (shape nodes x).getD i 0 * node nodes i ^ m = x ^ m := by
  have h1 := (C30_reproduces_partial nodes h (Polynomial.X ^ m) (by
    rw [Polynomial.degree_X_pow]; exact_mod_cast hm) x).1 hx
  rw [shape_regular h hx, combine_range] at h1
  simp only [Polynomial.eval_pow, Polynomial.eval_X] at h1
  rw [← h1]
  refine sum_congr rfl fun i hi => ?_
  rw [shape_regular h hx, mul_comm]
  simp [mem_range.1 hi]

theorem zipWith_map_map {α : Type} (l : List α) (a b : α → K) :
    List.zipWith (· * ·) (l.map a) (l.map b) = l.map fun q => a q * b q := by
  rw [List.zipWith_map, List.zipWith_self]

theorem lobatto_line {nodes : List K} (h : Separated nodes) (x : Nat → K) (hx : Regular nodes (x 0)) (a : Nat)
    (ha : a < nodes.length) :
    field (Factory.lobattoTruss nodes) (nodal (Factory.lobattoTruss nodes) fun x => x 0 ^ a) x = x 0 ^ a := by
  have h1 := (C30_reproduces_partial nodes h (Polynomial.X ^ a) (by
    rw [Polynomial.degree_X_pow]; exact_mod_cast ha) (x 0)).1 hx
  rw [combine] at h1
  simp only [Polynomial.eval_pow, Polynomial.eval_X] at h1
  rw [← h1, List.zipWith_comm]
  simp only [field, nodal, Factory.lobattoTruss, List.map_map, Function.comp_def, vec, List.getD_cons_zero, mul_comm]

/-- pairs of indices, first index fastest -/
def pairs (n : Nat) : List (Nat × Nat) := (List.range n).flatMap fun j => (List.range n).map fun i => (i, j)

/-- triples of indices, first index fastest -/
def triples (n : Nat) : List (Nat × Nat × Nat) :=
  (List.range n).flatMap fun k => (List.range n).flatMap fun j => (List.range n).map fun i => (i, j, k)

theorem lobatto_quad {nodes : List K} (h : Separated nodes) (x : Nat → K) (h0 : Regular nodes (x 0)) (h1 : Regular nodes (x 1))
    (a b : Nat) (ha : a < nodes.length) (hb : b < nodes.length) :
    field (Factory.lobattoQuad nodes) (nodal (Factory.lobattoQuad nodes) fun x => x 0 ^ a * x 1 ^ b) x = x 0 ^ a * x 1 ^ b := by
  have e1 : quadShape nodes x = (pairs nodes.length).map fun q => (shape nodes (x 0)).getD q.1 0 * (shape nodes (x 1)).getD q.2 0 := by
    simp only [quadShape, pairs, List.map_flatMap, List.map_map, Function.comp_def]
  have e2 : nodal (Factory.lobattoQuad nodes) (fun x => x 0 ^ a * x 1 ^ b) =
      (pairs nodes.length).map fun q => node nodes q.1 ^ a * node nodes q.2 ^ b := by
    simp only [nodal, Factory.lobattoQuad, pairs, List.map_flatMap, List.map_map, Function.comp_def, vec, List.getD_cons_zero,
      List.getD_cons_succ]
  rw [field, e2, show (Factory.lobattoQuad nodes).shape x = quadShape nodes x from rfl, e1, zipWith_map_map]
  simp only [pairs, List.map_flatMap, List.map_map, Function.comp_def, tensor_sum]
  rw [← lobatto_1d h h0 a ha, ← lobatto_1d h h1 b hb, Finset.sum_mul_sum, Finset.sum_comm]
  refine sum_congr rfl fun i _ => sum_congr rfl fun j _ => ?_
  ring

theorem lobatto_brick {nodes : List K} (h : Separated nodes) (x : Nat → K) (h0 : Regular nodes (x 0)) (h1 : Regular nodes (x 1))
    (h2 : Regular nodes (x 2)) (a b c : Nat) (ha : a < nodes.length) (hb : b < nodes.length) (hc : c < nodes.length) :
    field (Factory.lobattoBrick nodes) (nodal (Factory.lobattoBrick nodes) fun x => x 0 ^ a * x 1 ^ b * x 2 ^ c) x =
      x 0 ^ a * x 1 ^ b * x 2 ^ c := by
  have e1 : brickShape nodes x = (triples nodes.length).map fun q =>
      (shape nodes (x 0)).getD q.1 0 * (shape nodes (x 1)).getD q.2.1 0 * (shape nodes (x 2)).getD q.2.2 0 := by
    simp only [brickShape, triples, List.map_flatMap, List.map_map, Function.comp_def]
  have e2 : nodal (Factory.lobattoBrick nodes) (fun x => x 0 ^ a * x 1 ^ b * x 2 ^ c) =
      (triples nodes.length).map fun q => node nodes q.1 ^ a * node nodes q.2.1 ^ b * node nodes q.2.2 ^ c := by
    simp only [nodal, Factory.lobattoBrick, triples, List.map_flatMap, List.map_map, Function.comp_def, vec, List.getD_cons_zero,
      List.getD_cons_succ]
  rw [field, e2, show (Factory.lobattoBrick nodes).shape x = brickShape nodes x from rfl, e1, zipWith_map_map]
  simp only [triples, List.map_flatMap, List.map_map, Function.comp_def, sum_flatMap_range, list_sum_range]
  have e3 : ∀ j k, ∑ i ∈ range nodes.length, (shape nodes (x 0)).getD i 0 * (shape nodes (x 1)).getD j 0 *
      (shape nodes (x 2)).getD k 0 * (node nodes i ^ a * node nodes j ^ b * node nodes k ^ c) =
      x 0 ^ a * ((shape nodes (x 1)).getD j 0 * node nodes j ^ b) * ((shape nodes (x 2)).getD k 0 * node nodes k ^ c) := by
    intro j k
    rw [← lobatto_1d h h0 a ha, sum_mul, sum_mul]
    exact sum_congr rfl fun i _ => by ring
  simp only [e3, ← sum_mul, ← mul_sum, lobatto_1d h h1 b hb, lobatto_1d h h2 c hc]

/-- The nodes of the tensor product classes are those of `GetLocalCoords`. -/
theorem C75_lobatto_coords (nodes : List K) :
    (∀ i, i < nodes.length → trussCoords nodes i = .ok ((Factory.lobattoTruss nodes).coords.getD i [])) ∧
    (∀ i, i < nodes.length * nodes.length → quadCoords nodes i = .ok ((Factory.lobattoQuad nodes).coords.getD i [])) ∧
    ∀ i, i < nodes.length * nodes.length * nodes.length →
      brickCoords nodes i = .ok ((Factory.lobattoBrick nodes).coords.getD i []) := by
  refine ⟨fun i hi => ?_, fun i hi => ?_, fun i hi => ?_⟩
  · simp [trussCoords, hi, Factory.lobattoTruss, node]
  · rw [quadCoords, if_pos hi, Factory.lobattoQuad, List.getD_eq_getElem?_getD, getElem?_tensor, if_pos hi]
    rfl
  · have hd : 0 < nodes.length := by
      rcases Nat.eq_zero_or_pos nodes.length with h0 | h0
      · rw [h0] at hi; omega
      · exact h0
    have hdd : 0 < nodes.length * nodes.length := Nat.mul_pos hd hd
    have hi' : i < nodes.length * (nodes.length * nodes.length) := by rw [← Nat.mul_assoc]; exact hi
    rw [brickCoords, if_pos hi, Factory.lobattoBrick, List.getD_eq_getElem?_getD,
      getElem?_flatMap_uniform _ (nodes.length * nodes.length)
        (fun k => length_flatMap_uniform _ nodes.length (fun j => by simp) _), if_pos hi', getElem?_tensor,
      if_pos (Nat.mod_lt _ hdd), Nat.mod_mul_left_mod]
    rfl

/-- The interpolation types of a shape and given nodes in one direction. -/
def lobattoOf (s : EShape) (nodes : List K) : Option (Interpolation K) :=
  match s with
  | .line => some (Factory.lobattoTruss nodes)
  | .quadrilateral => some (Factory.lobattoQuad nodes)
  | .hexahedron => some (Factory.lobattoBrick nodes)
  | _ => none

/-- C75, Lobatto types: with any number of nodes in one direction that are further apart than the tolerance of the code, every
polynomial whose degree in each single variable is below that number is reproduced from its values at the nodes, at every coordinate
whose components are nodes or at least `10⁻¹⁵` away from all nodes.

Partial: closer than `10⁻¹⁵` to a node the value at the node is returned, see `C30_tolerance_counterexample`. -/
theorem C75_lobatto_complete_partial (nodes : List K) (h : Separated nodes) (s : EShape) (I : Interpolation K)
    (hI : lobattoOf s nodes = some I) (p : MvPolynomial (Fin s.dim) K) (hp : ∀ i, p.degreeOf i < nodes.length) (x : Nat → K)
    (hx : ∀ i, i < s.dim → Regular nodes (x i)) : field I (nodal I (poly p)) x = poly p x := by
  refine of_monomials I s.dim (fun m => ∀ i, m i < nodes.length) x ?_ p
    fun m hm i => lt_of_le_of_lt (MvPolynomial.monomial_le_degreeOf i hm) (hp i)
  intro m hm
  cases s <;> simp only [lobattoOf, Option.some.injEq, reduceCtorEq] at hI
  · subst hI
    have e : ∀ y : Nat → K, ∏ i : Fin 1, y i ^ m i = y 0 ^ m (0 : Fin 1) := fun y => by simp
    refine (congrArg (fun f => field _ (nodal _ f) x) (funext e)).trans
      ((lobatto_line h x (hx 0 (by simp [EShape.dim])) _ (hm _)).trans (e x).symm)
  · subst hI
    have e : ∀ y : Nat → K, ∏ i : Fin 2, y i ^ m i = y 0 ^ m (0 : Fin 2) * y 1 ^ m (1 : Fin 2) := fun y => by
      rw [Fin.prod_univ_two]; rfl
    refine (congrArg (fun f => field _ (nodal _ f) x) (funext e)).trans
      ((lobatto_quad h x (hx 0 (by simp [EShape.dim])) (hx 1 (by simp [EShape.dim])) _ _ (hm _) (hm _)).trans (e x).symm)
  · subst hI
    have e : ∀ y : Nat → K, ∏ i : Fin 3, y i ^ m i = y 0 ^ m (0 : Fin 3) * y 1 ^ m (1 : Fin 3) * y 2 ^ m (2 : Fin 3) := fun y => by
      rw [Fin.prod_univ_three]; rfl
    refine (congrArg (fun f => field _ (nodal _ f) x) (funext e)).trans
      ((lobatto_brick h x (hx 0 (by simp [EShape.dim])) (hx 1 (by simp [EShape.dim])) (hx 2 (by simp [EShape.dim])) _ _ _
        (hm _) (hm _) (hm _)).trans (e x).symm)

/-- three nodes, a coordinate that is no node and a polynomial of degree two in both variables -/
example : Separated [(-1 : ℚ), 0, 1] ∧ Regular [(-1 : ℚ), 0, 1] (1 / 3) ∧
    field (Factory.lobattoQuad [(-1 : ℚ), 0, 1]) (nodal (Factory.lobattoQuad [(-1 : ℚ), 0, 1]) fun x => x 0 ^ 2 * x 1 ^ 2)
      (vec [1 / 3, 1 / 2]) = 1 / 36 := by
  refine ⟨?_, ?_, by decide +kernel⟩
  · intro i j hi hj
    simp only [List.length_cons, List.length_nil] at hj
    interval_cases j <;> interval_cases i <;> norm_num [node, tol]
  · intro i hi
    simp only [List.length_cons, List.length_nil] at hi
    interval_cases i <;> norm_num [node, tol]

/-- C75: `CreateLobattoInterpolation` accepts exactly lines, quadrilaterals and hexahedra with an order of at least one and throws
for everything else; the object has the requested shape and `order + 1` nodes in each direction, if `LegendreDerivRoots(order)` has
`order - 1` entries. -/
theorem C75_lobatto (roots : Int → List K) (s : EShape) (o : Int) :
    (∀ O : Factory.Object K, Factory.createLobatto roots s o = .ok O →
      O.getShape = s ∧ ∃ nodes, lobattoOf s nodes = some O.interp ∧ nodes = -1 :: (roots o ++ [1]) ∧
        ((roots o).length = (o - 1).toNat → nodes.length = (o + 1).toNat ∧ O.interp.numNodes = (o + 1).toNat ^ s.dim)) ∧
    (∃ O : Factory.Object K, Factory.createLobatto roots s o = .ok O) =
      (1 ≤ o ∧ (s = .line ∨ s = .quadrilateral ∨ s = .hexahedron)) ∧
    ((∀ O : Factory.Object K, Factory.createLobatto roots s o ≠ .ok O) → Factory.createLobatto roots s o = .throw) := by
  by_cases ho : o < 1
  · have : ¬ 1 ≤ o := by omega
    cases s <;> simp [Factory.createLobatto, Lobatto.localCoords, ho, this, Res.bind]
  · have h1 : 1 ≤ o := by omega
    have hl : (roots o).length = (o - 1).toNat → (-1 :: (roots o ++ [1]) : List K).length = (o + 1).toNat := by
      intro h
      simp only [List.length_cons, List.length_append, List.length_nil, h]
      omega
    cases s <;> simp only [Factory.createLobatto, Lobatto.localCoords, ho, h1, Res.bind, if_false, lobattoOf, reduceCtorEq, EShape.dim,
      Res.ok.injEq]
    · refine ⟨?_, by simp, fun h => absurd rfl (h _)⟩
      rintro O rfl
      exact ⟨rfl, _, rfl, rfl, fun h => ⟨hl h, by rw [← hl h, pow_one]; rfl⟩⟩
    · refine ⟨?_, by simp, fun _ => trivial⟩
      rintro O h; exact absurd h (by simp)
    · refine ⟨?_, by simp, fun h => absurd rfl (h _)⟩
      rintro O rfl
      exact ⟨rfl, _, rfl, rfl, fun h => ⟨hl h, by rw [← hl h, pow_two]; rfl⟩⟩
    · refine ⟨?_, by simp, fun _ => trivial⟩
      rintro O h; exact absurd h (by simp)
    · refine ⟨?_, by simp, fun h => absurd rfl (h _)⟩
      rintro O rfl
      exact ⟨rfl, _, rfl, rfl, fun h => ⟨hl h, by rw [← hl h, pow_succ, pow_two]; rfl⟩⟩
    · refine ⟨?_, by simp, fun _ => trivial⟩
      rintro O h; exact absurd h (by simp)
    · refine ⟨?_, by simp, fun _ => trivial⟩
      rintro O h; exact absurd h (by simp)

end

end Completeness

end NuTo
