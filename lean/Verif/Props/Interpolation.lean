/-
C27, C28 for the interpolation classes with fixed formulas: sizes, partition of
unity, nodal property.  (C29 is in `Props/InterpolationDeriv.lean`, the Lobatto
types in `Props/Lobatto.lean`.)
-/
import Verif.Model.Interpolation
import Mathlib.Algebra.CharZero.Defs
import Mathlib.Algebra.Order.Field.Basic
import Mathlib.Algebra.Order.AbsoluteValue.Basic
import Mathlib.Algebra.BigOperators.Group.List.Basic
import Mathlib.Tactic.Ring
import Mathlib.Tactic.NormNum
import Mathlib.Tactic.Linarith
import Mathlib.Tactic.IntervalCases

set_option linter.unusedSectionVars false
set_option linter.unusedSimpArgs false

namespace NuTo

open Interpolation

/-- A coordinate vector given by its components. -/
def vec {K : Type} [Zero K] (c : List K) : Nat → K := fun k => c.getD k 0

section

variable {K : Type} [Field K] [CharZero K] [DecidableEq K]

/-- The interpolation classes whose coefficients are exact decimals. -/
def exactTypes : List (Interpolation K) :=
  [trussLinear, trussQuadratic, truss3rdOrder,
   triangleLinear, triangleQuadratic, triangle3rdOrder,
   quadLinear, quadSerendipity,
   tetrahedronLinear, tetrahedronQuadratic,
   brickLinear, brickQuadratic,
   prismLinear, prismQuadratic, pyramidLinear]

/-- The two classes whose coefficients are truncated decimals. -/
def truncatedTypes : List (Interpolation K) := [truss4thOrder, triangle4thOrder]

/-- All tables have the announced sizes: one coordinate vector, one shape function and
one row of derivatives per node. -/
theorem C27_sizes (I : Interpolation K) (hI : I ∈ exactTypes ++ truncatedTypes)
    (x : Nat → K) :
    I.coords.map List.length = List.replicate I.numNodes I.dim ∧
    (I.shape x).length = I.numNodes ∧
    (I.deriv x).map List.length = List.replicate I.numNodes I.dim := by
  simp only [exactTypes, truncatedTypes, List.mem_cons, List.not_mem_nil, or_false,
    List.cons_append, List.nil_append] at hI
  rcases hI with rfl | rfl | rfl | rfl | rfl | rfl | rfl | rfl | rfl | rfl | rfl | rfl | rfl |
    rfl | rfl | rfl | rfl <;> exact ⟨rfl, rfl, rfl⟩

/-- C27: the shape functions of each exactly coded type sum to one at every coordinate
(inside the element or not) and the derivatives in each direction sum to zero.

Partial: false for the two types with truncated decimals, see
`C27_truss4_counterexample`; those are covered by `C27_truncated_partial`. -/
theorem C27_partition_of_unity_partial (I : Interpolation K) (hI : I ∈ exactTypes)
    (x : Nat → K) :
    (I.shape x).sum = 1 ∧ ∀ j : Nat, ((I.deriv x).map fun row => row.getD j 0).sum = 0 := by
  simp only [exactTypes, List.mem_cons, List.not_mem_nil, or_false] at hI
  rcases hI with rfl | rfl | rfl | rfl | rfl | rfl | rfl | rfl | rfl | rfl | rfl | rfl | rfl |
    rfl | rfl <;>
    (refine ⟨?_, ?_⟩
     · simp only [trussLinear, trussLinearShape, trussQuadratic, trussQuadraticShape, truss3rdOrder,
         truss3rdOrderShape, triangleLinear, triangleLinearShape, triangleQuadratic,
         triangleQuadraticShape, triangle3rdOrder, triangle3rdOrderShape, quadLinear,
         quadLinearShape, quadSerendipity, quadSerendipityShape, tetrahedronLinear,
         tetrahedronLinearShape, tetrahedronQuadratic, tetrahedronQuadraticShape, brickLinear,
         brickLinearShape, brickQuadratic, brickQuadraticShape, prismLinear, prismLinearShape,
         prismQuadratic, prismQuadraticShape, pyramidLinear, pyramidLinearShape, List.sum_cons, List.sum_nil, List.getD_cons_succ,
         List.getD_cons_zero]
       ring
     · rintro (_ | _ | _ | j) <;>
         simp only [trussLinear, trussLinearDeriv, trussQuadratic, trussQuadraticDeriv, truss3rdOrder,
           truss3rdOrderDeriv, triangleLinear, triangleLinearDeriv, triangleQuadratic,
           triangleQuadraticDeriv, triangle3rdOrder, triangle3rdOrderDeriv, quadLinear,
           quadLinearDeriv, quadSerendipity, quadSerendipityDeriv, tetrahedronLinear,
           tetrahedronLinearDeriv, tetrahedronQuadratic, tetrahedronQuadraticDeriv,
           brickLinear, brickLinearDeriv, brickQuadratic, brickQuadraticDeriv, prismLinear,
           prismLinearDeriv, prismQuadratic, prismQuadraticDeriv, pyramidLinear,
           pyramidLinearDeriv, triangleQuadraticShape, trussQuadraticShape, List.map_cons, List.map_nil, List.sum_cons, List.sum_nil,
           List.getD_cons_succ, List.getD_cons_zero, List.getD_nil] <;>
         ring)

/-- C28: every exactly coded type has one local node per index below `GetNumNodes` (any
other index throws) and at node `i` the vector of shape functions is the `i`-th unit
vector. -/
theorem C28_nodal_partial (I : Interpolation K) (hI : I ∈ exactTypes) (i : Nat) :
    (i < I.numNodes → ∃ c, I.localCoords i = .ok c ∧
      I.shape (vec c) = (List.range I.numNodes).map fun k => if k = i then 1 else 0) ∧
    (I.numNodes ≤ i → I.localCoords i = .throw) := by
  have key : I.coords.length = I.numNodes ∧ I.coords.map (fun c => I.shape (vec c)) =
      (List.range I.numNodes).map fun i => (List.range I.numNodes).map fun k =>
        if k = i then 1 else 0 := by
    simp only [exactTypes, List.mem_cons, List.not_mem_nil, or_false] at hI
    rcases hI with rfl | rfl | rfl | rfl | rfl | rfl | rfl | rfl | rfl | rfl | rfl | rfl | rfl |
      rfl | rfl <;>
      (refine ⟨rfl, ?_⟩
       simp only [trussLinear, trussLinearShape, trussQuadratic, trussQuadraticShape, truss3rdOrder,
         truss3rdOrderShape, triangleLinear, triangleLinearShape, triangleQuadratic,
         triangleQuadraticShape, triangle3rdOrder, triangle3rdOrderShape, quadLinear,
         quadLinearShape, quadSerendipity, quadSerendipityShape, tetrahedronLinear,
         tetrahedronLinearShape, tetrahedronQuadratic, tetrahedronQuadraticShape, brickLinear,
         brickLinearShape, brickQuadratic, brickQuadraticShape, prismLinear, prismLinearShape,
         prismQuadratic, prismQuadraticShape, pyramidLinear, pyramidLinearShape,
         trussLinearCoords, trussQuadraticCoords, truss3rdOrderCoords, triangleLinearCoords,
         triangleQuadraticCoords, triangle3rdOrderCoords, quadLinearCoords, quadSerendipityCoords,
         tetrahedronLinearCoords, tetrahedronQuadraticCoords, brickLinearCoords,
         brickQuadraticCoords, prismLinearCoords, prismQuadraticCoords, pyramidLinearCoords, vec, List.map_cons, List.map_nil, List.getD_cons_succ,
         List.getD_cons_zero]
       norm_num [List.range_succ])
  obtain ⟨hlen, hmap⟩ := key
  constructor
  · intro hi
    have h1 : i < I.coords.length := by omega
    refine ⟨I.coords[i], ?_, ?_⟩
    · simp [localCoords, List.getElem?_eq_getElem h1]
    · have h2 := congrArg (fun l => l[i]?) hmap
      simpa [List.getElem?_eq_getElem h1, hi] using h2
  · intro hi
    have h1 : I.coords[i]? = none := List.getElem?_eq_none (by omega)
    simp [localCoords, h1]

/-- The hypotheses of the theorems are met by all fifteen types, among them the twenty
node brick. -/
example : (exactTypes (K := ℚ)).length = 15 ∧
    (exactTypes (K := ℚ)).map (fun I => (I.dim, I.numNodes)) =
      [(1, 2), (1, 3), (1, 4), (2, 3), (2, 6), (2, 10), (2, 4), (2, 8), (3, 4), (3, 10),
       (3, 8), (3, 20), (3, 6), (3, 18), (3, 5)] ∧
    (brickQuadratic : Interpolation ℚ) ∈ exactTypes :=
  ⟨rfl, rfl, by simp [exactTypes]⟩

end

/-- C27 is false for `InterpolationTruss4thOrder`: the truncated decimals do not add up;
at the coordinate one half the sum is `1 + 9/8 · 10⁻¹²`, and the derivatives at one add
up to `-66 · 10⁻¹²`. -/
theorem C27_truss4_counterexample :
    ((truss4thOrder (K := ℚ)).shape (vec [1 / 2])).sum = 1 + 9 / 8000000000000 ∧
    (((truss4thOrder (K := ℚ)).deriv (vec [1])).map fun row => row.getD 0 0).sum
      = -33 / 500000000000 := by
  constructor <;>
    norm_num [truss4thOrder, truss4thOrderShape, truss4thOrderDeriv, vec]

/-- C27 is false for `InterpolationTriangle4thOrder`: at `(1/2, 1/2)` the sum is
`1 + 4 · 10⁻¹¹`. -/
theorem C27_triangle4_counterexample :
    ((triangle4thOrder (K := ℚ)).shape (vec [1 / 2, 1 / 2])).sum = 1 + 1 / 25000000000 := by
  norm_num [triangle4thOrder, triangle4thOrderShape, vec]

/-- C28 is false for both types with truncated decimals: the value of the first shape
function of `InterpolationTruss4thOrder` at its second node is `-3/16 · 10⁻¹²`, and the
value of the last shape function of `InterpolationTriangle4thOrder` at its own node is
`1 + 3 · 10⁻¹¹`. -/
theorem C28_truncated_counterexample :
    (truss4thOrder (K := ℚ)).localCoords 1 = .ok [-(1 / 2)] ∧
    ((truss4thOrder (K := ℚ)).shape (vec [-(1 / 2)])).getD 0 0 = -3 / 16000000000000 ∧
    (triangle4thOrder (K := ℚ)).localCoords 14 = .ok [0, 1] ∧
    ((triangle4thOrder (K := ℚ)).shape (vec [0, 1])).getD 14 0 = 1 + 3 / 100000000000 := by
  refine ⟨rfl, ?_, rfl, ?_⟩
  · norm_num [truss4thOrder, truss4thOrderShape, vec]
  · norm_num [triangle4thOrder, triangle4thOrderShape, vec]

section

variable {K : Type} [Field K] [LinearOrder K] [IsStrictOrderedRing K]

/-- C27 for the two types with truncated decimals: at every coordinate with components
of magnitude at most one (every point of the element) the shape functions sum to one and
the derivatives to zero up to `10⁻⁹`.

Partial: the sums are not exact. -/
theorem C27_truncated_partial (I : Interpolation K) (hI : I ∈ truncatedTypes)
    (x : Nat → K) (hx : ∀ k, |x k| ≤ 1) :
    |(I.shape x).sum - 1| ≤ 1 / 1000000000 ∧
    ∀ j : Nat, |((I.deriv x).map fun row => row.getD j 0).sum| ≤ 1 / 1000000000 := by
  have b0 := abs_le.1 (hx 0)
  have b1 := abs_le.1 (hx 1)
  have m2 : ∀ a b : K, -1 ≤ a ∧ a ≤ 1 → -1 ≤ b ∧ b ≤ 1 → -1 ≤ a * b ∧ a * b ≤ 1 := by
    intro a b ha hb
    have h := mul_le_mul (abs_le.2 ha) (abs_le.2 hb) (abs_nonneg b) zero_le_one
    rw [← abs_mul, one_mul] at h
    exact abs_le.1 h
  have b00 := m2 _ _ b0 b0
  have b01 := m2 _ _ b0 b1
  have b11 := m2 _ _ b1 b1
  have b000 := m2 _ _ b00 b0
  have b111 := m2 _ _ b11 b1
  have b0000 := m2 _ _ b00 b00
  simp only [truncatedTypes, List.mem_cons, List.not_mem_nil, or_false] at hI
  rcases hI with rfl | rfl
  · refine ⟨?_, ?_⟩
    · have h : ((truss4thOrder (K := K)).shape x).sum - 1 =
          3 / 500000000000 * (x 0 * x 0) - 3 / 500000000000 * (x 0 * x 0 * (x 0 * x 0)) := by
        simp only [truss4thOrder, truss4thOrderShape, List.sum_cons, List.sum_nil]; ring
      rw [h, abs_le]; constructor <;> linarith
    · rintro (_ | j)
      · have h : (((truss4thOrder (K := K)).deriv x).map fun row => row.getD 0 0).sum =
            -(3 / 500000000000) * x 0 - 3 / 50000000000 * (x 0 * x 0 * x 0) := by
          simp only [truss4thOrder, truss4thOrderDeriv, List.map_cons, List.map_nil,
            List.sum_cons, List.sum_nil, List.getD_cons_zero]; ring
        rw [h, abs_le]; constructor <;> linarith
      · simp [truss4thOrder, truss4thOrderDeriv]
  · refine ⟨?_, ?_⟩
    · have h : ((triangle4thOrder (K := K)).shape x).sum - 1 =
          3 / 100000000000 * (x 1 * x 1) + 1 / 10000000000 * (x 0 * x 1)
            + 3 / 100000000000 * (x 0 * x 0) := by
        simp only [triangle4thOrder, triangle4thOrderShape, List.sum_cons, List.sum_nil]; ring
      rw [h, abs_le]; constructor <;> linarith
    · rintro (_ | _ | j)
      · have h : (((triangle4thOrder (K := K)).deriv x).map fun row => row.getD 0 0).sum =
            1 / 10000000000 * x 1 - 3 / 10000000000 * x 0
              - 3 / 5000000000 * (x 0 * x 0 * x 0) := by
          simp only [triangle4thOrder, triangle4thOrderDeriv, List.map_cons, List.map_nil,
            List.sum_cons, List.sum_nil, List.getD_cons_zero]; ring
        rw [h, abs_le]; constructor <;> linarith
      · have h : (((triangle4thOrder (K := K)).deriv x).map fun row => row.getD 1 0).sum =
            -(3 / 10000000000) * x 1 - 3 / 5000000000 * (x 1 * x 1 * x 1)
              + 1 / 10000000000 * x 0 := by
          simp only [triangle4thOrder, triangle4thOrderDeriv, List.map_cons, List.map_nil,
            List.sum_cons, List.sum_nil, List.getD_cons_zero, List.getD_cons_succ]; ring
        rw [h, abs_le]; constructor <;> linarith
      · simp [triangle4thOrder, triangle4thOrderDeriv]

set_option maxHeartbeats 2000000 in
/-- C28 for the two types with truncated decimals: at node `i` the shape functions are
the `i`-th unit vector up to `10⁻⁹`.

Partial: the values are not exact. -/
theorem C28_truncated_partial (I : Interpolation K) (hI : I ∈ truncatedTypes) (i : Nat)
    (hi : i < I.numNodes) :
    ∃ c, I.localCoords i = .ok c ∧
      List.Forall₂ (fun a b : K => |a - b| ≤ 1 / 1000000000) (I.shape (vec c))
        ((List.range I.numNodes).map fun k => if k = i then 1 else 0) := by
  simp only [truncatedTypes, List.mem_cons, List.not_mem_nil, or_false] at hI
  rcases hI with rfl | rfl
  · have hi' : i < 5 := hi
    interval_cases i <;> refine ⟨_, rfl, ?_⟩ <;>
      simp only [truss4thOrder, truss4thOrderShape, vec, List.getD_cons_zero,
        List.range_succ, List.range_zero, List.nil_append, List.cons_append, List.map_cons,
        List.map_nil, List.forall₂_cons, List.forall₂_same, List.Forall₂.nil, and_true] <;>
      norm_num [abs_le]
  · have hi' : i < 15 := hi
    interval_cases i <;> refine ⟨_, rfl, ?_⟩ <;>
      simp only [triangle4thOrder, triangle4thOrderShape, vec, List.getD_cons_zero,
        List.getD_cons_succ, List.range_succ, List.range_zero, List.nil_append,
        List.cons_append, List.map_cons,
        List.map_nil, List.forall₂_cons, List.Forall₂.nil, and_true] <;>
      norm_num [abs_le]

end

/-- A point of the element that is not a node meets the hypotheses. -/
example : (triangle4thOrder : Interpolation ℚ) ∈ truncatedTypes ∧
    (∀ k, |vec [(1 / 3 : ℚ), 1 / 5] k| ≤ 1) ∧ 14 < (triangle4thOrder : Interpolation ℚ).numNodes := by
  refine ⟨by simp [truncatedTypes], ?_, by decide⟩
  rintro (_ | _ | k) <;> norm_num [vec, abs_le]

end NuTo
