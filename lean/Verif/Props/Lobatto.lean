/-
C27, C28, C30 for the Lobatto interpolation types, any number of nodes.
-/
import Verif.Lemmas.Lobatto
import Verif.Props.Interpolation
import Mathlib.Tactic.FieldSimp

set_option linter.unusedSectionVars false

namespace NuTo

open Lobatto Polynomial Finset

section

variable {K : Type} [Field K] [LinearOrder K] [IsStrictOrderedRing K]

theorem sum_flatMap_range (F : Nat → List K) (m : Nat) :
    ((List.range m).flatMap F).sum = ∑ k ∈ range m, (F k).sum := by
  induction m with
  | zero => simp
  | succ m ih =>
    rw [List.range_succ, List.flatMap_append, List.sum_append, ih, sum_range_succ,
      List.flatMap_singleton]

/-- C27 for the Lobatto types: for any number of nodes (separated by more than the
tolerance of the node check) and every coordinate the shape functions sum to one and the
derivatives in each direction sum to zero. -/
theorem C27_lobatto (nodes : List K) (h : Separated nodes) (h0 : 0 < nodes.length) :
    (∀ x : K, (shape nodes x).sum = 1 ∧ (deriv nodes x).sum = 0) ∧
    (∀ x : Nat → K, (quadShape nodes x).sum = 1 ∧
      ∀ j : Nat, ((quadDeriv nodes x).map fun row => row.getD j 0).sum = 0) ∧
    (∀ x : Nat → K, (brickShape nodes x).sum = 1 ∧
      ∀ j : Nat, ((brickDeriv nodes x).map fun row => row.getD j 0).sum = 0) := by
  have hl : ∀ l : List K, l.length = nodes.length →
      l.sum = ∑ j ∈ range nodes.length, l.getD j 0 := by
    intro l hlen
    rw [← list_sum_range, ← hlen]
    congr 1
    apply List.ext_getElem
    · simp
    · intro i h1 h2; simp [h1]
  have S := shape_sum h h0
  have D := deriv_sum h h0
  refine ⟨fun x => ⟨?_, ?_⟩, fun x => ⟨?_, ?_⟩, fun x => ⟨?_, ?_⟩⟩
  · rw [hl _ (shape_length _ _), S]
  · rw [hl _ (deriv_length _ _), D]
  · simp only [quadShape, tensor_sum, ← sum_mul, ← mul_sum, S, mul_one]
  · rintro (_ | _ | j) <;>
      simp only [quadDeriv, List.map_flatMap, List.map_map, Function.comp_def,
        List.getD_cons_zero, List.getD_cons_succ, List.getD_nil, tensor_sum, ← sum_mul,
        ← mul_sum, S, D, mul_zero, zero_mul, sum_const_zero]
  · simp only [brickShape, sum_flatMap_range, list_sum_range, ← sum_mul, ← mul_sum,
      S, mul_one]
  · rintro (_ | _ | _ | j) <;>
      simp only [brickDeriv, List.map_flatMap, List.map_map, Function.comp_def,
        List.getD_cons_zero, List.getD_cons_succ, List.getD_nil, sum_flatMap_range,
        list_sum_range, ← sum_mul,
        ← mul_sum, S, D, mul_one, mul_zero, zero_mul, sum_const_zero]

/-- The one-dimensional shape functions at a node. -/
theorem shape_node {nodes : List K} (h : Separated nodes) {i : Nat} (hi : i < nodes.length)
    (k : Nat) : (shape nodes (node nodes i)).getD k 0 = if k = i then 1 else 0 := by
  have hn : near nodes (node nodes i) i = true := by simp [near, tol_pos]
  rw [shape_near h hi hn]
  by_cases hk : k < nodes.length
  · simp [hk]
  · have : k ≠ i := by omega
    simp [hk, this]

/-- C28 for the Lobatto types: at local node `i` the vector of shape functions is the
`i`-th unit vector. -/
theorem C28_lobatto (nodes : List K) (h : Separated nodes) :
    (∀ i, i < nodes.length → ∃ c, trussCoords nodes i = .ok c ∧
      shape nodes (vec c 0) = (List.range nodes.length).map fun k => if k = i then 1 else 0) ∧
    (∀ i, i < nodes.length * nodes.length → ∃ c, quadCoords nodes i = .ok c ∧
      quadShape nodes (vec c) = (List.range (nodes.length * nodes.length)).map fun k =>
        if k = i then 1 else 0) ∧
    (∀ i, i < nodes.length * nodes.length * nodes.length → ∃ c, brickCoords nodes i = .ok c ∧
      brickShape nodes (vec c) =
        (List.range (nodes.length * nodes.length * nodes.length)).map fun k =>
          if k = i then 1 else 0) := by
  refine ⟨fun i hi => ?_, fun i hi => ?_, fun i hi => ?_⟩
  · refine ⟨_, if_pos hi, ?_⟩
    have hn : near nodes (vec [node nodes i] 0) i = true := by simp [near, vec, tol_pos]
    exact shape_near h hi hn
  · refine ⟨_, if_pos hi, ?_⟩
    have hd : 0 < nodes.length := by
      rcases Nat.eq_zero_or_pos nodes.length with h0 | h0
      · rw [h0] at hi; omega
      · exact h0
    have h1 := Nat.mod_lt i hd
    have h2 : i / nodes.length < nodes.length := Nat.div_lt_of_lt_mul hi
    apply List.ext_getElem?
    intro k
    rw [quadShape, getElem?_tensor]
    by_cases hk : k < nodes.length * nodes.length
    · rw [if_pos hk]
      simp only [vec, List.getD_cons_zero, List.getD_cons_succ, shape_node h h1, shape_node h h2,
        List.getElem?_map, List.getElem?_range hk, Option.map_some]
      congr 1
      by_cases hki : k = i
      · simp [hki]
      · rw [if_neg hki]
        by_cases e1 : k % nodes.length = i % nodes.length
        · have e2 : k / nodes.length ≠ i / nodes.length := by
            intro e2
            apply hki
            rw [← Nat.div_add_mod k nodes.length, ← Nat.div_add_mod i nodes.length, e1, e2]
          simp [e2]
        · simp [e1]
    · rw [if_neg hk]
      simp [hk]
  · refine ⟨_, if_pos hi, ?_⟩
    have hd : 0 < nodes.length := by
      rcases Nat.eq_zero_or_pos nodes.length with h0 | h0
      · rw [h0] at hi; omega
      · exact h0
    have hdd : 0 < nodes.length * nodes.length := Nat.mul_pos hd hd
    have h1 := Nat.mod_lt i hd
    have h2 : i % (nodes.length * nodes.length) / nodes.length < nodes.length :=
      Nat.div_lt_of_lt_mul (Nat.mod_lt _ hdd)
    have h3 : i / (nodes.length * nodes.length) < nodes.length :=
      Nat.div_lt_of_lt_mul hi
    apply List.ext_getElem?
    intro k
    rw [brickShape, getElem?_flatMap_uniform _ (nodes.length * nodes.length)
      (fun k => length_flatMap_uniform _ nodes.length (fun j => by simp) _)]
    by_cases hk : k < nodes.length * nodes.length * nodes.length
    · have hk' : k < nodes.length * (nodes.length * nodes.length) := by
        rw [← Nat.mul_assoc]; exact hk
      rw [if_pos hk', getElem?_tensor, if_pos (Nat.mod_lt _ hdd)]
      simp only [vec, List.getD_cons_zero, List.getD_cons_succ, shape_node h h1, shape_node h h2,
        shape_node h h3, List.getElem?_map, List.getElem?_range hk, Option.map_some,
        Nat.mod_mul_left_mod]
      congr 1
      by_cases hki : k = i
      · simp [hki]
      · rw [if_neg hki]
        by_cases e1 : k % nodes.length = i % nodes.length
        · by_cases e2 : k % (nodes.length * nodes.length) / nodes.length =
              i % (nodes.length * nodes.length) / nodes.length
          · have e3 : k / (nodes.length * nodes.length) ≠ i / (nodes.length * nodes.length) := by
              intro e3
              apply hki
              have e4 : k % (nodes.length * nodes.length) = i % (nodes.length * nodes.length) := by
                rw [← Nat.div_add_mod (k % (nodes.length * nodes.length)) nodes.length,
                  ← Nat.div_add_mod (i % (nodes.length * nodes.length)) nodes.length, e2,
                  Nat.mod_mul_left_mod, Nat.mod_mul_left_mod, e1]
              rw [← Nat.div_add_mod k (nodes.length * nodes.length),
                ← Nat.div_add_mod i (nodes.length * nodes.length), e3, e4]
            simp [e3]
          · simp [e2]
        · simp [e1]
    · have hk' : ¬ k < nodes.length * (nodes.length * nodes.length) := by
        rw [← Nat.mul_assoc]; exact hk
      rw [if_neg hk']
      simp [hk]

/-- The interpolation of nodal values with given weights. -/
def combine (values weights : List K) : K := (List.zipWith (· * ·) values weights).sum

theorem combine_range (nodes : List K) (p : K → K) (f : Nat → K) :
    combine (nodes.map p) ((List.range nodes.length).map f) =
      ∑ j ∈ range nodes.length, p (node nodes j) * f j := by
  have hn : nodes.map p = (List.range nodes.length).map fun i => p (node nodes i) := by
    apply List.ext_getElem
    · simp
    · intro i h1 h2
      have : i < nodes.length := by simpa using h1
      simp [node, this]
  rw [combine, hn, List.zipWith_map, List.zipWith_self, list_sum_range]

/-- C30: interpolating the nodal values of a polynomial of degree less than the number of
nodes returns the value of the polynomial at every node and at every coordinate at least
`10⁻¹⁵` away from all nodes; the derivative table returns the derivative of the
polynomial at every coordinate.

Partial: at coordinates closer than `10⁻¹⁵` to a node the value at the node is returned,
see `C30_everywhere_partial` and `C30_tolerance_counterexample`. -/
theorem C30_reproduces_partial (nodes : List K) (h : Separated nodes) (p : K[X])
    (hp : p.degree < nodes.length) (x : K) :
    (Regular nodes x → combine (nodes.map p.eval) (shape nodes x) = p.eval x) ∧
    combine (nodes.map p.eval) (deriv nodes x) = (derivative p).eval x := by
  have hp' : p.degree < #(range nodes.length) := by simpa using hp
  have hint := Lagrange.eq_interpolate h.injOn hp'
  constructor
  · intro hx
    rw [shape_regular h hx, combine_range]
    conv_rhs => rw [hint]
    rw [Lagrange.interpolate_apply, eval_finsetSum]
    exact sum_congr rfl fun j _ => by simp [basis]
  · rw [deriv_eq, combine_range]
    conv_rhs => rw [hint]
    rw [Lagrange.interpolate_apply, derivative_sum, eval_finsetSum]
    exact sum_congr rfl fun j _ => by simp [basis]

/-- C30 at every coordinate: the interpolated value is the value of the polynomial at a
coordinate less than `10⁻¹⁵` away. -/
theorem C30_everywhere_partial (nodes : List K) (h : Separated nodes) (p : K[X])
    (hp : p.degree < nodes.length) (x : K) :
    ∃ y, |x - y| < 1 / 10 ^ 15 ∧ combine (nodes.map p.eval) (shape nodes x) = p.eval y := by
  rcases near_or_far nodes x with ⟨m, hm, hn⟩ | hf
  · refine ⟨node nodes m, by simpa [near, tol] using hn, ?_⟩
    rw [shape_near h hm hn, combine_range, sum_eq_single m]
    · simp
    · intro b _ hb; simp [hb]
    · intro hc; exact absurd (mem_range.2 hm) hc
  · refine ⟨x, by simp, (C30_reproduces_partial nodes h p hp x).1 fun j hj => Or.inr ?_⟩
    have := hf j hj
    simpa [near] using this

end

/-- C30 is not exact: with the nodes -1, 1 the identity evaluated `10⁻¹⁶` below one
gives one. -/
theorem C30_tolerance_counterexample :
    Separated [(-1 : ℚ), 1] ∧ (X : ℚ[X]).degree < [(-1 : ℚ), 1].length ∧
    combine ([(-1 : ℚ), 1].map (X : ℚ[X]).eval) (shape [-1, 1] (1 - 1 / 10 ^ 16)) = 1 := by
  have hs : Separated [(-1 : ℚ), 1] := by
    intro i j hij hj
    simp only [List.length_cons, List.length_nil] at hj
    have h1 : i = 0 := by omega
    have h2 : j = 1 := by omega
    subst h1; subst h2
    norm_num [node, tol, abs_of_nonpos]
  refine ⟨hs, by simp, ?_⟩
  have hn : near [(-1 : ℚ), 1] (1 - 1 / 10 ^ 16) 1 = true := by
    norm_num [near, node, tol, abs_lt]
  rw [shape_near hs (by simp) hn]
  norm_num [combine, List.range_succ]

/-- The nodes -1, 0, 1 of order two meet the hypotheses; they are what `LocalCoords(2)`
returns when the root finder returns the root 0. -/
example : Separated [(-1 : ℚ), 0, 1] ∧ localCoords (fun _ => [(0 : ℚ)]) 2 = .ok [-1, 0, 1] ∧
    Regular [(-1 : ℚ), 0, 1] (1 / 2) ∧ (X ^ 2 : ℚ[X]).degree < [(-1 : ℚ), 0, 1].length := by
  refine ⟨?_, rfl, ?_, ?_⟩
  · intro i j hij hj
    simp only [List.length_cons, List.length_nil] at hj
    have : (i = 0 ∧ j = 1) ∨ (i = 0 ∧ j = 2) ∨ (i = 1 ∧ j = 2) := by omega
    rcases this with ⟨rfl, rfl⟩ | ⟨rfl, rfl⟩ | ⟨rfl, rfl⟩ <;>
      norm_num [node, tol, abs_of_nonpos]
  · intro j hj
    right
    simp only [List.length_cons, List.length_nil] at hj
    interval_cases j <;> norm_num [node, tol, le_abs]
  · rw [degree_X_pow]
    exact_mod_cast (by decide : 2 < 3)

end NuTo
