/-
C29 for the Lobatto interpolation types.
-/
import Verif.Props.Lobatto
import Mathlib.Analysis.Calculus.Deriv.Polynomial
import Mathlib.Analysis.Calculus.Deriv.Mul
import Mathlib.Topology.Order.Basic

namespace NuTo

open Lobatto Polynomial Finset

/-- The coordinate is farther than the tolerance from every node. -/
def Away (nodes : List ℝ) (x : ℝ) : Prop := ∀ j, j < nodes.length → tol < |x - node nodes j|

theorem away_eventually {nodes : List ℝ} {x : ℝ} (hx : Away nodes x) :
    ∀ᶠ y in nhds x, ∀ j, j < nodes.length → near nodes y j = false := by
  have h1 : ∀ j ∈ range nodes.length, ∀ᶠ y in nhds x, near nodes y j = false := by
    intro j hj
    have hc : ContinuousAt (fun y => |y - node nodes j|) x := by fun_prop
    filter_upwards [hc.eventually (lt_mem_nhds (hx j (mem_range.1 hj)))] with y hy
    simp only [near, decide_eq_false_iff_not, not_lt]
    exact le_of_lt hy
  filter_upwards [(Finset.eventually_all _).2 h1] with y hy j hj
  exact hy j (mem_range.2 hj)

/-- The derivative of a one-dimensional Lobatto shape function. -/
theorem hasDerivAt_shape {nodes : List ℝ} (h : Separated nodes) {x : ℝ} (hx : Away nodes x)
    (i : Nat) :
    HasDerivAt (fun y => (shape nodes y).getD i 0) ((deriv nodes x).getD i 0) x := by
  by_cases hi : i < nodes.length
  · have hd : (deriv nodes x).getD i 0 = (derivative (basis nodes i)).eval x := by
      rw [Lobatto.deriv_eq]; simp [hi]
    rw [hd]
    refine ((basis nodes i).hasDerivAt x).congr_of_eventuallyEq ?_
    filter_upwards [away_eventually hx] with y hy
    rw [shape_far h hy]
    simp [hi]
  · have h1 : (fun y => (shape nodes y).getD i 0) = fun _ => 0 := by
      funext y
      rw [List.getD_eq_getElem?_getD, List.getElem?_eq_none (by rw [shape_length]; omega)]; rfl
    have h2 : (deriv nodes x).getD i 0 = 0 := by
      rw [List.getD_eq_getElem?_getD, List.getElem?_eq_none (by rw [deriv_length]; omega)]; rfl
    rw [h1, h2]
    exact hasDerivAt_const _ _

/-- C29 for the Lobatto types, any number of separated nodes: entry `(i, j)` of the
derivative table is the partial derivative of shape function `i` in direction `j` when
coordinate `j` is farther than `10⁻¹⁵` from all nodes (the other coordinates are
arbitrary).

Partial: at a node the coded shape functions are locally constant, see
`C29_lobatto_counterexample`; there the table contains the derivative of the Lagrange
polynomial, see `C29_lobatto_polynomial_partial`. -/
theorem C29_lobatto_partial (nodes : List ℝ) (h : Separated nodes) :
    (∀ (x : ℝ) (i : Nat), Away nodes x →
      HasDerivAt (fun y => (shape nodes y).getD i 0) ((deriv nodes x).getD i 0) x) ∧
    (∀ (x : Nat → ℝ) (i j : Nat), j < 2 → Away nodes (x j) →
      HasDerivAt (fun y => (quadShape nodes (Function.update x j y)).getD i 0)
        (((quadDeriv nodes x).getD i []).getD j 0) (x j)) ∧
    (∀ (x : Nat → ℝ) (i j : Nat), j < 3 → Away nodes (x j) →
      HasDerivAt (fun y => (brickShape nodes (Function.update x j y)).getD i 0)
        (((brickDeriv nodes x).getD i []).getD j 0) (x j)) := by
  refine ⟨fun x i hx => hasDerivAt_shape h hx i, fun x i j hj hx => ?_,
    fun x i j hj hx => ?_⟩
  · by_cases hi : i < nodes.length * nodes.length
    · have e1 : ∀ y, (quadShape nodes y).getD i 0 =
          (shape nodes (y 0)).getD (i % nodes.length) 0 *
            (shape nodes (y 1)).getD (i / nodes.length) 0 := by
        intro y
        rw [List.getD_eq_getElem?_getD, quadShape, getElem?_tensor, if_pos hi]; rfl
      have e2 : (quadDeriv nodes x).getD i [] =
          [(deriv nodes (x 0)).getD (i % nodes.length) 0 *
            (shape nodes (x 1)).getD (i / nodes.length) 0,
           (shape nodes (x 0)).getD (i % nodes.length) 0 *
            (deriv nodes (x 1)).getD (i / nodes.length) 0] := by
        rw [List.getD_eq_getElem?_getD, quadDeriv, getElem?_tensor, if_pos hi]; rfl
      simp only [e1, e2]
      interval_cases j
      · simpa using (hasDerivAt_shape h hx (i % nodes.length)).mul_const
          ((shape nodes (x 1)).getD (i / nodes.length) 0)
      · simpa using (hasDerivAt_shape h hx (i / nodes.length)).const_mul
          ((shape nodes (x 0)).getD (i % nodes.length) 0)
    · have h1 : (fun y => (quadShape nodes (Function.update x j y)).getD i 0) = fun _ => 0 := by
        funext y
        rw [List.getD_eq_getElem?_getD, quadShape, getElem?_tensor, if_neg hi]; rfl
      have h2 : (quadDeriv nodes x).getD i [] = [] := by
        rw [List.getD_eq_getElem?_getD, quadDeriv, getElem?_tensor, if_neg hi]; rfl
      rw [h1, h2]
      exact hasDerivAt_const _ _
  · have hl : ∀ (α : Type) (f : Nat → Nat → Nat → α) (i : Nat),
        ((List.range nodes.length).flatMap fun k => (List.range nodes.length).flatMap fun j =>
          (List.range nodes.length).map fun i => f i j k)[i]? =
        if i < nodes.length * (nodes.length * nodes.length) then
          some (f (i % (nodes.length * nodes.length) % nodes.length)
            (i % (nodes.length * nodes.length) / nodes.length)
            (i / (nodes.length * nodes.length))) else none := by
      intro α f i
      rw [getElem?_flatMap_uniform _ (nodes.length * nodes.length)
        (fun k => length_flatMap_uniform _ nodes.length (fun j => by simp) _)]
      by_cases hi : i < nodes.length * (nodes.length * nodes.length)
      · have hdd : 0 < nodes.length * nodes.length := by
          rcases Nat.eq_zero_or_pos (nodes.length * nodes.length) with h0 | h0
          · rw [h0] at hi; omega
          · exact h0
        rw [if_pos hi, if_pos hi, getElem?_tensor, if_pos (Nat.mod_lt _ hdd)]
      · rw [if_neg hi, if_neg hi]
    by_cases hi : i < nodes.length * (nodes.length * nodes.length)
    · generalize ha : i % (nodes.length * nodes.length) % nodes.length = a at hl
      have hl' := fun (α : Type) (f : Nat → Nat → Nat → α) => hl α f i
      simp only [if_pos hi] at hl'
      generalize hb : i % (nodes.length * nodes.length) / nodes.length = b at hl'
      generalize hc : i / (nodes.length * nodes.length) = c at hl'
      have ha' : i % (nodes.length * nodes.length) % nodes.length = a := ha
      simp only [ha'] at hl'
      have e1 : ∀ y, (brickShape nodes y).getD i 0 = (shape nodes (y 0)).getD a 0 *
          (shape nodes (y 1)).getD b 0 * (shape nodes (y 2)).getD c 0 := by
        intro y
        rw [List.getD_eq_getElem?_getD, brickShape, hl']; rfl
      have e2 : (brickDeriv nodes x).getD i [] =
          [(deriv nodes (x 0)).getD a 0 * (shape nodes (x 1)).getD b 0 *
            (shape nodes (x 2)).getD c 0,
           (shape nodes (x 0)).getD a 0 * (deriv nodes (x 1)).getD b 0 *
            (shape nodes (x 2)).getD c 0,
           (shape nodes (x 0)).getD a 0 * (shape nodes (x 1)).getD b 0 *
            (deriv nodes (x 2)).getD c 0] := by
        rw [List.getD_eq_getElem?_getD, brickDeriv, hl']; rfl
      simp only [e1, e2]
      interval_cases j
      · simpa using ((hasDerivAt_shape h hx a).mul_const
          ((shape nodes (x 1)).getD b 0)).mul_const ((shape nodes (x 2)).getD c 0)
      · simpa using ((hasDerivAt_shape h hx b).const_mul
          ((shape nodes (x 0)).getD a 0)).mul_const ((shape nodes (x 2)).getD c 0)
      · simpa using (hasDerivAt_shape h hx c).const_mul
          ((shape nodes (x 0)).getD a 0 * (shape nodes (x 1)).getD b 0)
    · have h1 : (fun y => (brickShape nodes (Function.update x j y)).getD i 0) = fun _ => 0 := by
        funext y
        rw [List.getD_eq_getElem?_getD, brickShape, hl, if_neg hi]; rfl
      have h2 : (brickDeriv nodes x).getD i [] = [] := by
        rw [List.getD_eq_getElem?_getD, brickDeriv, hl, if_neg hi]; rfl
      rw [h1, h2]
      exact hasDerivAt_const _ _

/-- C29 for the Lobatto types at every coordinate, nodes included: there is a polynomial
that agrees with shape function `i` at all nodes and at all coordinates at least `10⁻¹⁵`
away from the nodes, and whose derivative is the table entry at every coordinate. -/
theorem C29_lobatto_polynomial_partial (nodes : List ℝ) (h : Separated nodes) (i : Nat)
    (hi : i < nodes.length) :
    ∃ q : ℝ[X], (∀ x, Regular nodes x → (shape nodes x).getD i 0 = q.eval x) ∧
      ∀ x, (deriv nodes x).getD i 0 = (derivative q).eval x := by
  refine ⟨basis nodes i, fun x hx => ?_, fun x => ?_⟩
  · rw [shape_regular h hx]; simp [hi]
  · rw [Lobatto.deriv_eq]; simp [hi]

/-- C29 is false at a node: with the nodes -1, 1 the second shape function is constant
within `10⁻¹⁵` of one, the table contains one half. -/
theorem C29_lobatto_counterexample :
    Separated [(-1 : ℝ), 1] ∧ (deriv [(-1 : ℝ), 1] 1).getD 1 0 = 1 / 2 ∧
    HasDerivAt (fun y => (shape [(-1 : ℝ), 1] y).getD 1 0) 0 1 := by
  have hs : Separated [(-1 : ℝ), 1] := by
    intro i j hij hj
    simp only [List.length_cons, List.length_nil] at hj
    have h1 : i = 0 := by omega
    have h2 : j = 1 := by omega
    subst h1; subst h2
    norm_num [node, tol, abs_of_nonpos]
  refine ⟨hs, ?_, ?_⟩
  · norm_num [Lobatto.deriv, List.range_succ, sumStep, prodStep, weight, weightStep, node]
  · have hc : HasDerivAt (fun _ : ℝ => (1 : ℝ)) 0 1 := hasDerivAt_const _ _
    refine hc.congr_of_eventuallyEq ?_
    have hcont : ContinuousAt (fun y : ℝ => |y - 1|) 1 := by fun_prop
    have hlt : |(1 : ℝ) - 1| < tol := by norm_num [tol]
    filter_upwards [hcont.eventually (gt_mem_nhds hlt)] with y hy
    have hn : near [(-1 : ℝ), 1] y 1 = true := by
      simpa [near, node] using hy
    rw [shape_near hs (by simp) hn]
    simp

/-- The coordinate one half is away from the nodes -1, 0, 1. -/
example : Away [(-1 : ℝ), 0, 1] (1 / 2) := by
  intro j hj
  simp only [List.length_cons, List.length_nil] at hj
  interval_cases j <;> norm_num [node, tol, lt_abs]

end NuTo
