/-
The barycentric formulas of `Model/Lobatto.lean` are the Lagrange basis polynomials.
-/
import Verif.Model.Lobatto
import Verif.Lemmas.Loops
import Mathlib.LinearAlgebra.Lagrange
import Mathlib.Algebra.BigOperators.Intervals
import Mathlib.Tactic.Ring
import Mathlib.Tactic.Linarith

set_option linter.unusedSectionVars false

namespace NuTo

namespace Lobatto

open Polynomial Finset

variable {K : Type} [Field K] [LinearOrder K] [IsStrictOrderedRing K]

/-- The `j`-th Lagrange basis polynomial of the nodes. -/
noncomputable def basis (nodes : List K) (j : Nat) : K[X] :=
  Lagrange.basis (range nodes.length) (node nodes) j

theorem foldl_mul {f : Nat → K} {p : Nat → Prop} [DecidablePred p] (step : K → Nat → K)
    (hs : ∀ w i, step w i = if p i then w * f i else w) (m : Nat) (w : K) :
    (List.range m).foldl step w = w * ∏ i ∈ range m, if p i then f i else 1 := by
  induction m with
  | zero => simp
  | succ m ih =>
    rw [List.range_succ, List.foldl_append, ih, prod_range_succ]
    simp only [List.foldl_cons, List.foldl_nil, hs]
    split <;> ring

theorem foldl_add {f : Nat → K} {p : Nat → Prop} [DecidablePred p] (step : K → Nat → K)
    (hs : ∀ w i, step w i = if p i then w + f i else w) (m : Nat) (w : K) :
    (List.range m).foldl step w = w + ∑ i ∈ range m, if p i then f i else 0 := by
  induction m with
  | zero => simp
  | succ m ih =>
    rw [List.range_succ, List.foldl_append, ih, sum_range_succ]
    simp only [List.foldl_cons, List.foldl_nil, hs]
    split <;> ring

theorem prod_ne_eq_erase (f : Nat → K) (s : Finset Nat) (j : Nat) :
    (∏ i ∈ s, if i ≠ j then f i else 1) = ∏ i ∈ s.erase j, f i := by
  rw [← prod_erase s (f := fun i => if i ≠ j then f i else 1) (a := j) (by simp)]
  exact prod_congr rfl fun i hi => by simp [ne_of_mem_erase hi]

theorem sum_ne_eq_erase (f : Nat → K) (s : Finset Nat) (j : Nat) :
    (∑ i ∈ s, if i ≠ j then f i else 0) = ∑ i ∈ s.erase j, f i := by
  rw [← sum_erase s (f := fun i => if i ≠ j then f i else 0) (a := j) (by simp)]
  exact sum_congr rfl fun i hi => by simp [ne_of_mem_erase hi]

theorem weight_eq (nodes : List K) (j : Nat) :
    weight nodes j = Lagrange.nodalWeight (range nodes.length) (node nodes) j := by
  rw [weight, foldl_mul (p := fun i => i ≠ j) (f := fun i => (node nodes j - node nodes i)⁻¹)
    _ (fun w i => by simp [weightStep, div_eq_mul_inv]), one_mul, prod_ne_eq_erase]
  rfl

theorem basis_eq (nodes : List K) (j : Nat) :
    basis nodes j = C (weight nodes j) *
      Lagrange.nodal ((range nodes.length).erase j) (node nodes) := by
  rw [basis, Lagrange.basis, weight_eq, Lagrange.nodalWeight, Lagrange.nodal, map_prod,
    ← prod_mul_distrib]
  rfl

/-- The nodes have distance at least twice the tolerance of the node check. -/
def Separated (nodes : List K) : Prop :=
  ∀ i j, i < j → j < nodes.length → 2 * tol ≤ |node nodes i - node nodes j|

theorem tol_pos : (0 : K) < tol := by unfold tol; positivity

theorem Separated.injOn {nodes : List K} (h : Separated nodes) :
    Set.InjOn (node nodes) (range nodes.length : Finset Nat) := by
  intro i hi j hj hij
  simp only [coe_range, Set.mem_Iio] at hi hj
  rcases lt_trichotomy i j with hlt | rfl | hlt
  · have := h i j hlt hj
    rw [hij, sub_self, abs_zero] at this
    linarith [tol_pos (K := K)]
  · rfl
  · have := h j i hlt hi
    rw [hij, sub_self, abs_zero] at this
    linarith [tol_pos (K := K)]

/-- At most one node is near. -/
theorem Separated.near_unique {nodes : List K} (h : Separated nodes) {x : K} {i j : Nat}
    (hi : i < nodes.length) (hj : j < nodes.length) (hni : near nodes x i = true)
    (hnj : near nodes x j = true) : i = j := by
  simp only [near, decide_eq_true_eq] at hni hnj
  have key : ∀ a b : K, |x - a| < tol → |x - b| < tol → |a - b| < 2 * tol := by
    intro a b ha hb
    have : a - b = (x - b) - (x - a) := by ring
    rw [this]
    have := abs_sub (x - b) (x - a)
    linarith
  rcases lt_trichotomy i j with hlt | rfl | hlt
  · exact absurd (h i j hlt hj) (not_le.2 (key _ _ hni hnj))
  · rfl
  · exact absurd (h j i hlt hi) (not_le.2 (key _ _ hnj hni))

theorem shape_near {nodes : List K} (h : Separated nodes) {x : K} {m : Nat}
    (hm : m < nodes.length) (hn : near nodes x m = true) :
    shape nodes x = (List.range nodes.length).map fun j => if j = m then 1 else 0 := by
  have hany : (List.range nodes.length).any (near nodes x) = true := by
    simp only [List.any_eq_true, List.mem_range]
    exact ⟨m, hm, hn⟩
  rw [shape, if_pos hany]
  refine List.map_congr_left fun j hj => ?_
  rw [List.mem_range] at hj
  by_cases hjm : j = m
  · subst hjm; simp [hn]
  · have : near nodes x j = false := by
      cases hc : near nodes x j with
      | false => rfl
      | true => exact absurd (h.near_unique hj hm hc hn) hjm
    simp [this, hjm]

theorem foldl_sum (l : List K) (a : K) : l.foldl (· + ·) a = a + l.sum := by
  induction l generalizing a with
  | nil => simp
  | cons b l ih => simp [ih, add_assoc]

theorem list_sum_range (f : Nat → K) (n : Nat) :
    ((List.range n).map f).sum = ∑ i ∈ range n, f i := by
  induction n with
  | zero => simp
  | succ n ih => rw [List.range_succ, List.map_append, List.sum_append, ih, sum_range_succ]; simp

theorem shape_far {nodes : List K} (h : Separated nodes) {x : K}
    (hf : ∀ j, j < nodes.length → near nodes x j = false) :
    shape nodes x = (List.range nodes.length).map fun j => (basis nodes j).eval x := by
  rcases Nat.eq_zero_or_pos nodes.length with h0 | h0
  · simp [shape, h0]
  have hany : ¬ (List.range nodes.length).any (near nodes x) = true := by
    simp only [List.any_eq_true, List.mem_range, not_exists, not_and]
    intro j hj; simp [hf j hj]
  have hx : ∀ i ∈ range nodes.length, x ≠ node nodes i := by
    intro i hi hc
    have := hf i (mem_range.1 hi)
    simp [near, hc, tol_pos] at this
  have hne : (range nodes.length).Nonempty := ⟨0, mem_range.2 h0⟩
  rw [shape, if_neg hany]
  simp only [foldl_sum, zero_add, list_sum_range, List.map_map]
  refine List.map_congr_left fun j hj => ?_
  rw [List.mem_range] at hj
  have hint := Lagrange.eval_interpolate_not_at_node' (Pi.single j (1 : K)) h.injOn hne hx
  have hb : Lagrange.interpolate (range nodes.length) (node nodes) (Pi.single j (1 : K))
      = basis nodes j := by
    rw [Lagrange.interpolate_apply, sum_eq_single j]
    · simp [basis]
    · intro b _ hb; simp [hb]
    · intro hc; exact absurd (mem_range.2 hj) hc
  rw [hb] at hint
  rw [hint]
  simp only [Function.comp]
  congr 1
  · rw [sum_eq_single j]
    · simp [quotient, weight_eq, div_eq_mul_inv]
    · intro b _ hb; simp [hb]
    · intro hc; exact absurd (mem_range.2 hj) hc
  · exact sum_congr rfl fun i _ => by simp [quotient, weight_eq, div_eq_mul_inv]

/-- A coordinate at which the node check does not change the value: a node, or at least
the tolerance away from all nodes. -/
def Regular (nodes : List K) (x : K) : Prop :=
  ∀ j, j < nodes.length → x = node nodes j ∨ tol ≤ |x - node nodes j|

theorem near_or_far (nodes : List K) (x : K) :
    (∃ m, m < nodes.length ∧ near nodes x m = true) ∨
    ∀ j, j < nodes.length → near nodes x j = false := by
  by_cases h : ∃ m, m < nodes.length ∧ near nodes x m = true
  · exact Or.inl h
  · right
    intro j hj
    cases hc : near nodes x j with
    | false => rfl
    | true => exact absurd ⟨j, hj, hc⟩ h

/-- At a regular coordinate the shape functions are the Lagrange basis polynomials. -/
theorem shape_regular {nodes : List K} (h : Separated nodes) {x : K} (hx : Regular nodes x) :
    shape nodes x = (List.range nodes.length).map fun j => (basis nodes j).eval x := by
  rcases near_or_far nodes x with ⟨m, hm, hn⟩ | hf
  · rw [shape_near h hm hn]
    have hxm : x = node nodes m := by
      rcases hx m hm with h1 | h1
      · exact h1
      · simp only [near, decide_eq_true_eq] at hn; exact absurd hn (not_lt.2 h1)
    refine List.map_congr_left fun j hj => ?_
    rw [List.mem_range] at hj
    rw [hxm]
    by_cases hjm : j = m
    · subst hjm
      rw [if_pos rfl, basis, Lagrange.eval_basis_self h.injOn (mem_range.2 hj)]
    · rw [if_neg hjm, basis, Lagrange.eval_basis_of_ne hjm (mem_range.2 hm)]
  · exact shape_far h hf

/-- `DerivativeShapeFunctions` evaluates the derivatives of the basis polynomials. -/
theorem deriv_eq (nodes : List K) (x : K) :
    deriv nodes x =
      (List.range nodes.length).map fun j => (derivative (basis nodes j)).eval x := by
  rw [deriv]
  refine List.map_congr_left fun j _ => ?_
  rw [basis_eq, derivative_C_mul, eval_C_mul, Lagrange.derivative_nodal, eval_finsetSum,
    mul_comm]
  congr 1
  rw [foldl_add (p := fun k => k ≠ j)
    (f := fun k => (List.range nodes.length).foldl (prodStep nodes x j k) 1)
    (sumStep nodes x j) (fun w i => rfl), zero_add, sum_ne_eq_erase]
  refine sum_congr rfl fun k _ => ?_
  rw [foldl_mul (p := fun i => i ≠ j ∧ i ≠ k) (f := fun i => x - node nodes i)
    (prodStep nodes x j k) (fun w i => rfl), one_mul, Lagrange.eval_nodal]
  rw [← prod_ne_eq_erase, ← prod_ne_eq_erase]
  refine prod_congr rfl fun i _ => ?_
  by_cases h1 : i = j <;> by_cases h2 : i = k <;> simp [h1, h2]

/-- The shape functions sum to one at every coordinate. -/
theorem shape_sum {nodes : List K} (h : Separated nodes) (h0 : 0 < nodes.length) (x : K) :
    ∑ j ∈ range nodes.length, (shape nodes x).getD j 0 = 1 := by
  rcases near_or_far nodes x with ⟨m, hm, hn⟩ | hf
  · rw [shape_near h hm hn, sum_eq_single m]
    · simp [hm]
    · intro b hb hbm
      simp [mem_range.1 hb, hbm]
    · intro hc; exact absurd (mem_range.2 hm) hc
  · rw [shape_far h hf]
    have := congrArg (eval x) (Lagrange.sum_basis h.injOn ⟨0, mem_range.2 h0⟩)
    rw [eval_finsetSum, eval_one] at this
    rw [← this]
    refine sum_congr rfl fun j hj => ?_
    simp [mem_range.1 hj, basis]

theorem deriv_sum {nodes : List K} (h : Separated nodes) (h0 : 0 < nodes.length) (x : K) :
    ∑ j ∈ range nodes.length, (deriv nodes x).getD j 0 = 0 := by
  rw [deriv_eq]
  have := congrArg (fun p => eval x (derivative p))
    (Lagrange.sum_basis h.injOn ⟨0, mem_range.2 h0⟩)
  simp only [derivative_sum, eval_finsetSum, derivative_one, eval_zero] at this
  rw [← this]
  refine sum_congr rfl fun j hj => ?_
  simp [mem_range.1 hj, basis]

theorem shape_length (nodes : List K) (x : K) : (shape nodes x).length = nodes.length := by
  rw [shape]; split <;> simp

theorem deriv_length (nodes : List K) (x : K) : (deriv nodes x).length = nodes.length := by
  simp [deriv]

theorem tensor_sum (f : Nat → Nat → K) (n m : Nat) :
    ((List.range m).flatMap fun j => (List.range n).map fun i => f i j).sum =
      ∑ j ∈ range m, ∑ i ∈ range n, f i j := by
  induction m with
  | zero => simp
  | succ m ih =>
    rw [List.range_succ, List.flatMap_append, List.sum_append, ih, sum_range_succ,
      List.flatMap_singleton, list_sum_range]

end Lobatto

end NuTo
