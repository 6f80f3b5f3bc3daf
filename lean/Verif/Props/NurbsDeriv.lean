/-
C67: derivatives of B-spline and rational basis functions.
-/
import Verif.Props.Nurbs
import Mathlib.Analysis.Calculus.Deriv.Polynomial
import Mathlib.Analysis.Calculus.Deriv.Inv
import Mathlib.Analysis.Calculus.Deriv.Add
import Mathlib.Analysis.Calculus.Deriv.Mul
import Mathlib.Analysis.Calculus.IteratedDeriv.Lemmas
import Mathlib.Tactic.IntervalCases

namespace NuTo.Nurbs
open Polynomial

/-- The derivative `k` of function `j` of the span as a function of the parameter. -/
noncomputable def fn (knots : List ℝ) (p s k j : ℕ) (t : ℝ) : ℝ :=
  (derivative^[k] (piece (knotFn knots) s p (s - p + j))).eval t

theorem fn_hasDerivAt (knots : List ℝ) (p s k j : ℕ) (t : ℝ) :
    HasDerivAt (fn knots p s k j) (fn knots p s (k + 1) j t) t := by
  unfold fn
  rw [Function.iterate_succ_apply']
  exact Polynomial.hasDerivAt _ t

theorem table_eq_fn (g : Garbage ℝ) (order : ℕ) (u : ℝ) (knots : List ℝ) (p s : ℕ) (h : SpanOf knots p s) (k j : ℕ)
    (hk : k ≤ order) (hj : j ≤ p) : basisTable g order u s p (knotFn knots) k j = fn knots p s k j u :=
  basisTable_eq (knotFn knots) s u p order h.separated g k j hk hj

theorem iteratedDeriv_eval (q : ℝ[X]) (k : ℕ) :
    iteratedDeriv k (fun t => q.eval t) = fun t => (derivative^[k] q).eval t := by
  induction k with
  | zero => rfl
  | succ k ih =>
    rw [iteratedDeriv_succ, ih]
    funext t
    rw [Polynomial.deriv, Function.iterate_succ_apply']

/-- C67: row `k` of the result contains the `k`-th derivatives of the B-spline basis functions at every
parameter inside of the span, for all orders, also above the degree. -/
theorem C67_derivatives (g : Garbage ℝ) (order : ℕ) (u : ℝ) (knots : List ℝ) (p s : ℕ) (h : SpanOf knots p s)
    (hl : knotFn knots s < u) (hr : u < knotFn knots (s + 1)) (k j : ℕ) (hk : k ≤ order) (hj : j ≤ p) :
    ∃ m, basisFunctions g order u s p knots = .ok m ∧
      m k j = iteratedDeriv k (coxDeBoor (knotFn knots) p (s - p + j)) u := by
  have h1 := h.left
  have h2 := h.right
  refine ⟨_, basisFunctions_eq g order u knots p s h, ?_⟩
  rw [table_eq_fn g order u knots p s h k j hk hj, fn]
  have he : coxDeBoor (knotFn knots) p (s - p + j) =ᶠ[nhds u] fun t => (piece (knotFn knots) s p (s - p + j)).eval t := by
    filter_upwards [Ioo_mem_nhds hl hr] with t ht
    exact coxDeBoor_eq_piece (knotFn knots) s 0 (knots.length - 1) t
      (fun a b => knotFn_mono knots p h.vector a b) (by omega) (by omega) ht.1.le ht.2 p _ (by omega) (by omega)
  rw [he.iteratedDeriv_eq k, iteratedDeriv_eval]

/-! ### Curves -/

theorem wsum_eq (g : Garbage ℝ) (order : ℕ) (u : ℝ) (knots : List ℝ) (p s : ℕ) (h : SpanOf knots p s) (w : ℕ → ℝ)
    (k : ℕ) (hk : k ≤ order) : weightedSum (basisTable g order u s p (knotFn knots)) p w k =
      ∑ j ∈ Finset.range (p + 1), fn knots p s k j u * w j := by
  rw [weightedSum_eq]
  refine Finset.sum_congr rfl fun j hj => ?_
  rw [table_eq_fn g order u knots p s h k j hk (by have := Finset.mem_range.1 hj; omega)]

theorem wsum_hasDerivAt (knots : List ℝ) (p s : ℕ) (w : ℕ → ℝ) (k : ℕ) (u : ℝ) :
    HasDerivAt (fun t => ∑ j ∈ Finset.range (p + 1), fn knots p s k j t * w j)
      (∑ j ∈ Finset.range (p + 1), fn knots p s (k + 1) j u * w j) u :=
  HasDerivAt.fun_sum fun j _ => (fn_hasDerivAt knots p s k j u).mul_const (w j)

/-- C67: curves: the first order result is the derivative of the rational functions. -/
theorem C67_curve_first (g g' : Garbage ℝ) (u : ℝ) (knots : List ℝ) (p s : ℕ) (h : SpanOf knots p s) (w : ℕ → ℝ)
    (i : ℕ) (hi : i ≤ p) (hW : ∑ j ∈ Finset.range (p + 1), fn knots p s 0 j u * w j ≠ 0) :
    HasDerivAt (fun t => rationalEntry (basisTable g 0 t s p (knotFn knots)) p w 0 i)
      (rationalEntry (basisTable g' 1 u s p (knotFn knots)) p w 1 i) u := by
  have h0 : (fun t => rationalEntry (basisTable g 0 t s p (knotFn knots)) p w 0 i) =
      fun t => fn knots p s 0 i t * w i / ∑ j ∈ Finset.range (p + 1), fn knots p s 0 j t * w j := by
    funext t
    unfold rationalEntry
    rw [if_pos rfl]
    rw [wsum_eq g 0 t knots p s h w 0 le_rfl]
    have := table_eq_fn g 0 t knots p s h 0 i le_rfl hi
    rw [Nat.cast_zero] at this
    rw [this]
  have h1 : rationalEntry (basisTable g' 1 u s p (knotFn knots)) p w 1 i =
      (fn knots p s 1 i u * w i * (∑ j ∈ Finset.range (p + 1), fn knots p s 0 j u * w j) -
        fn knots p s 0 i u * w i * ∑ j ∈ Finset.range (p + 1), fn knots p s 1 j u * w j) /
        (∑ j ∈ Finset.range (p + 1), fn knots p s 0 j u * w j) ^ 2 := by
    unfold rationalEntry
    rw [if_neg one_ne_zero, if_pos rfl]
    rw [wsum_eq g' 1 u knots p s h w 0 (by omega), wsum_eq g' 1 u knots p s h w 1 le_rfl]
    have e0 := table_eq_fn g' 1 u knots p s h 0 i (by omega) hi
    have e1 := table_eq_fn g' 1 u knots p s h 1 i le_rfl hi
    rw [Nat.cast_zero] at e0
    rw [Nat.cast_one] at e1
    rw [e0, e1]
    ring
  rw [h0, h1]
  exact ((fn_hasDerivAt knots p s 0 i u).mul_const (w i)).fun_div (wsum_hasDerivAt knots p s w 0 u) hW

/-- C67: curves: the second order result is the derivative of the first order result. -/
theorem C67_curve_second (g g' : Garbage ℝ) (u : ℝ) (knots : List ℝ) (p s : ℕ) (h : SpanOf knots p s) (w : ℕ → ℝ)
    (i : ℕ) (hi : i ≤ p) (hW : ∑ j ∈ Finset.range (p + 1), fn knots p s 0 j u * w j ≠ 0) :
    HasDerivAt (fun t => rationalEntry (basisTable g 1 t s p (knotFn knots)) p w 1 i)
      (rationalEntry (basisTable g' 2 u s p (knotFn knots)) p w 2 i) u := by
  have h0 : (fun t => rationalEntry (basisTable g 1 t s p (knotFn knots)) p w 1 i) =
      fun t => (fn knots p s 1 i t * (∑ j ∈ Finset.range (p + 1), fn knots p s 0 j t * w j) -
        fn knots p s 0 i t * ∑ j ∈ Finset.range (p + 1), fn knots p s 1 j t * w j) * w i /
        ((∑ j ∈ Finset.range (p + 1), fn knots p s 0 j t * w j) *
          ∑ j ∈ Finset.range (p + 1), fn knots p s 0 j t * w j) := by
    funext t
    unfold rationalEntry
    rw [if_neg one_ne_zero, if_pos rfl]
    rw [wsum_eq g 1 t knots p s h w 0 (by omega), wsum_eq g 1 t knots p s h w 1 le_rfl]
    have e0 := table_eq_fn g 1 t knots p s h 0 i (by omega) hi
    have e1 := table_eq_fn g 1 t knots p s h 1 i le_rfl hi
    rw [Nat.cast_zero] at e0
    rw [Nat.cast_one] at e1
    rw [e0, e1]
  have h1 : rationalEntry (basisTable g' 2 u s p (knotFn knots)) p w 2 i =
      w i * (fn knots p s 2 i u / (∑ j ∈ Finset.range (p + 1), fn knots p s 0 j u * w j) -
        2 * fn knots p s 1 i u * (∑ j ∈ Finset.range (p + 1), fn knots p s 1 j u * w j) /
          ((∑ j ∈ Finset.range (p + 1), fn knots p s 0 j u * w j) *
            ∑ j ∈ Finset.range (p + 1), fn knots p s 0 j u * w j) -
        fn knots p s 0 i u * (∑ j ∈ Finset.range (p + 1), fn knots p s 2 j u * w j) /
          ((∑ j ∈ Finset.range (p + 1), fn knots p s 0 j u * w j) *
            ∑ j ∈ Finset.range (p + 1), fn knots p s 0 j u * w j) +
        2 * fn knots p s 0 i u * (∑ j ∈ Finset.range (p + 1), fn knots p s 1 j u * w j) *
          (∑ j ∈ Finset.range (p + 1), fn knots p s 1 j u * w j) /
          ((∑ j ∈ Finset.range (p + 1), fn knots p s 0 j u * w j) *
            (∑ j ∈ Finset.range (p + 1), fn knots p s 0 j u * w j) *
            ∑ j ∈ Finset.range (p + 1), fn knots p s 0 j u * w j)) := by
    unfold rationalEntry
    rw [if_neg two_ne_zero, if_neg (by decide)]
    dsimp only
    rw [wsum_eq g' 2 u knots p s h w 0 (by omega), wsum_eq g' 2 u knots p s h w 1 (by omega),
      wsum_eq g' 2 u knots p s h w 2 le_rfl]
    have e0 := table_eq_fn g' 2 u knots p s h 0 i (by omega) hi
    have e1 := table_eq_fn g' 2 u knots p s h 1 i (by omega) hi
    have e2 := table_eq_fn g' 2 u knots p s h 2 i le_rfl hi
    rw [Nat.cast_zero] at e0
    rw [Nat.cast_one] at e1
    rw [Nat.cast_ofNat] at e2
    rw [e0, e1, e2]
  rw [h0, h1]
  have d0 := wsum_hasDerivAt knots p s w 0 u
  have d1 := wsum_hasDerivAt knots p s w 1 u
  have n0 := fn_hasDerivAt knots p s 0 i u
  have n1 := fn_hasDerivAt knots p s 1 i u
  refine ((((n1.fun_mul d0).fun_sub (n0.fun_mul d1)).mul_const (w i)).fun_div (d0.fun_mul d0)
    (mul_ne_zero hW hW)).congr_deriv ?_
  simp only [Nat.reduceAdd] at *
  field_simp
  ring

/-! ### Surfaces -/

/-- Specification: weighted sum of products. -/
noncomputable def W2 (a b : ℕ → ℝ) (px py : ℕ) (w : ℕ → ℕ → ℝ) : ℝ :=
  ∑ i ∈ Finset.range (py + 1), ∑ j ∈ Finset.range (px + 1), a j * b i * w i j

theorem surfaceSum_eq (sx sy : Mem ℝ) (px py : ℕ) (w : ℕ → ℕ → ℝ) (k l : ℕ) :
    surfaceSum sx sy px py w k l = W2 (fun j => sx k j) (fun i => sy l i) px py w := by
  have inner : ∀ (i n : ℕ) (c : ℝ), (List.range n).foldl (fun (s : ℝ) (j : ℕ) => s + sx k j * sy l i * w i j) c =
      c + ∑ j ∈ Finset.range n, sx k j * sy l i * w i j := by
    intro i n c
    induction n with
    | zero => simp
    | succ n ih => rw [List.range_succ, List.foldl_append, ih, Finset.sum_range_succ, List.foldl_cons,
        List.foldl_nil, add_assoc]
  unfold surfaceSum W2
  simp only [inner]
  generalize py + 1 = m
  induction m with
  | zero => rfl
  | succ m ih =>
    rw [List.range_succ, List.foldl_append, ih, Finset.sum_range_succ, List.foldl_cons, List.foldl_nil]

theorem W2_congr (a a' b b' : ℕ → ℝ) (px py : ℕ) (w : ℕ → ℕ → ℝ) (ha : ∀ j, j ≤ px → a j = a' j)
    (hb : ∀ i, i ≤ py → b i = b' i) : W2 a b px py w = W2 a' b' px py w := by
  unfold W2
  refine Finset.sum_congr rfl fun i hi => Finset.sum_congr rfl fun j hj => ?_
  rw [ha j (by have := Finset.mem_range.1 hj; omega), hb i (by have := Finset.mem_range.1 hi; omega)]

theorem W2_hasDerivAt_x (a : ℕ → ℝ → ℝ) (a' : ℕ → ℝ) (b : ℕ → ℝ) (px py : ℕ) (w : ℕ → ℕ → ℝ) (u : ℝ)
    (ha : ∀ j, HasDerivAt (a j) (a' j) u) :
    HasDerivAt (fun t => W2 (fun j => a j t) b px py w) (W2 a' b px py w) u :=
  HasDerivAt.fun_sum fun i _ => HasDerivAt.fun_sum fun j _ => ((ha j).mul_const (b i)).mul_const (w i j)

theorem W2_hasDerivAt_y (a : ℕ → ℝ) (b : ℕ → ℝ → ℝ) (b' : ℕ → ℝ) (px py : ℕ) (w : ℕ → ℕ → ℝ) (v : ℝ)
    (hb : ∀ i, HasDerivAt (b i) (b' i) v) :
    HasDerivAt (fun t => W2 a (fun i => b i t) px py w) (W2 a b' px py w) v :=
  HasDerivAt.fun_sum fun i _ => HasDerivAt.fun_sum fun j _ => ((hb i).const_mul (a j)).mul_const (w i j)

/-- A patch of a surface: knots, degree and span in both directions. -/
structure Patch where
  knotsX : List ℝ
  knotsY : List ℝ
  px : ℕ
  py : ℕ
  sx : ℕ
  sy : ℕ
  hx : SpanOf knotsX px sx
  hy : SpanOf knotsY py sy

namespace Patch

/-- Table of the first direction. -/
noncomputable def tx (P : Patch) (g : Garbage ℝ) (order : ℕ) (u : ℝ) : Mem ℝ :=
  basisTable g order u P.sx P.px (knotFn P.knotsX)

/-- Table of the second direction. -/
noncomputable def ty (P : Patch) (g : Garbage ℝ) (order : ℕ) (v : ℝ) : Mem ℝ :=
  basisTable g order v P.sy P.py (knotFn P.knotsY)

/-- Derivatives of the functions of the first direction. -/
noncomputable def N (P : Patch) (k j : ℕ) (u : ℝ) : ℝ := fn P.knotsX P.px P.sx k j u

/-- Derivatives of the functions of the second direction. -/
noncomputable def M (P : Patch) (l i : ℕ) (v : ℝ) : ℝ := fn P.knotsY P.py P.sy l i v

/-- Derivatives of the denominator. -/
noncomputable def W (P : Patch) (w : ℕ → ℕ → ℝ) (k l : ℕ) (u v : ℝ) : ℝ :=
  W2 (fun j => P.N k j u) (fun i => P.M l i v) P.px P.py w

theorem tx_eq (P : Patch) (g : Garbage ℝ) (order : ℕ) (u : ℝ) (k j : ℕ) (hk : k ≤ order) (hj : j ≤ P.px) :
    P.tx g order u k j = P.N k j u := table_eq_fn g order u P.knotsX P.px P.sx P.hx k j hk hj

theorem ty_eq (P : Patch) (g : Garbage ℝ) (order : ℕ) (v : ℝ) (l i : ℕ) (hl : l ≤ order) (hi : i ≤ P.py) :
    P.ty g order v l i = P.M l i v := table_eq_fn g order v P.knotsY P.py P.sy P.hy l i hl hi

theorem sum_eq (P : Patch) (g g' : Garbage ℝ) (order : ℕ) (u v : ℝ) (w : ℕ → ℕ → ℝ) (k l : ℕ) (hk : k ≤ order)
    (hl : l ≤ order) : surfaceSum (P.tx g order u) (P.ty g' order v) P.px P.py w k l = P.W w k l u v := by
  rw [surfaceSum_eq]
  exact W2_congr _ _ _ _ _ _ _ (fun j hj => P.tx_eq g order u k j hk hj) fun i hi => P.ty_eq g' order v l i hl hi

theorem N_hasDerivAt (P : Patch) (k j : ℕ) (u : ℝ) : HasDerivAt (P.N k j) (P.N (k + 1) j u) u :=
  fn_hasDerivAt P.knotsX P.px P.sx k j u

theorem M_hasDerivAt (P : Patch) (l i : ℕ) (v : ℝ) : HasDerivAt (P.M l i) (P.M (l + 1) i v) v :=
  fn_hasDerivAt P.knotsY P.py P.sy l i v

theorem W_hasDerivAt_x (P : Patch) (w : ℕ → ℕ → ℝ) (k l : ℕ) (u v : ℝ) :
    HasDerivAt (fun t => P.W w k l t v) (P.W w (k + 1) l u v) u :=
  W2_hasDerivAt_x (fun j => P.N k j) (fun j => P.N (k + 1) j u) _ _ _ _ _ fun j => P.N_hasDerivAt k j u

theorem W_hasDerivAt_y (P : Patch) (w : ℕ → ℕ → ℝ) (k l : ℕ) (u v : ℝ) :
    HasDerivAt (fun t => P.W w k l u t) (P.W w k (l + 1) u v) v :=
  W2_hasDerivAt_y _ (fun i => P.M l i) (fun i => P.M (l + 1) i v) _ _ _ _ fun i => P.M_hasDerivAt l i v

/-! The coded expressions in terms of the functions. -/

theorem value_eq (P : Patch) (g g' : Garbage ℝ) (u v : ℝ) (w : ℕ → ℕ → ℝ) (i j : ℕ) (hi : i ≤ P.py) (hj : j ≤ P.px) :
    surfaceValue (P.tx g 0 u) (P.ty g' 0 v) P.px P.py w i j = P.N 0 j u * P.M 0 i v * w i j / P.W w 0 0 u v := by
  unfold surfaceValue
  rw [P.sum_eq g g' 0 u v w 0 0 le_rfl le_rfl]
  have e1 := P.tx_eq g 0 u 0 j le_rfl hj
  have e2 := P.ty_eq g' 0 v 0 i le_rfl hi
  rw [Nat.cast_zero] at e1 e2
  rw [e1, e2]

theorem dx_eq (P : Patch) (g g' : Garbage ℝ) (u v : ℝ) (w : ℕ → ℕ → ℝ) (i j : ℕ) (hi : i ≤ P.py) (hj : j ≤ P.px) :
    surfaceDx (P.tx g 1 u) (P.ty g' 1 v) P.px P.py w i j = (P.N 1 j u * P.M 0 i v * P.W w 0 0 u v -
      P.N 0 j u * P.M 0 i v * P.W w 1 0 u v) * w i j / (P.W w 0 0 u v * P.W w 0 0 u v) := by
  unfold surfaceDx
  dsimp only
  rw [P.sum_eq g g' 1 u v w 0 0 (by omega) (by omega), P.sum_eq g g' 1 u v w 1 0 (by omega) (by omega)]
  have e0 := P.tx_eq g 1 u 0 j (by omega) hj
  have e1 := P.tx_eq g 1 u 1 j (by omega) hj
  have e2 := P.ty_eq g' 1 v 0 i (by omega) hi
  rw [Nat.cast_zero] at e0 e2
  rw [Nat.cast_one] at e1
  rw [e0, e1, e2]

theorem dy_eq (P : Patch) (g g' : Garbage ℝ) (u v : ℝ) (w : ℕ → ℕ → ℝ) (i j : ℕ) (hi : i ≤ P.py) (hj : j ≤ P.px) :
    surfaceDy (P.tx g 1 u) (P.ty g' 1 v) P.px P.py w i j = (P.N 0 j u * P.M 1 i v * P.W w 0 0 u v -
      P.N 0 j u * P.M 0 i v * P.W w 0 1 u v) * w i j / (P.W w 0 0 u v * P.W w 0 0 u v) := by
  unfold surfaceDy
  dsimp only
  rw [P.sum_eq g g' 1 u v w 0 0 (by omega) (by omega), P.sum_eq g g' 1 u v w 0 1 (by omega) (by omega)]
  have e0 := P.tx_eq g 1 u 0 j (by omega) hj
  have e1 := P.ty_eq g' 1 v 1 i (by omega) hi
  have e2 := P.ty_eq g' 1 v 0 i (by omega) hi
  rw [Nat.cast_zero] at e0 e2
  rw [Nat.cast_one] at e1
  rw [e0, e1, e2]

theorem dxx_eq (P : Patch) (g g' : Garbage ℝ) (u v : ℝ) (w : ℕ → ℕ → ℝ) (i j : ℕ) (hi : i ≤ P.py) (hj : j ≤ P.px) :
    surfaceDxx (P.tx g 2 u) (P.ty g' 2 v) P.px P.py w i j = (P.N 2 j u * P.M 0 i v / P.W w 0 0 u v -
      2 * P.N 1 j u * P.M 0 i v * P.W w 1 0 u v / (P.W w 0 0 u v * P.W w 0 0 u v) -
      P.N 0 j u * P.M 0 i v * P.W w 2 0 u v / (P.W w 0 0 u v * P.W w 0 0 u v) +
      2 * P.N 0 j u * P.M 0 i v * P.W w 1 0 u v * P.W w 1 0 u v /
        (P.W w 0 0 u v * P.W w 0 0 u v * P.W w 0 0 u v)) * w i j := by
  unfold surfaceDxx
  dsimp only
  rw [P.sum_eq g g' 2 u v w 0 0 (by omega) (by omega), P.sum_eq g g' 2 u v w 1 0 (by omega) (by omega),
    P.sum_eq g g' 2 u v w 2 0 (by omega) (by omega)]
  have e0 := P.tx_eq g 2 u 0 j (by omega) hj
  have e1 := P.tx_eq g 2 u 1 j (by omega) hj
  have e2 := P.tx_eq g 2 u 2 j (by omega) hj
  have e3 := P.ty_eq g' 2 v 0 i (by omega) hi
  rw [Nat.cast_zero] at e0 e3
  rw [Nat.cast_one] at e1
  rw [Nat.cast_ofNat] at e2
  rw [e0, e1, e2, e3]

theorem dyy_eq (P : Patch) (g g' : Garbage ℝ) (u v : ℝ) (w : ℕ → ℕ → ℝ) (i j : ℕ) (hi : i ≤ P.py) (hj : j ≤ P.px) :
    surfaceDyy (P.tx g 2 u) (P.ty g' 2 v) P.px P.py w i j = (P.N 0 j u * P.M 2 i v / P.W w 0 0 u v -
      2 * P.N 0 j u * P.M 1 i v * P.W w 0 1 u v / (P.W w 0 0 u v * P.W w 0 0 u v) -
      P.N 0 j u * P.M 0 i v * P.W w 0 2 u v / (P.W w 0 0 u v * P.W w 0 0 u v) +
      2 * P.N 0 j u * P.tx g 2 u 0 i * P.W w 0 1 u v * P.W w 0 1 u v /
        (P.W w 0 0 u v * P.W w 0 0 u v * P.W w 0 0 u v)) * w i j := by
  unfold surfaceDyy
  dsimp only
  rw [P.sum_eq g g' 2 u v w 0 0 (by omega) (by omega), P.sum_eq g g' 2 u v w 0 1 (by omega) (by omega),
    P.sum_eq g g' 2 u v w 0 2 (by omega) (by omega)]
  have e0 := P.tx_eq g 2 u 0 j (by omega) hj
  have e1 := P.ty_eq g' 2 v 1 i (by omega) hi
  have e2 := P.ty_eq g' 2 v 2 i (by omega) hi
  have e3 := P.ty_eq g' 2 v 0 i (by omega) hi
  rw [Nat.cast_zero] at e0 e3
  rw [Nat.cast_one] at e1
  rw [Nat.cast_ofNat] at e2
  rw [e0, e1, e2, e3]

theorem dxy_eq (P : Patch) (g g' : Garbage ℝ) (u v : ℝ) (w : ℕ → ℕ → ℝ) (i j : ℕ) (hi : i ≤ P.py) (hj : j ≤ P.px) :
    surfaceDxy (P.tx g 2 u) (P.ty g' 2 v) P.px P.py w i j = (P.N 1 j u * P.M 1 i v / P.W w 0 0 u v -
      P.N 1 j u * P.M 0 i v * P.W w 0 1 u v / (P.W w 0 0 u v * P.W w 0 0 u v) -
      P.N 0 j u * P.M 1 i v * P.W w 1 0 u v / (P.W w 0 0 u v * P.W w 0 0 u v) -
      P.N 1 j u * P.M 0 i v * P.W w 1 1 u v * P.W w 1 1 u v / (P.W w 0 0 u v * P.W w 0 0 u v) +
      2 * P.N 0 j u * P.M 0 i v * P.W w 1 0 u v * P.W w 0 1 u v /
        (P.W w 0 0 u v * P.W w 0 0 u v * P.W w 0 0 u v)) * w i j := by
  unfold surfaceDxy
  dsimp only
  rw [P.sum_eq g g' 2 u v w 0 0 (by omega) (by omega), P.sum_eq g g' 2 u v w 0 1 (by omega) (by omega),
    P.sum_eq g g' 2 u v w 1 0 (by omega) (by omega), P.sum_eq g g' 2 u v w 1 1 (by omega) (by omega)]
  have e0 := P.tx_eq g 2 u 0 j (by omega) hj
  have e1 := P.tx_eq g 2 u 1 j (by omega) hj
  have e2 := P.ty_eq g' 2 v 0 i (by omega) hi
  have e3 := P.ty_eq g' 2 v 1 i (by omega) hi
  rw [Nat.cast_zero] at e0 e2
  rw [Nat.cast_one] at e1 e3
  rw [e0, e1, e2, e3]

end Patch

/-- C67: surfaces: the values add up to one. -/
theorem C67_surface_sum (P : Patch) (g g' : Garbage ℝ) (u v : ℝ) (w : ℕ → ℕ → ℝ) (hW : P.W w 0 0 u v ≠ 0) :
    ∑ i ∈ Finset.range (P.py + 1), ∑ j ∈ Finset.range (P.px + 1),
      surfaceValue (P.tx g 0 u) (P.ty g' 0 v) P.px P.py w i j = 1 := by
  rw [Finset.sum_congr rfl fun i hi => Finset.sum_congr rfl fun j hj =>
    P.value_eq g g' u v w i j (by have := Finset.mem_range.1 hi; omega) (by have := Finset.mem_range.1 hj; omega)]
  simp only [← Finset.sum_div]
  exact div_self hW

/-- C67: surfaces: the first order results are the partial derivatives of the values. -/
theorem C67_surface_first (P : Patch) (g g' h h' : Garbage ℝ) (u v : ℝ) (w : ℕ → ℕ → ℝ) (i j : ℕ) (hi : i ≤ P.py)
    (hj : j ≤ P.px) (hW : P.W w 0 0 u v ≠ 0) :
    HasDerivAt (fun t => surfaceValue (P.tx g 0 t) (P.ty g' 0 v) P.px P.py w i j)
      (surfaceDx (P.tx h 1 u) (P.ty h' 1 v) P.px P.py w i j) u ∧
    HasDerivAt (fun t => surfaceValue (P.tx g 0 u) (P.ty g' 0 t) P.px P.py w i j)
      (surfaceDy (P.tx h 1 u) (P.ty h' 1 v) P.px P.py w i j) v := by
  constructor
  · simp only [P.value_eq g g' _ v w i j hi hj]
    rw [P.dx_eq h h' u v w i j hi hj]
    refine ((((P.N_hasDerivAt 0 j u).mul_const (P.M 0 i v)).mul_const (w i j)).fun_div
      (P.W_hasDerivAt_x w 0 0 u v) hW).congr_deriv ?_
    simp only [Nat.reduceAdd]
    ring
  · simp only [P.value_eq g g' u _ w i j hi hj]
    rw [P.dy_eq h h' u v w i j hi hj]
    refine ((((P.M_hasDerivAt 0 i v).const_mul (P.N 0 j u)).mul_const (w i j)).fun_div
      (P.W_hasDerivAt_y w 0 0 u v) hW).congr_deriv ?_
    simp only [Nat.reduceAdd]
    ring

/-- C67: surfaces: the first column of the second order result is the second derivative in the first
direction. -/
theorem C67_surface_xx (P : Patch) (g g' h h' : Garbage ℝ) (u v : ℝ) (w : ℕ → ℕ → ℝ) (i j : ℕ) (hi : i ≤ P.py)
    (hj : j ≤ P.px) (hW : P.W w 0 0 u v ≠ 0) :
    HasDerivAt (fun t => surfaceDx (P.tx g 1 t) (P.ty g' 1 v) P.px P.py w i j)
      (surfaceDxx (P.tx h 2 u) (P.ty h' 2 v) P.px P.py w i j) u := by
  simp only [P.dx_eq g g' _ v w i j hi hj]
  rw [P.dxx_eq h h' u v w i j hi hj]
  have d0 := P.W_hasDerivAt_x w 0 0 u v
  have d1 := P.W_hasDerivAt_x w 1 0 u v
  have n0 := (P.N_hasDerivAt 0 j u).mul_const (P.M 0 i v)
  have n1 := (P.N_hasDerivAt 1 j u).mul_const (P.M 0 i v)
  refine ((((n1.fun_mul d0).fun_sub (n0.fun_mul d1)).mul_const (w i j)).fun_div (d0.fun_mul d0)
    (mul_ne_zero hW hW)).congr_deriv ?_
  simp only [Nat.reduceAdd] at *
  field_simp
  ring

/-- The true second derivative in the second direction. -/
theorem surface_yy (P : Patch) (g g' : Garbage ℝ) (u v : ℝ) (w : ℕ → ℕ → ℝ) (i j : ℕ) (hi : i ≤ P.py)
    (hj : j ≤ P.px) (hW : P.W w 0 0 u v ≠ 0) :
    HasDerivAt (fun t => surfaceDy (P.tx g 1 u) (P.ty g' 1 t) P.px P.py w i j)
      ((P.N 0 j u * P.M 2 i v / P.W w 0 0 u v -
      2 * P.N 0 j u * P.M 1 i v * P.W w 0 1 u v / (P.W w 0 0 u v * P.W w 0 0 u v) -
      P.N 0 j u * P.M 0 i v * P.W w 0 2 u v / (P.W w 0 0 u v * P.W w 0 0 u v) +
      2 * P.N 0 j u * P.M 0 i v * P.W w 0 1 u v * P.W w 0 1 u v /
        (P.W w 0 0 u v * P.W w 0 0 u v * P.W w 0 0 u v)) * w i j) v := by
  simp only [P.dy_eq g g' u _ w i j hi hj]
  have d0 := P.W_hasDerivAt_y w 0 0 u v
  have d1 := P.W_hasDerivAt_y w 0 1 u v
  have n0 := (P.M_hasDerivAt 0 i v).const_mul (P.N 0 j u)
  have n1 := (P.M_hasDerivAt 1 i v).const_mul (P.N 0 j u)
  refine ((((n1.fun_mul d0).fun_sub (n0.fun_mul d1)).mul_const (w i j)).fun_div (d0.fun_mul d0)
    (mul_ne_zero hW hW)).congr_deriv ?_
  simp only [Nat.reduceAdd] at *
  field_simp
  ring

/-- The true mixed derivative. -/
theorem surface_xy (P : Patch) (g g' : Garbage ℝ) (u v : ℝ) (w : ℕ → ℕ → ℝ) (i j : ℕ) (hi : i ≤ P.py)
    (hj : j ≤ P.px) (hW : P.W w 0 0 u v ≠ 0) :
    HasDerivAt (fun t => surfaceDx (P.tx g 1 u) (P.ty g' 1 t) P.px P.py w i j)
      ((P.N 1 j u * P.M 1 i v / P.W w 0 0 u v -
      P.N 1 j u * P.M 0 i v * P.W w 0 1 u v / (P.W w 0 0 u v * P.W w 0 0 u v) -
      P.N 0 j u * P.M 1 i v * P.W w 1 0 u v / (P.W w 0 0 u v * P.W w 0 0 u v) -
      P.N 0 j u * P.M 0 i v * P.W w 1 1 u v / (P.W w 0 0 u v * P.W w 0 0 u v) +
      2 * P.N 0 j u * P.M 0 i v * P.W w 1 0 u v * P.W w 0 1 u v /
        (P.W w 0 0 u v * P.W w 0 0 u v * P.W w 0 0 u v)) * w i j) v := by
  simp only [P.dx_eq g g' u _ w i j hi hj]
  have d0 := P.W_hasDerivAt_y w 0 0 u v
  have d1 := P.W_hasDerivAt_y w 1 0 u v
  have n0 := (P.M_hasDerivAt 0 i v).const_mul (P.N 0 j u)
  have n1 := (P.M_hasDerivAt 0 i v).const_mul (P.N 1 j u)
  refine ((((n1.fun_mul d0).fun_sub (n0.fun_mul d1)).mul_const (w i j)).fun_div (d0.fun_mul d0)
    (mul_ne_zero hW hW)).congr_deriv ?_
  simp only [Nat.reduceAdd] at *
  field_simp
  ring

/-- The denominator of a surface with equal weights is constant. -/
theorem W_equal (P : Patch) (c u v : ℝ) (k l : ℕ) :
    P.W (fun _ _ => c) k l u v = if k = 0 ∧ l = 0 then c else 0 := by
  have hx : ∑ j ∈ Finset.range (P.px + 1), P.N k j u = if k = 0 then 1 else 0 := by
    have h := sum_piece (knotFn P.knotsX) P.sx P.px P.hx.separated P.px le_rfl
    have := congrArg (fun q => eval u (derivative^[k] q)) h
    rw [iterate_derivative_sum, eval_finsetSum] at this
    refine this.trans ?_
    cases k with
    | zero => simp
    | succ n => rw [Function.iterate_succ_apply, derivative_one, iterate_derivative_zero, eval_zero]; simp
  have hy : ∑ i ∈ Finset.range (P.py + 1), P.M l i v = if l = 0 then 1 else 0 := by
    have h := sum_piece (knotFn P.knotsY) P.sy P.py P.hy.separated P.py le_rfl
    have := congrArg (fun q => eval v (derivative^[l] q)) h
    rw [iterate_derivative_sum, eval_finsetSum] at this
    refine this.trans ?_
    cases l with
    | zero => simp
    | succ n => rw [Function.iterate_succ_apply, derivative_one, iterate_derivative_zero, eval_zero]; simp
  have : P.W (fun _ _ => c) k l u v = (∑ j ∈ Finset.range (P.px + 1), P.N k j u) *
      (∑ i ∈ Finset.range (P.py + 1), P.M l i v) * c := by
    unfold Patch.W W2
    rw [mul_comm (∑ j ∈ _, P.N k j u), Finset.sum_mul_sum, Finset.sum_mul]
    refine Finset.sum_congr rfl fun i _ => ?_
    rw [Finset.sum_mul]
    refine Finset.sum_congr rfl fun j _ => by ring
  rw [this, hx, hy]
  by_cases h1 : k = 0 <;> by_cases h2 : l = 0 <;> simp [h1, h2]

/-- C67: surfaces: the second and third columns of the second order result are the second derivatives for
equal weights.  Not proved: unequal weights, for which it is false. -/
theorem C67_surface_second_partial (P : Patch) (g g' h h' : Garbage ℝ) (u v c : ℝ) (hc : c ≠ 0) (i j : ℕ)
    (hi : i ≤ P.py) (hj : j ≤ P.px) :
    HasDerivAt (fun t => surfaceDy (P.tx g 1 u) (P.ty g' 1 t) P.px P.py (fun _ _ => c) i j)
      (surfaceDyy (P.tx h 2 u) (P.ty h' 2 v) P.px P.py (fun _ _ => c) i j) v ∧
    HasDerivAt (fun t => surfaceDx (P.tx g 1 u) (P.ty g' 1 t) P.px P.py (fun _ _ => c) i j)
      (surfaceDxy (P.tx h 2 u) (P.ty h' 2 v) P.px P.py (fun _ _ => c) i j) v := by
  have hW : P.W (fun _ _ => c) 0 0 u v ≠ 0 := by rw [W_equal]; simpa using hc
  constructor
  · refine (surface_yy P g g' u v _ i j hi hj hW).congr_deriv ?_
    rw [P.dyy_eq h h' u v _ i j hi hj]
    simp only [W_equal]
    simp
  · refine (surface_xy P g g' u v _ i j hi hj hW).congr_deriv ?_
    rw [P.dxy_eq h h' u v _ i j hi hj]
    simp only [W_equal]
    simp

/-! ### The bilinear patch -/

theorem linSpan : SpanOf ([0, 0, 1, 1] : List ℝ) 1 1 := by
  refine ⟨⟨fun i j a b hi hj hij => ?_, by decide⟩, by decide, by decide, ?_⟩
  · obtain ⟨hi', rfl⟩ := List.getElem?_eq_some_iff.1 hi
    obtain ⟨hj', rfl⟩ := List.getElem?_eq_some_iff.1 hj
    have h1 : i < 4 := hi'
    have h2 : j < 4 := hj'
    interval_cases i <;> interval_cases j <;> simp at hij ⊢
  · exact zero_lt_one

/-- One bilinear patch on the unit square. -/
noncomputable def unitPatch : Patch := ⟨[0, 0, 1, 1], [0, 0, 1, 1], 1, 1, 1, 1, linSpan, linSpan⟩

theorem lin_fn (t : ℝ) : fn [0, 0, 1, 1] 1 1 0 0 t = 1 - t ∧ fn [0, 0, 1, 1] 1 1 0 1 t = t ∧
    fn [0, 0, 1, 1] 1 1 1 0 t = -1 ∧ fn [0, 0, 1, 1] 1 1 1 1 t = 1 ∧
    fn [0, 0, 1, 1] 1 1 2 0 t = 0 ∧ fn [0, 0, 1, 1] 1 1 2 1 t = 0 := by
  refine ⟨?_, ?_, ?_, ?_, ?_, ?_⟩ <;> simp [fn, piece, knotFn]

/-- C67: with unequal weights the second and third columns are wrong: for the bilinear patch with weights
one and one weight two the values at the centre are not the second derivatives. -/
theorem C67_surface_second_counterexample (g g' h h' : Garbage ℝ) :
    (¬ HasDerivAt (fun t => surfaceDy (unitPatch.tx g 1 (1 / 4)) (unitPatch.ty g' 1 t) 1 1
        (fun i j => if i = 1 ∧ j = 1 then 2 else 1) 0 0)
      (surfaceDyy (unitPatch.tx h 2 (1 / 4)) (unitPatch.ty h' 2 (1 / 2)) 1 1
        (fun i j => if i = 1 ∧ j = 1 then 2 else 1) 0 0) (1 / 2)) ∧
    ¬ HasDerivAt (fun t => surfaceDx (unitPatch.tx g 1 (1 / 4)) (unitPatch.ty g' 1 t) 1 1
        (fun i j => if i = 1 ∧ j = 1 then 2 else 1) 0 0)
      (surfaceDxy (unitPatch.tx h 2 (1 / 4)) (unitPatch.ty h' 2 (1 / 2)) 1 1
        (fun i j => if i = 1 ∧ j = 1 then 2 else 1) 0 0) (1 / 2) := by
  set w : ℕ → ℕ → ℝ := fun i j => if i = 1 ∧ j = 1 then 2 else 1 with hw
  have hN : ∀ k j t, unitPatch.N k j t = fn [0, 0, 1, 1] 1 1 k j t := fun _ _ _ => rfl
  have hM : ∀ k j t, unitPatch.M k j t = fn [0, 0, 1, 1] 1 1 k j t := fun _ _ _ => rfl
  have hWf : ∀ k l u v, unitPatch.W w k l u v = (fn [0, 0, 1, 1] 1 1 k 0 u + fn [0, 0, 1, 1] 1 1 k 1 u) *
      fn [0, 0, 1, 1] 1 1 l 0 v + (fn [0, 0, 1, 1] 1 1 k 0 u + 2 * fn [0, 0, 1, 1] 1 1 k 1 u) *
      fn [0, 0, 1, 1] 1 1 l 1 v := by
    intro k l u v
    have : unitPatch.W w k l u v = ∑ i ∈ Finset.range 2, ∑ j ∈ Finset.range 2,
      fn [0, 0, 1, 1] 1 1 k j u * fn [0, 0, 1, 1] 1 1 l i v * w i j := rfl
    rw [this]
    simp [Finset.sum_range_succ, hw]
    ring
  obtain ⟨a0, a1, a2, a3, a4, a5⟩ := lin_fn (1 / 4)
  obtain ⟨b0, b1, b2, b3, b4, b5⟩ := lin_fn (1 / 2)
  have hW : unitPatch.W w 0 0 (1 / 4) (1 / 2) ≠ 0 := by
    rw [hWf, a0, a1, b0, b1]; norm_num
  have hx0 : unitPatch.tx h 2 (1 / 4) 0 0 = 3 / 4 := by
    have := unitPatch.tx_eq h 2 (1 / 4) 0 0 (by omega) (Nat.zero_le _)
    rw [Nat.cast_zero] at this
    rw [this, hN, a0]; norm_num
  have w00 : w 0 0 = 1 := by rw [hw]; simp
  constructor
  · intro hd
    have he := hd.unique (surface_yy unitPatch g g' (1 / 4) (1 / 2) w 0 0 (Nat.zero_le _) (Nat.zero_le _) hW)
    have hc := unitPatch.dyy_eq h h' (1 / 4) (1 / 2) w 0 0 (Nat.zero_le _) (Nat.zero_le _)
    rw [Nat.cast_zero, hx0] at hc
    rw [show surfaceDyy (unitPatch.tx h 2 (1 / 4)) (unitPatch.ty h' 2 (1 / 2)) 1 1 w 0 0 = _ from hc] at he
    simp only [hWf, hN, hM, a0, a1, b0, b1, b2, b3, b4, b5, w00] at he
    norm_num at he
  · intro hd
    have he := hd.unique (surface_xy unitPatch g g' (1 / 4) (1 / 2) w 0 0 (Nat.zero_le _) (Nat.zero_le _) hW)
    have hc := unitPatch.dxy_eq h h' (1 / 4) (1 / 2) w 0 0 (Nat.zero_le _) (Nat.zero_le _)
    rw [show surfaceDxy (unitPatch.tx h 2 (1 / 4)) (unitPatch.ty h' 2 (1 / 2)) 1 1 w 0 0 = _ from hc] at he
    simp only [hWf, hN, hM, a0, a1, a2, a3, b0, b1, b2, b3, w00] at he
    norm_num at he

/-- The denominator of the bilinear patch with equal weights does not vanish: the hypotheses can be met. -/
example (u v : ℝ) : unitPatch.W (fun _ _ => 3) 0 0 u v ≠ 0 := by
  rw [W_equal]; norm_num

end NuTo.Nurbs
