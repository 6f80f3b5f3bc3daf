import Verif.Model.LeastSquares
import Mathlib.Algebra.Order.Field.Basic
import Mathlib.Algebra.BigOperators.Ring.Finset
import Mathlib.Algebra.BigOperators.Group.List.Lemmas
import Mathlib.Algebra.Order.BigOperators.Group.List
import Mathlib.LinearAlgebra.Lagrange
import Mathlib.Data.List.GetD
import Mathlib.Tactic.Ring
import Mathlib.Tactic.Linarith
import Mathlib.Tactic.FieldSimp
import Mathlib.Tactic.NormNum
import Mathlib.Tactic.Positivity
import Mathlib.Tactic.LinearCombination

/-!
# C73: fitting a polynomial

Without conditions the coefficients are the least squares fit.  Conditions are always met, but with conditions the result is
not the best polynomial among those that meet them.
-/

namespace NuTo

namespace LeastSquares

open Finset

set_option linter.unusedSectionVars false

variable {K : Type} [Field K]

/-- the polynomial with coefficients `c` of degree below `n` -/
def poly (n : Nat) (c : Nat → K) (x : K) : K := ∑ i ∈ range n, c i * x ^ i

/-- sum of the squared errors at the support points -/
def err (n : Nat) (pts : List (K × K)) (c : Nat → K) : K := (pts.map fun p => (p.2 - poly n c p.1) ^ 2).sum

/-- `v` solves the system -/
def Solves (s : System K) (v : Nat → K) : Prop := ∀ i < s.size, ∑ j ∈ range s.size, s.lhs i j * v j = s.rhs i

/-- only zero is mapped to zero -/
def Regular (s : System K) : Prop :=
  ∀ v : Nat → K, (∀ i < s.size, ∑ j ∈ range s.size, s.lhs i j * v j = 0) → ∀ j < s.size, v j = 0

/-- what is trusted of the decomposition: the solution, if the matrix is regular -/
def Correct (solver : System K → List K) : Prop :=
  ∀ s, Regular s → (solver s).length = s.size ∧ Solves s fun j => (solver s).getD j 0

/-! ## The entries of the system -/

theorem fold_addAt (f : Nat → K) (i n : Nat) (m : Nat → Nat → K) :
    (List.range n).foldl (fun m (j : Nat) => addAt m i j (f j)) m =
      fun a b => if a = i ∧ b < n then m a b + f b else m a b := by
  induction n with
  | zero => funext a b; simp
  | succ n ih =>
    rw [List.range_succ, List.foldl_append, ih]
    funext a b
    simp only [List.foldl_cons, List.foldl_nil, addAt]
    by_cases ha : a = i
    · by_cases hb : b = n
      · subst hb; simp [ha]
      · have : b < n + 1 ↔ b < n := by omega
        simp [ha, hb, this]
    · simp [ha]

theorem rowStep_eq (n nBC : Nat) (x y : K) (s : (Nat → Nat → K) × (Nat → K)) (i : Nat) :
    rowStep n nBC x y s i = (fun a b => if a = i ∧ b < n ∧ nBC ≤ a then s.1 a b + x ^ (a + b) else s.1 a b,
      fun a => if a = i then s.2 a + x ^ i * y else s.2 a) := by
  rw [rowStep]
  congr 1
  by_cases h : nBC ≤ i
  · have : columnStep nBC x i = fun m (j : Nat) => addAt m i j (x ^ (i + j)) := by
      funext m j; rw [columnStep, if_pos h]
    rw [this, fold_addAt (fun j => x ^ (i + j))]
    funext a b
    by_cases ha : a = i
    · subst ha; simp [h]
    · simp [ha]
  · have : columnStep nBC x i = fun m (_ : Nat) => m := by
      funext m j; rw [columnStep, if_neg h]
    rw [this]
    have hf : ∀ (l : List Nat) (m : Nat → Nat → K), l.foldl (fun m _ => m) m = m := by
      intro l; induction l with
      | nil => intro m; rfl
      | cons a l ih => intro m; exact ih m
    rw [hf]
    funext a b
    by_cases ha : a = i
    · subst ha; simp [h]
    · simp [ha]

theorem pointStep_eq (n nBC : Nat) (s : (Nat → Nat → K) × (Nat → K)) (p : K × K) :
    pointStep n nBC s p = (fun a b => if a < n ∧ b < n ∧ nBC ≤ a then s.1 a b + p.1 ^ (a + b) else s.1 a b,
      fun a => if a < n then s.2 a + p.1 ^ a * p.2 else s.2 a) := by
  have key : ∀ m, (List.range m).foldl (rowStep n nBC p.1 p.2) s =
      (fun a b => if a < m ∧ b < n ∧ nBC ≤ a then s.1 a b + p.1 ^ (a + b) else s.1 a b,
        fun a => if a < m then s.2 a + p.1 ^ a * p.2 else s.2 a) := by
    intro m
    induction m with
    | zero => simp
    | succ m ih =>
      rw [List.range_succ, List.foldl_append, ih, List.foldl_cons, List.foldl_nil, rowStep_eq]
      congr 1
      · funext a b
        by_cases ha : a = m
        · subst ha; simp
        · have : a < m + 1 ↔ a < m := by omega
          simp [ha, this]
      · funext a
        by_cases ha : a = m
        · subst ha; simp
        · have : a < m + 1 ↔ a < m := by omega
          simp [ha, this]
  exact key n

theorem points_fold (n nBC : Nat) (pts : List (K × K)) (s : (Nat → Nat → K) × (Nat → K)) :
    pts.foldl (pointStep n nBC) s =
      (fun a b => if a < n ∧ b < n ∧ nBC ≤ a then s.1 a b + (pts.map fun p => p.1 ^ (a + b)).sum else s.1 a b,
        fun a => if a < n then s.2 a + (pts.map fun p => p.1 ^ a * p.2).sum else s.2 a) := by
  induction pts generalizing s with
  | nil => simp
  | cons p t ih =>
    rw [List.foldl_cons, ih, pointStep_eq]
    congr 1
    · funext a b
      by_cases h : a < n ∧ b < n ∧ nBC ≤ a
      · simp only [h, and_self, if_true, List.map_cons, List.sum_cons]; ring
      · simp only [h, if_false]
    · funext a
      by_cases h : a < n
      · simp only [h, if_true, List.map_cons, List.sum_cons]; ring
      · simp only [h, if_false]

theorem conditions_fold (n : Nat) (bcs : List (K × K)) (k : Nat) (s : (Nat → Nat → K) × (Nat → K)) :
    (bcs.zipIdx k).foldl (conditionStep n) s =
      (fun a b => if k ≤ a ∧ a < k + bcs.length ∧ b < n then s.1 a b + (bcs.getD (a - k) 0).1 ^ b else s.1 a b,
        fun a => if k ≤ a ∧ a < k + bcs.length then (bcs.getD (a - k) 0).2 else s.2 a) := by
  induction bcs generalizing s k with
  | nil =>
    simp only [List.zipIdx_nil, List.foldl_nil, List.length_nil, Nat.add_zero]
    refine Prod.ext ?_ ?_
    · funext a b
      exact (if_neg (by omega)).symm
    · funext a
      exact (if_neg (by omega)).symm
  | cons q t ih =>
    rw [List.zipIdx_cons, List.foldl_cons, ih, conditionStep]
    simp only [fold_addAt (fun j => q.1 ^ j)]
    congr 1
    · funext a b
      by_cases ha : a = k
      · subst ha
        by_cases hb : b < n
        · simp [hb]
        · simp [hb]
      · rw [if_neg (c := a = k ∧ b < n) (fun h => ha h.1)]
        by_cases h : k + 1 ≤ a ∧ a < k + 1 + t.length ∧ b < n
        · rw [if_pos h, if_pos ⟨by omega, by simp only [List.length_cons]; omega, h.2.2⟩]
          obtain ⟨m, rfl⟩ : ∃ m, a = k + 1 + m := ⟨a - (k + 1), by omega⟩
          rw [show k + 1 + m - (k + 1) = m by omega, show k + 1 + m - k = m + 1 by omega, List.getD_cons_succ]
        · rw [if_neg h, if_neg (by simp only [List.length_cons]; omega)]
    · funext a
      by_cases ha : a = k
      · subst ha; simp
      · by_cases h : k + 1 ≤ a ∧ a < k + 1 + t.length
        · rw [if_pos h, if_pos ⟨by omega, by simp only [List.length_cons]; omega⟩]
          obtain ⟨m, rfl⟩ : ∃ m, a = k + 1 + m := ⟨a - (k + 1), by omega⟩
          rw [show k + 1 + m - (k + 1) = m by omega, show k + 1 + m - k = m + 1 by omega, List.getD_cons_succ]
        · rw [if_neg h, if_neg ha, if_neg (by simp only [List.length_cons]; omega)]

/-- **C73** The rows of the system: first the conditions, then the normal equations that are left. -/
theorem C73_system (n : Nat) (bcs pts : List (K × K)) (i j : Nat) (hi : i < n) (hj : j < n) :
    (system n bcs pts).size = n ∧
    (system n bcs pts).lhs i j = (if i < bcs.length then (bcs.getD i 0).1 ^ j else (pts.map fun p => p.1 ^ (i + j)).sum) ∧
    (system n bcs pts).rhs i = (if i < bcs.length then (bcs.getD i 0).2 else (pts.map fun p => p.1 ^ i * p.2).sum) := by
  refine ⟨rfl, ?_, ?_⟩
  · simp only [system, conditions_fold, points_fold]
    by_cases h : i < bcs.length
    · simp [h, hj]
    · simp [h, hi, hj]
  · simp only [system, conditions_fold, points_fold]
    by_cases h : i < bcs.length
    · simp [h]
    · simp [h, hi]

/-! ## Least squares -/

theorem swap (n : Nat) (v : Nat → K) (pts : List (K × K)) (i : Nat) :
    ∑ j ∈ range n, (pts.map fun p => p.1 ^ (i + j)).sum * v j = (pts.map fun p => p.1 ^ i * poly n v p.1).sum := by
  induction pts with
  | nil => simp
  | cons p t ih =>
    simp only [List.map_cons, List.sum_cons, add_mul, Finset.sum_add_distrib, ih]
    congr 1
    rw [poly, Finset.mul_sum]
    exact Finset.sum_congr rfl fun j _ => by rw [pow_add]; ring

/-- The equation of row `i`, in words of the polynomial. -/
theorem row_iff (n : Nat) (bcs pts : List (K × K)) (v : Nat → K) (i : Nat) (hi : i < n) :
    (∑ j ∈ range n, (system n bcs pts).lhs i j * v j) =
      if i < bcs.length then poly n v (bcs.getD i 0).1 else (pts.map fun p => p.1 ^ i * poly n v p.1).sum := by
  have e : ∑ j ∈ range n, (system n bcs pts).lhs i j * v j =
      ∑ j ∈ range n, (if i < bcs.length then (bcs.getD i 0).1 ^ j else (pts.map fun p => p.1 ^ (i + j)).sum) * v j :=
    Finset.sum_congr rfl fun j hj => by rw [(C73_system n bcs pts i j hi (Finset.mem_range.mp hj)).2.1]
  rw [e]
  split
  · rw [poly]
    exact Finset.sum_congr rfl fun j _ => mul_comm _ _
  · exact swap n v pts i

/-- **C73** Conditions: whatever solves the system meets all of them. -/
theorem C73_conditions (n : Nat) (bcs pts : List (K × K)) (v : Nat → K) (hv : Solves (system n bcs pts) v)
    (i : Nat) (hi : i < bcs.length) (hn : bcs.length ≤ n) : poly n v (bcs.getD i 0).1 = (bcs.getD i 0).2 := by
  have h := hv i (by change i < n; omega)
  rw [show (system n bcs pts).size = n from rfl, row_iff n bcs pts v i (by omega), if_pos hi,
    (C73_system n bcs pts i i (by omega) (by omega)).2.2, if_pos hi] at h
  exact h

/-- **C73** A polynomial of the chosen degree that matches all support points and all conditions is reproduced. -/
theorem C73_reproduces (n : Nat) (bcs pts : List (K × K)) (v : Nat → K) (hp : ∀ p ∈ pts, p.2 = poly n v p.1)
    (hb : ∀ q ∈ bcs, q.2 = poly n v q.1) (hreg : Regular (system n bcs pts)) (c : Nat → K)
    (hc : Solves (system n bcs pts) c) : ∀ j < n, c j = v j := by
  have hv : Solves (system n bcs pts) v := by
    intro i hi
    have hi' : i < n := hi
    rw [show (system n bcs pts).size = n from rfl, row_iff n bcs pts v i hi', (C73_system n bcs pts i i hi' hi').2.2]
    split
    · rename_i h
      rw [List.getD_eq_getElem _ _ h]
      exact (hb _ (List.getElem_mem h)).symm
    · congr 1
      exact List.map_congr_left fun p hp' => by rw [hp p hp']
  intro j hj
  have := hreg (fun j => c j - v j) (fun i hi => by
    rw [Finset.sum_congr rfl fun j _ => mul_sub _ _ _, Finset.sum_sub_distrib, hc i hi, hv i hi, sub_self]) j hj
  exact sub_eq_zero.mp this

variable [LinearOrder K] [IsStrictOrderedRing K]

theorem poly_add (n : Nat) (c d : Nat → K) (t x : K) :
    poly n (fun i => c i + t * d i) x = poly n c x + t * poly n d x := by
  simp only [poly, Finset.mul_sum, ← Finset.sum_add_distrib]
  exact Finset.sum_congr rfl fun i _ => by ring

theorem err_add (n : Nat) (pts : List (K × K)) (c d : Nat → K) (t : K) :
    err n pts (fun i => c i + t * d i) = err n pts c - 2 * t * (pts.map fun p => (p.2 - poly n c p.1) * poly n d p.1).sum +
      t ^ 2 * (pts.map fun p => poly n d p.1 ^ 2).sum := by
  induction pts with
  | nil => simp [err]
  | cons p l ih =>
    simp only [err, List.map_cons, List.sum_cons, poly_add] at ih ⊢
    linear_combination ih

theorem residual_expand (n : Nat) (pts : List (K × K)) (r : K × K → K) (d : Nat → K) :
    (pts.map fun p => r p * poly n d p.1).sum = ∑ i ∈ range n, d i * (pts.map fun p => p.1 ^ i * r p).sum := by
  induction pts with
  | nil => simp
  | cons p l ih =>
    simp only [List.map_cons, List.sum_cons, mul_add, Finset.sum_add_distrib, ih]
    congr 1
    rw [poly, Finset.mul_sum]
    exact Finset.sum_congr rfl fun i _ => by ring

/-- the normal equations say that the residual is orthogonal to all powers -/
theorem solves_iff (n : Nat) (pts : List (K × K)) (c : Nat → K) :
    Solves (system n [] pts) c ↔ ∀ i < n, (pts.map fun p => p.1 ^ i * (p.2 - poly n c p.1)).sum = 0 := by
  refine forall_congr' fun i => forall_congr' fun hi => ?_
  have hi' : i < n := hi
  rw [show (system n [] pts).size = n from rfl, row_iff n [] pts c i hi', (C73_system n [] pts i i hi' hi').2.2]
  simp only [List.length_nil, Nat.not_lt_zero, if_false]
  have : (pts.map fun p => p.1 ^ i * (p.2 - poly n c p.1)).sum =
      (pts.map fun p => p.1 ^ i * p.2).sum - (pts.map fun p => p.1 ^ i * poly n c p.1).sum := by
    clear hi
    induction pts with
    | nil => simp
    | cons p l ih => simp only [List.map_cons, List.sum_cons, ih]; ring
  rw [this, sub_eq_zero, eq_comm]

/-- **C73** Without conditions: the coefficients solve the system if and only if no other polynomial of the degree has a
smaller sum of squared errors. -/
theorem C73_least_squares (n : Nat) (pts : List (K × K)) (c : Nat → K) :
    Solves (system n [] pts) c ↔ ∀ c' : Nat → K, err n pts c ≤ err n pts c' := by
  rw [solves_iff]
  have hsq : ∀ d : Nat → K, 0 ≤ (pts.map fun p => poly n d p.1 ^ 2).sum := by
    intro d
    apply List.sum_nonneg
    intro x hx
    obtain ⟨p, -, rfl⟩ := List.mem_map.mp hx
    exact sq_nonneg _
  constructor
  · intro h c'
    have e := err_add n pts c (fun i => c' i - c i) 1
    rw [residual_expand n pts (fun p => p.2 - poly n c p.1)] at e
    rw [Finset.sum_eq_zero fun i hi => by rw [h i (Finset.mem_range.mp hi), mul_zero]] at e
    have : (fun i => c i + 1 * (c' i - c i)) = c' := by funext i; ring
    rw [this] at e
    have := hsq fun i => c' i - c i
    rw [e]
    linarith
  · intro h i hi
    set d : Nat → K := fun j => if j = i then 1 else 0 with hd
    have hpd : ∀ x, poly n d x = x ^ i := by
      intro x
      rw [poly, Finset.sum_eq_single i]
      · simp [hd]
      · intro b _ hb; simp [hd, hb]
      · intro hn; exact absurd (Finset.mem_range.mpr hi) hn
    set A := (pts.map fun p => poly n d p.1 ^ 2).sum with hA
    set B := (pts.map fun p => (p.2 - poly n c p.1) * poly n d p.1).sum with hB
    have hA0 : 0 ≤ A := hsq d
    have hle := h fun j => c j + (B / (A + 1)) * d j
    rw [err_add, ← hA, ← hB] at hle
    have hA1 : 0 < A + 1 := by linarith
    have h2 : 0 ≤ B ^ 2 * (A - 2 * (A + 1)) := by
      have e : - (2 * (B / (A + 1)) * B) + (B / (A + 1)) ^ 2 * A = B ^ 2 * (A - 2 * (A + 1)) / (A + 1) ^ 2 := by
        field_simp; ring
      have : 0 ≤ B ^ 2 * (A - 2 * (A + 1)) / (A + 1) ^ 2 := by rw [← e]; linarith
      have hp : 0 < (A + 1) ^ 2 := by positivity
      rwa [le_div_iff₀ hp, zero_mul] at this
    have hB0 : B = 0 := by
      by_contra hne
      have : 0 < B ^ 2 := by positivity
      nlinarith
    rw [← hB0, hB]
    congr 1
    exact List.map_congr_left fun p _ => by rw [hpd]; ring

/-- **C73** With as many different abscissae as coefficients, the system without conditions is regular. -/
theorem C73_regular (n : Nat) (pts : List (K × K)) (S : Finset K) (hS : n ≤ S.card)
    (hsub : ∀ x ∈ S, ∃ p ∈ pts, p.1 = x) : Regular (system n [] pts) := by
  intro v hv j hj
  have h0 : (pts.map fun p => poly n v p.1 * poly n v p.1).sum = 0 := by
    rw [residual_expand n pts (fun p => poly n v p.1)]
    refine Finset.sum_eq_zero fun i hi => ?_
    have hi' := Finset.mem_range.mp hi
    have := hv i hi'
    rw [show (system n [] pts).size = n from rfl, row_iff n [] pts v i hi'] at this
    simp only [List.length_nil, Nat.not_lt_zero, if_false] at this
    rw [this, mul_zero]
  have hz : ∀ p ∈ pts, poly n v p.1 = 0 := by
    intro p hp
    have hall : ∀ x ∈ pts.map fun p => poly n v p.1 * poly n v p.1, 0 ≤ x := by
      intro x hx
      obtain ⟨q, -, rfl⟩ := List.mem_map.mp hx
      exact mul_self_nonneg _
    have hle := List.single_le_sum hall _ (List.mem_map.mpr ⟨p, hp, rfl⟩)
    rw [h0] at hle
    exact mul_self_eq_zero.mp (le_antisymm hle (mul_self_nonneg _))
  -- a polynomial of degree below `n` with `n` roots
  set P : Polynomial K := ∑ i ∈ range n, Polynomial.C (v i) * Polynomial.X ^ i with hP
  have heval : ∀ x, P.eval x = poly n v x := by
    intro x; simp [hP, poly, Polynomial.eval_finsetSum]
  have hcoeff : P.coeff j = v j := by
    simp only [hP, Polynomial.finsetSum_coeff, Polynomial.coeff_C_mul_X_pow]
    rw [Finset.sum_eq_single j]
    · simp
    · intro b _ hb; simp [Ne.symm hb]
    · intro hn; exact absurd (Finset.mem_range.mpr hj) hn
  have hdeg : P.degree < n := by
    refine lt_of_le_of_lt (Polynomial.degree_sum_le _ _) ?_
    rw [Finset.sup_lt_iff (by exact WithBot.bot_lt_coe n)]
    intro i hi
    exact lt_of_le_of_lt (Polynomial.degree_C_mul_X_pow_le _ _) (by exact_mod_cast Finset.mem_range.mp hi)
  have : P = 0 := by
    refine Polynomial.eq_zero_of_degree_lt_of_eval_finset_eq_zero S ?_ fun x hx => ?_
    · exact lt_of_lt_of_le hdeg (by exact_mod_cast hS)
    · obtain ⟨p, hp, rfl⟩ := hsub x hx
      rw [heval]; exact hz p hp
  rw [← hcoeff, this, Polynomial.coeff_zero]

/-! ## The object -/

theorem value_eq (n : Nat) (coeffs : List K) (x : K) : value n coeffs x = poly n (fun i => coeffs.getD i 0) x := by
  rw [value, poly]
  induction n with
  | zero => simp
  | succ n ih => rw [List.range_succ, List.foldl_append, ih, Finset.sum_range_succ]; rfl

/-- **C73** From the calls to the values: degree, support points, build, evaluate.  With enough different abscissae no
polynomial of the degree is nearer to the support points than the returned values' one. -/
theorem C73_fit (solver : System K → List K) (hs : Correct solver) (degree : Int) (hd : 0 ≤ degree) (xs ys : List K)
    (samples : Nat) (S : Finset K) (hS : degree + 1 ≤ S.card) (hsub : ∀ x ∈ S, ∃ k < samples, xs.getD k 0 = x) :
    ∃ s1 s2 s3 c, setDegree {} degree = .ok s1 ∧ setSupportPoints s1 1 1 [xs] [ys] samples samples = .ok s2 ∧
      build solver s2 = .ok s3 ∧ (∀ q, evaluate s3 [q] = .ok (q.map (poly (degree + 1).toNat c))) ∧
      ∀ c' : Nat → K, err (degree + 1).toNat (points xs ys samples) c ≤ err (degree + 1).toNat (points xs ys samples) c' := by
  have hreg : Regular (system (degree + 1).toNat [] (points xs ys samples)) := by
    refine C73_regular _ _ S (by omega) fun x hx => ?_
    obtain ⟨k, hk, rfl⟩ := hsub x hx
    exact ⟨_, List.mem_map.mpr ⟨k, List.mem_range.mpr hk, rfl⟩, rfl⟩
  obtain ⟨h1, h2⟩ := hs _ hreg
  have hn : ¬ degree < 0 := by omega
  refine ⟨_, _, ⟨degree, [], samples, [xs], [ys], solver (system (degree + 1).toNat [] (points xs ys samples))⟩,
    fun j => (solver (system (degree + 1).toNat [] (points xs ys samples))).getD j 0,
    if_neg hn, (by simp only [setSupportPoints, List.length_singleton, Nat.cast_one, ne_eq, not_true_eq_false, if_false]; rfl),
    ?_, fun q => ?_, (C73_least_squares _ _ _).mp h2⟩
  · simp only [build, List.length_singleton, ne_eq, not_true_eq_false, if_false, hn, List.length_nil,
      Nat.not_lt_zero, List.getElem?_cons_zero]
  · simp only [evaluate, h1]
    rw [if_neg (by change ¬ (((degree + 1).toNat : Int) ≠ degree + 1); omega)]
    congr 1
    exact List.map_congr_left fun x _ => value_eq _ _ x

/-- **C73** (partial) With conditions: they are met by the values, if the matrix is regular.  That the result is the best
among the polynomials that meet them is not true, see the counterexamples. -/
theorem C73_fit_partial (solver : System K → List K) (hs : Correct solver) (s : State K) (xs ys : List K) (hin : s.input = [xs])
    (hout : s.output = [ys]) (hd : 0 ≤ s.degree) (hbc : (s.conditions.length : Int) ≤ s.degree + 1)
    (hreg : Regular (system (s.degree + 1).toNat s.conditions (points xs ys s.samples))) :
    ∃ s', build solver s = .ok s' ∧ s'.degree = s.degree ∧ s'.conditions = s.conditions ∧
      evaluate s' [s.conditions.map Prod.fst] = .ok (s.conditions.map Prod.snd) := by
  obtain ⟨h1, h2⟩ := hs _ hreg
  refine ⟨{ s with coeffs := solver (system (s.degree + 1).toNat s.conditions (points xs ys s.samples)) }, ?_, rfl, rfl, ?_⟩
  · have hn : ¬ s.degree < 0 := by omega
    have hn2 : ¬ (s.degree + 1).toNat < s.conditions.length := by omega
    simp only [build, hout, hin, List.length_singleton, ne_eq, not_true_eq_false, if_false, hn, hn2,
      List.getElem?_cons_zero]
  · simp only [evaluate, h1]
    rw [if_neg (by change ¬ (((s.degree + 1).toNat : Int) ≠ s.degree + 1); omega)]
    congr 1
    rw [List.map_map]
    refine List.map_congr_left fun q hq => ?_
    obtain ⟨i, hi, rfl⟩ := List.getElem_of_mem hq
    have := C73_conditions _ s.conditions _ _ h2 i hi (by omega)
    rw [List.getD_eq_getElem _ _ hi] at this
    rw [Function.comp_apply, value_eq]
    exact this

/-- **C73** The fit is rejected exactly if the output does not have one dimension or no degree has been set; no result of it
is given before. -/
theorem C73_rejects (solver : System K → List K) (s : State K) :
    build solver s = .throw ↔ s.output.length ≠ 1 ∨ s.degree < 0 := by
  unfold build
  constructor
  · intro h
    by_contra hn
    push Not at hn
    rw [if_neg (not_not.2 hn.1), if_neg (by omega)] at h
    revert h
    dsimp only
    split
    · exact fun h => nomatch h
    · split
      · exact fun h => nomatch h
      · split <;> exact fun h => nomatch h
      · exact fun h => nomatch h
  · intro h
    by_cases h1 : s.output.length ≠ 1
    · rw [if_pos h1]
    · rw [if_neg h1, if_pos (h.resolve_left h1)]

/-- Output of two dimensions is rejected, output of one dimension is not. -/
example (solver : System ℚ → List ℚ) :
    build solver { degree := 1, samples := 1, input := [[0]], output := [[0], [1]] } = .throw ∧
      build solver { degree := 1, samples := 1, input := [[0]], output := [[0]] } ≠ .throw := by
  rw [ne_eq, C73_rejects, C73_rejects]
  simp

/-- **C73** The number of conditions: at most `degree` many are accepted after the degree has been set, none before. -/
theorem C73_add_condition (s : State K) (bc : K × K) :
    ((s.conditions.length : Int) < s.degree → ∃ s', addCondition s bc = .ok s' ∧ s'.conditions = s.conditions ++ [bc] ∧
      s'.degree = s.degree ∧ (s'.conditions.length : Int) ≤ s'.degree) ∧
    (s.degree ≤ s.conditions.length → addCondition s bc = .throw) := by
  constructor
  · intro h
    refine ⟨{ s with conditions := s.conditions ++ [bc] }, if_pos h, rfl, rfl, ?_⟩
    simp; omega
  · intro h; exact if_neg (by omega)

/-- **C73** A straight line through `(1, 0)` for the points `(0, 1)` and `(2, 1)`: the system is regular and gives `x - 1`
with squared error 4, but the line `0` also meets the condition and has squared error 2. -/
theorem C73_constrained_counterexample :
    Regular (system 2 [((1 : ℚ), 0)] [(0, 1), (2, 1)]) ∧
    Solves (system 2 [((1 : ℚ), 0)] [(0, 1), (2, 1)]) (fun j => if j = 0 then -1 else 1) ∧
    err 2 [((0 : ℚ), 1), (2, 1)] (fun j => if j = 0 then -1 else 1) = 4 ∧
    poly 2 (fun _ => (0 : ℚ)) 1 = 0 ∧ err 2 [((0 : ℚ), 1), (2, 1)] (fun _ => 0) = 2 := by
  have e : ∀ v : Nat → ℚ, (∑ j ∈ range 2, (system 2 [((1 : ℚ), 0)] [(0, 1), (2, 1)]).lhs 0 j * v j = v 0 + v 1) ∧
      (∑ j ∈ range 2, (system 2 [((1 : ℚ), 0)] [(0, 1), (2, 1)]).lhs 1 j * v j = 2 * v 0 + 4 * v 1) := by
    intro v
    rw [row_iff _ _ _ _ _ (by omega), row_iff _ _ _ _ _ (by omega)]
    simp only [poly, Finset.sum_range_succ, Finset.sum_range_zero]
    constructor
    · simp
    · simp; ring
  refine ⟨fun v hv j hj => ?_, fun i hi => ?_, ?_, ?_, ?_⟩
  · have h0 := hv 0 (by decide)
    have h1 := hv 1 (by decide)
    change ∑ j ∈ range 2, _ = _ at h0
    change ∑ j ∈ range 2, _ = _ at h1
    rw [(e v).1] at h0
    rw [(e v).2] at h1
    have hj' : j < 2 := hj
    have : j = 0 ∨ j = 1 := by omega
    rcases this with rfl | rfl <;> linarith
  · have hi' : i < 2 := hi
    change ∑ j ∈ range 2, _ = _
    have : i = 0 ∨ i = 1 := by omega
    rcases this with rfl | rfl
    · rw [(e _).1, (C73_system 2 _ _ 0 0 (by omega) (by omega)).2.2]; simp
    · rw [(e _).2, (C73_system 2 _ _ 1 1 (by omega) (by omega)).2.2]; simp; norm_num
  · simp [err, poly, Finset.sum_range_succ]; norm_num
  · simp [poly]
  · simp [err, poly]; norm_num

/-- **C73** For the points `(0, 1)` and `(1, 1)` and the same condition, the best line is unique (its slope minimises
`(1 + s)² + 1`), but the matrix is singular. -/
theorem C73_singular_counterexample :
    ¬ Regular (system 2 [((1 : ℚ), 0)] [(0, 1), (1, 1)]) ∧
    ∀ s : ℚ, poly 2 (fun j => if j = 0 then -s else s) 1 = 0 ∧
      err 2 [((0 : ℚ), 1), (1, 1)] (fun j => if j = 0 then -s else s) = (1 + s) ^ 2 + 1 := by
  constructor
  · intro h
    have := h (fun j => if j = 0 then -1 else 1) (fun i hi => by
      have hi' : i < 2 := hi
      change ∑ j ∈ range 2, _ = _
      have : i = 0 ∨ i = 1 := by omega
      rcases this with rfl | rfl <;> rw [row_iff _ _ _ _ _ (by omega)] <;>
        simp [poly, Finset.sum_range_succ]) 0 (by decide)
    simp at this
  · intro s
    simp [err, poly, Finset.sum_range_succ]

/-- **C73** Lowering the degree after conditions have been accepted is not noticed: building the system then writes outside of
the matrix. -/
theorem C73_degree_counterexample (solver : System ℚ → List ℚ) :
    (do
      let s ← setDegree {} 2
      let s ← addCondition s (0, 0)
      let s ← addCondition s (1, 1)
      let s ← setDegree s 0
      let s ← setSupportPoints s 1 1 [[0, 1]] [[0, 1]] 2 2
      build solver s) = .ub := rfl

/-- **C73** `SetSupportPoints` takes matrices of the given numbers of rows with the same number of columns, and throws
otherwise. -/
theorem C73_support_points (s : State K) (dimInput dimOutput : Int) (input output : List (List K)) (colsIn colsOut : Nat) :
    (dimInput = input.length ∧ dimOutput = output.length ∧ colsIn = colsOut →
      ∃ s', setSupportPoints s dimInput dimOutput input output colsIn colsOut = .ok s' ∧ s'.samples = colsIn ∧
        s'.input = input ∧ s'.output = output ∧ s'.degree = s.degree) ∧
    (¬ (dimInput = input.length ∧ dimOutput = output.length ∧ colsIn = colsOut) →
      setSupportPoints s dimInput dimOutput input output colsIn colsOut = .throw) := by
  unfold setSupportPoints
  constructor
  · rintro ⟨h1, h2, h3⟩
    rw [if_neg (not_not.2 h1), if_neg (not_not.2 h2), if_neg (not_not.2 h3.symm)]
    exact ⟨_, rfl, rfl, rfl, rfl, rfl⟩
  · intro h
    by_cases h1 : dimInput = input.length
    · by_cases h2 : dimOutput = output.length
      · rw [if_neg (not_not.2 h1), if_neg (not_not.2 h2), if_pos fun h3 => h ⟨h1, h2, h3.symm⟩]
      · rw [if_neg (not_not.2 h1), if_pos h2]
    · rw [if_pos h1]

/-- A parabola through `(0, 0)`, `(1, 1)`, `(2, 4)` is reproduced; the hypotheses of `C73_fit` hold. -/
example : (∀ x ∈ ({0, 1, 2} : Finset ℚ), ∃ k < 3, [(0 : ℚ), 1, 2].getD k 0 = x) ∧ ((2 : Int) + 1 ≤ ({0, 1, 2} : Finset ℚ).card) := by
  refine ⟨fun x hx => ?_, by decide +kernel⟩
  simp only [Finset.mem_insert, Finset.mem_singleton] at hx
  rcases hx with rfl | rfl | rfl
  · exact ⟨0, by omega, rfl⟩
  · exact ⟨1, by omega, rfl⟩
  · exact ⟨2, by omega, rfl⟩

end LeastSquares

end NuTo
