/-
C42: linear table interpolation.  C66: cubic splines.
-/
import Verif.Model.Tables
import Mathlib.Algebra.Order.Field.Basic
import Mathlib.Analysis.Calculus.Deriv.Basic
import Mathlib.Analysis.Calculus.Deriv.Add
import Mathlib.Analysis.Calculus.Deriv.Mul
import Mathlib.Analysis.Calculus.Deriv.Pow
import Mathlib.Data.List.Sort
import Mathlib.Tactic.Linarith
import Mathlib.Tactic.FieldSimp
import Mathlib.Tactic.Ring
import Mathlib.Tactic.NormNum
import Mathlib.Tactic.LinearCombination

set_option linter.unusedSectionVars false

namespace NuTo.Table

section Field

variable {K : Type} [Field K] [LinearOrder K] [IsStrictOrderedRing K]

/-- Specification: the abscissae of a table increase. -/
def Increasing (t : List (K × K)) : Prop := t.Pairwise fun (a b : K × K) => a.1 < b.1

theorem Increasing.lt {t : List (K × K)} (h : Increasing t) {i j : Nat} {a b : K × K} (hi : t[i]? = some a)
    (hj : t[j]? = some b) (hij : i < j) : a.1 < b.1 := by
  obtain ⟨hi', rfl⟩ := List.getElem?_eq_some_iff.1 hi
  obtain ⟨hj', rfl⟩ := List.getElem?_eq_some_iff.1 hj
  exact List.pairwise_iff_getElem.1 h i j hi' hj' hij

theorem Increasing.le {t : List (K × K)} (h : Increasing t) {i j : Nat} {a b : K × K} (hi : t[i]? = some a)
    (hj : t[j]? = some b) (hij : i ≤ j) : a.1 ≤ b.1 := by
  rcases hij.lt_or_eq with hij | rfl
  · exact (h.lt hi hj hij).le
  · rw [hi, Option.some.injEq] at hj; rw [hj]

/-- C42: the constructor of a table with distinct abscissae keeps exactly the given points, ordered by
increasing abscissa; this order is unique.  Fewer points than neighbours raise. -/
theorem C42_constructor (data : List (K × K)) (n : Nat) (hd : data.Pairwise fun (a b : K × K) => a.1 ≠ b.1) :
    (∃ r, Constructs data n r) ∧ (∀ r, Constructs data n r → (r = .throw ↔ data.length < n)) ∧
      (∀ t, Constructs data n (.ok t) → Increasing t ∧ ∀ p, p ∈ t ↔ p ∈ data) ∧
      ∀ t t', Constructs data n (.ok t) → Constructs data n (.ok t') → t = t' := by
  have hinc : ∀ t, Constructs data n (.ok t) → Increasing t := by
    intro t ht
    obtain ⟨_, h2, h3⟩ := ht
    have h4 : t.Pairwise fun (a b : K × K) => a.1 ≠ b.1 := by
      refine h2.symm.pairwise hd ?_
      intro a b h
      exact h.symm
    exact (h3.and h4).imp fun ⟨h, h'⟩ => lt_of_le_of_ne h h'
  refine ⟨?_, ?_, fun t ht => ⟨hinc t ht, fun p => ht.2.1.mem_iff⟩, ?_⟩
  · by_cases h : data.length < n
    · exact ⟨.throw, h⟩
    · refine ⟨.ok (data.insertionSort fun (a b : K × K) => a.1 ≤ b.1), not_lt.1 h,
        List.perm_insertionSort _ _, ?_⟩
      have : Std.Total fun (a b : K × K) => a.1 ≤ b.1 := ⟨fun a b => le_total a.1 b.1⟩
      have : IsTrans (K × K) fun (a b : K × K) => a.1 ≤ b.1 := ⟨fun a b c => le_trans⟩
      exact List.pairwise_insertionSort _ _
  · intro r hr
    cases r with
    | ok t => simpa using hr.1
    | throw => simp only [true_iff]; exact hr
    | ub => exact absurd hr id
  · intro t t' ht ht'
    refine (ht.2.1.trans ht'.2.1.symm).eq_of_pairwise (le := fun (a b : K × K) => a.1 < b.1) ?_ (hinc t ht) (hinc t' ht')
    intro a b _ _ h1 h2
    exact absurd h1 (lt_asymm h2)

theorem bisectLoop_spec (t : List (K × K)) (x : K) (lower upper : Nat) (hlu : lower < upper)
    (hu : upper < t.length) (hl : lower = 0 ∨ ∃ a, t[lower]? = some a ∧ a.1 < x)
    (hx : ∃ b, t[upper]? = some b ∧ x ≤ b.1) :
    ∃ i, bisectLoop t x lower upper = .ok i ∧ i + 1 < t.length ∧
      (i = 0 ∨ ∃ a, t[i]? = some a ∧ a.1 < x) ∧ ∃ b, t[i + 1]? = some b ∧ x ≤ b.1 := by
  induction lower, upper using bisectLoop.induct (mData := t) (x := x) with
  | case1 lower upper h pivot e he hgt ih =>
    rw [bisectLoop, dif_pos h]
    simp only [he, if_pos hgt, pivot] at ih ⊢
    exact ih (by omega) hu (Or.inr ⟨e, rfl, hgt⟩) hx
  | case2 lower upper h pivot e he hgt ih =>
    rw [bisectLoop, dif_pos h]
    simp only [he, if_neg hgt, pivot] at ih ⊢
    exact ih (by omega) (by omega) hl ⟨e, rfl, not_lt.1 hgt⟩
  | case3 lower upper h pivot he =>
    rw [List.getElem?_eq_none_iff] at he
    omega
  | case4 lower upper h =>
    have : upper = lower + 1 := by omega
    subst this
    exact ⟨lower, by rw [bisectLoop, dif_neg h], hu, hl, hx⟩

/-- Within the range the bisection finds neighbouring points that contain `x`. -/
theorem bisection_spec (t : List (K × K)) (x : K) (h2 : 2 ≤ t.length) (a b : K × K) (ha : t.head? = some a)
    (hb : t.getLast? = some b) (hxa : a.1 ≤ x) (hxb : x ≤ b.1) :
    ∃ i p q, bisection t 2 x = .ok i ∧ t[i]? = some p ∧ t[i + 1]? = some q ∧ p.1 ≤ x ∧ x ≤ q.1 ∧
      (0 < i → p.1 < x) := by
  rw [List.head?_eq_getElem?] at ha
  rw [List.getLast?_eq_getElem?] at hb
  obtain ⟨i, h3, h4, h5, q, h6, h7⟩ := bisectLoop_spec t x 0 (t.length - 1) (by omega) (by omega) (Or.inl rfl)
    ⟨b, hb, hxb⟩
  have hp : t[i]? = some t[i] := List.getElem?_eq_getElem (by omega)
  refine ⟨i, t[i], q, ?_, hp, h6, ?_, h7, ?_⟩
  · rw [bisection, if_neg (by omega), h3]; rfl
  · rcases h5 with h5 | ⟨a', h5, h8⟩
    · subst h5
      rw [hp, Option.some.injEq] at ha
      rw [ha]; exact hxa
    · rw [hp, Option.some.injEq] at h5
      rw [h5]; exact h8.le
  · intro hi
    rcases h5 with h5 | ⟨a', h5, h8⟩
    · omega
    · rw [hp, Option.some.injEq] at h5
      rw [h5]; exact h8

theorem outOfRange_eq (t : List (K × K)) (x : K) (a b : K × K) (ha : t.head? = some a)
    (hb : t.getLast? = some b) : outOfRange t x = .ok (decide (x < a.1 ∨ x > b.1)) := by
  rw [outOfRange, ha, hb]

theorem slope_eq (t : List (K × K)) (i : Nat) (p q : K × K) (hp : t[i]? = some p) (hq : t[i + 1]? = some q)
    (h : p.1 < q.1) : slope t i = .ok ((q.2 - p.2) / (q.1 - p.1)) := by
  rw [slope, entry, entry, hp, hq]
  simp only [Res.bind_ok', safeDiv, if_neg (sub_pos.2 h).ne']

/-- C42: for `x` in the range there are neighbouring points containing `x` whose chord gives the value
and whose slope is the derivative. -/
theorem C42_chord (t : List (K × K)) (ht : Increasing t) (h2 : 2 ≤ t.length) (a b : K × K) (ha : t.head? = some a)
    (hb : t.getLast? = some b) (x : K) (hxa : a.1 ≤ x) (hxb : x ≤ b.1) :
    ∃ i p q, t[i]? = some p ∧ t[i + 1]? = some q ∧ p.1 ≤ x ∧ x ≤ q.1 ∧ (0 < i → p.1 < x) ∧
      linear t x = .ok (p.2 + (q.2 - p.2) * ((x - p.1) / (q.1 - p.1))) ∧
      linearDerivative t x = .ok ((q.2 - p.2) / (q.1 - p.1)) := by
  obtain ⟨i, p, q, h3, h4, h5, h6, h7, h8⟩ := bisection_spec t x h2 a b ha hb hxa hxb
  have hlt : p.1 < q.1 := ht.lt h4 h5 (by omega)
  have hs := slope_eq t i p q h4 h5 hlt
  have ho : outOfRange t x = .ok false := by
    rw [outOfRange_eq t x a b ha hb, decide_eq_false]
    exact not_or.2 ⟨not_lt.2 hxa, not_lt.2 hxb⟩
  refine ⟨i, p, q, h4, h5, h6, h7, h8, ?_, ?_⟩
  · rw [linear, ho]
    simp only [Res.bind_ok', Bool.false_eq_true, if_false, h3, hs, entry, h4]
    congr 1
    ring
  · rw [linearDerivative, ho]
    simp only [Res.bind_ok', Bool.false_eq_true, if_false, h3, hs]

/-- C42: the points of the table are reproduced. -/
theorem C42_reproduces (t : List (K × K)) (ht : Increasing t) (h2 : 2 ≤ t.length) (p : K × K) (hp : p ∈ t) :
    linear t p.1 = .ok p.2 := by
  obtain ⟨j, hj⟩ := List.mem_iff_getElem?.1 hp
  have hlen : 0 < t.length := by omega
  have ha : t.head? = some t[0] := by rw [List.head?_eq_getElem?, List.getElem?_eq_getElem hlen]
  have hb : t.getLast? = some t[t.length - 1] := by
    rw [List.getLast?_eq_getElem?, List.getElem?_eq_getElem (by omega)]
  have hjl : j < t.length := (List.getElem?_eq_some_iff.1 hj).1
  have h0 : t[0]? = some t[0] := List.getElem?_eq_getElem hlen
  have h1 : t[t.length - 1]? = some t[t.length - 1] := List.getElem?_eq_getElem (by omega)
  obtain ⟨i, u, v, h3, h4, h5, h6, h7, h8, _⟩ := C42_chord t ht h2 _ _ ha hb p.1 (ht.le h0 hj (by omega))
    (ht.le hj h1 (by omega))
  have hlt : u.1 < v.1 := ht.lt h3 h4 (by omega)
  rw [h8]
  have hij : j = i ∨ j = i + 1 := by
    rcases Nat.lt_trichotomy j i with h | h | h
    · exact absurd h5 (not_le.2 (ht.lt hj h3 h))
    · exact Or.inl h
    · rcases Nat.lt_trichotomy j (i + 1) with h' | h' | h'
      · omega
      · exact Or.inr h'
      · exact absurd h6 (not_le.2 (ht.lt h4 hj h'))
  rcases hij with rfl | rfl
  · rw [hj, Option.some.injEq] at h3
    rw [h3, sub_self, zero_div, mul_zero, add_zero]
  · rw [hj, Option.some.injEq] at h4
    rw [h4, div_self (sub_pos.2 hlt).ne', mul_one, add_sub_cancel]

/-- C42: the value lies between the values of the neighbouring points. -/
theorem C42_between (t : List (K × K)) (ht : Increasing t) (i : Nat) (p q : K × K) (hp : t[i]? = some p)
    (hq : t[i + 1]? = some q) (x : K) (hpx : p.1 ≤ x) (hxq : x ≤ q.1) :
    ∃ y, linear t x = .ok y ∧ min p.2 q.2 ≤ y ∧ y ≤ max p.2 q.2 := by
  have hi : i + 1 < t.length := (List.getElem?_eq_some_iff.1 hq).1
  have hlen : 0 < t.length := by omega
  have ha : t.head? = some t[0] := by rw [List.head?_eq_getElem?, List.getElem?_eq_getElem hlen]
  have hb : t.getLast? = some t[t.length - 1] := by
    rw [List.getLast?_eq_getElem?, List.getElem?_eq_getElem (by omega)]
  have h0 : t[0]? = some t[0] := List.getElem?_eq_getElem hlen
  have h1 : t[t.length - 1]? = some t[t.length - 1] := List.getElem?_eq_getElem (by omega)
  have key : ∀ (u v : K × K), u.1 < v.1 → u.1 ≤ x → x ≤ v.1 →
      min u.2 v.2 ≤ u.2 + (v.2 - u.2) * ((x - u.1) / (v.1 - u.1)) ∧
      u.2 + (v.2 - u.2) * ((x - u.1) / (v.1 - u.1)) ≤ max u.2 v.2 := by
    intro u v huv hu hv
    have hs0 : 0 ≤ (x - u.1) / (v.1 - u.1) := div_nonneg (by linarith) (by linarith)
    have hs1 : (x - u.1) / (v.1 - u.1) ≤ 1 := by rw [div_le_one (by linarith)]; linarith
    generalize (x - u.1) / (v.1 - u.1) = s at hs0 hs1
    rcases le_total u.2 v.2 with h | h
    · rw [min_eq_left h, max_eq_right h]
      constructor <;> nlinarith
    · rw [min_eq_right h, max_eq_left h]
      constructor <;> nlinarith
  by_cases hxp : x = p.1
  · refine ⟨p.2, ?_, min_le_left _ _, le_max_left _ _⟩
    rw [hxp]
    exact C42_reproduces t ht (by omega) p (List.mem_of_getElem? hp)
  obtain ⟨j, u, v, h3, h4, h5, h6, h7, h8, _⟩ := C42_chord t ht (by omega) _ _ ha hb x
    ((ht.le h0 hp (by omega)).trans hpx) (hxq.trans (ht.le hq h1 (by omega)))
  have hji : j = i := by
    rcases Nat.lt_trichotomy j i with h | h | h
    · exact absurd (le_antisymm (h6.trans (ht.le h4 hp (by omega))) hpx) hxp
    · exact h
    · have := h7 (by omega)
      have h9 := ht.le hq h3 (by omega)
      exact absurd (hxq.trans h9) (not_le.2 this)
  subst hji
  rw [hp, Option.some.injEq] at h3
  rw [hq, Option.some.injEq] at h4
  subst h3 h4
  exact ⟨_, h8, key p q (ht.lt hp hq (by omega)) hpx hxq⟩

/-- C42: outside the range value and derivative raise. -/
theorem C42_outside (t : List (K × K)) (a b : K × K) (ha : t.head? = some a) (hb : t.getLast? = some b) (x : K)
    (hx : x < a.1 ∨ b.1 < x) : linear t x = .throw ∧ linearDerivative t x = .throw := by
  have ho : outOfRange t x = .ok true := by
    rw [outOfRange_eq t x a b ha hb, decide_eq_true hx]
  constructor
  · rw [linear, ho]; rfl
  · rw [linearDerivative, ho]; rfl

/-! ### Splines -/

/-- C66: read literally, the constructor of the cubic spline is undefined for every table: memory is
only reserved. -/
theorem C66_constructor_counterexample (t : List (K × K)) : splineStrict t = .ub := rfl

/-- Abscissae and ordinates of a table. -/
def xs (t : List (K × K)) (i : Nat) : K := (t.getD i (0, 0)).1
def ys (t : List (K × K)) (i : Nat) : K := (t.getD i (0, 0)).2

theorem Increasing.xs_lt {t : List (K × K)} (ht : Increasing t) {i j : Nat} (hij : i < j) (hj : j < t.length) :
    xs t i < xs t j := by
  unfold xs
  rw [List.getD_eq_getElem?_getD, List.getD_eq_getElem?_getD, List.getElem?_eq_getElem hj,
    List.getElem?_eq_getElem (hij.trans hj)]
  exact List.pairwise_iff_getElem.1 ht i j (hij.trans hj) hj hij

theorem splineUp_bounds {t : List (K × K)} (ht : Increasing t) (i : Nat) (hi : i + 1 < t.length) :
    -1 < (splineUp (fun i => t.getD i (0, 0)) i).1 ∧ (splineUp (fun i => t.getD i (0, 0)) i).1 ≤ 0 := by
  induction i with
  | zero => simp [splineUp]
  | succ i ih =>
    obtain ⟨h1, h2⟩ := ih (by omega)
    rw [splineUp, splineForward]
    dsimp only
    rw [Nat.add_sub_cancel]
    have ha : xs t i < xs t (i + 1) := ht.xs_lt (by omega) (by omega)
    have hb : xs t (i + 1) < xs t (i + 1 + 1) := ht.xs_lt (by omega) (by omega)
    change -1 < ((xs t (i + 1) - xs t i) / (xs t (i + 1 + 1) - xs t i) - 1) /
        ((xs t (i + 1) - xs t i) / (xs t (i + 1 + 1) - xs t i) * _ + 2) ∧
      ((xs t (i + 1) - xs t i) / (xs t (i + 1 + 1) - xs t i) - 1) /
        ((xs t (i + 1) - xs t i) / (xs t (i + 1 + 1) - xs t i) * _ + 2) ≤ 0
    have hs0 : 0 < (xs t (i + 1) - xs t i) / (xs t (i + 1 + 1) - xs t i) := div_pos (by linarith) (by linarith)
    have hs1 : (xs t (i + 1) - xs t i) / (xs t (i + 1 + 1) - xs t i) < 1 := by
      rw [div_lt_one (by linarith)]; linarith
    generalize (xs t (i + 1) - xs t i) / (xs t (i + 1 + 1) - xs t i) = s at hs0 hs1
    generalize (splineUp (fun i => t.getD i (0, 0)) i).1 = z at h1 h2
    have hp : 1 < s * z + 2 := by nlinarith
    constructor
    · rw [lt_div_iff₀ (by linarith)]; nlinarith
    · exact div_nonpos_of_nonpos_of_nonneg (by linarith) (by linarith)

/-- The pivots of the elimination do not vanish. -/
theorem spline_pivot {t : List (K × K)} (ht : Increasing t) (i : Nat) (hi : i + 2 < t.length) :
    0 < (xs t (i + 1) - xs t i) / (xs t (i + 2) - xs t i) * (splineUp (fun i => t.getD i (0, 0)) i).1 + 2 := by
  obtain ⟨h1, h2⟩ := splineUp_bounds ht i (by omega)
  have ha : xs t i < xs t (i + 1) := ht.xs_lt (by omega) (by omega)
  have hb : xs t (i + 1) < xs t (i + 2) := ht.xs_lt (by omega) (by omega)
  have hs0 : 0 < (xs t (i + 1) - xs t i) / (xs t (i + 2) - xs t i) := div_pos (by linarith) (by linarith)
  have hs1 : (xs t (i + 1) - xs t i) / (xs t (i + 2) - xs t i) < 1 := by
    rw [div_lt_one (by linarith)]; linarith
  generalize (xs t (i + 1) - xs t i) / (xs t (i + 2) - xs t i) = s at hs0 hs1
  nlinarith

theorem splineDdy_last (t : List (K × K)) : splineDdy t (t.length - 1) = 0 := by
  rw [splineDdy, Nat.sub_self]; rfl

theorem splineDdy_zero (t : List (K × K)) : splineDdy t 0 = 0 := by
  rw [splineDdy, Nat.sub_zero]
  rcases hn : t.length - 1 with _ | k
  · rfl
  · rw [splineBack, hn, Nat.sub_self, if_pos rfl]

theorem splineDdy_back (t : List (K × K)) (k : Nat) (hk : k + 1 < t.length) (h0 : 0 < k) :
    splineDdy t k = (splineUp (fun i => t.getD i (0, 0)) k).1 * splineDdy t (k + 1) +
      (splineUp (fun i => t.getD i (0, 0)) k).2 := by
  rw [splineDdy, splineDdy, show t.length - 1 - k = (t.length - 1 - (k + 1)) + 1 by omega, splineBack,
    show t.length - 1 - (t.length - 1 - (k + 1) + 1) = k by omega, if_neg (by omega)]

/-- C66: the computed second derivatives solve the natural spline equations: zero at both ends and
continuous first derivatives at the inner points. -/
theorem C66_moments (t : List (K × K)) (ht : Increasing t) :
    splineDdy t 0 = 0 ∧ splineDdy t (t.length - 1) = 0 ∧ ∀ i, i + 2 < t.length →
      (xs t (i + 1) - xs t i) * splineDdy t i + 2 * (xs t (i + 2) - xs t i) * splineDdy t (i + 1) +
        (xs t (i + 2) - xs t (i + 1)) * splineDdy t (i + 2) =
      6 * ((ys t (i + 2) - ys t (i + 1)) / (xs t (i + 2) - xs t (i + 1)) -
        (ys t (i + 1) - ys t i) / (xs t (i + 1) - xs t i)) := by
  refine ⟨splineDdy_zero t, splineDdy_last t, ?_⟩
  intro i hi
  have ha : xs t i < xs t (i + 1) := ht.xs_lt (by omega) (by omega)
  have hb : xs t (i + 1) < xs t (i + 2) := ht.xs_lt (by omega) (by omega)
  have hL : xs t (i + 2) - xs t i ≠ 0 := by linarith
  -- the entry before
  have h0 : splineDdy t i = (splineUp (fun i => t.getD i (0, 0)) i).1 * splineDdy t (i + 1) +
      (splineUp (fun i => t.getD i (0, 0)) i).2 := by
    rcases Nat.eq_zero_or_pos i with rfl | h
    · rw [splineDdy_zero]; simp [splineUp]
    · exact splineDdy_back t i (by omega) h
  have h1 := splineDdy_back t (i + 1) (by omega) (by omega)
  have hp := (spline_pivot ht i hi).ne'
  rw [splineUp, splineForward] at h1
  dsimp only at h1
  rw [Nat.add_sub_cancel] at h1
  set z := (splineUp (fun i => t.getD i (0, 0)) i).1 with hz
  set v := (splineUp (fun i => t.getD i (0, 0)) i).2 with hv
  change splineDdy t (i + 1) = ((xs t (i + 1) - xs t i) / (xs t (i + 2) - xs t i) - 1) /
      ((xs t (i + 1) - xs t i) / (xs t (i + 2) - xs t i) * z + 2) * splineDdy t (i + 2) +
    (6 * ((ys t (i + 2) - ys t (i + 1)) / (xs t (i + 2) - xs t (i + 1)) -
        (ys t (i + 1) - ys t i) / (xs t (i + 1) - xs t i)) / (xs t (i + 2) - xs t i) -
      (xs t (i + 1) - xs t i) / (xs t (i + 2) - xs t i) * v) /
      ((xs t (i + 1) - xs t i) / (xs t (i + 2) - xs t i) * z + 2) at h1
  generalize (ys t (i + 2) - ys t (i + 1)) / (xs t (i + 2) - xs t (i + 1)) -
        (ys t (i + 1) - ys t i) / (xs t (i + 1) - xs t i) = u at h1 ⊢
  have hs : (xs t (i + 1) - xs t i) = (xs t (i + 1) - xs t i) / (xs t (i + 2) - xs t i) * (xs t (i + 2) - xs t i) := by
    rw [div_mul_cancel₀ _ hL]
  generalize hsd : (xs t (i + 1) - xs t i) / (xs t (i + 2) - xs t i) = s at h1 hs hp
  have e1 : splineDdy t (i + 1) * (s * z + 2) = (s - 1) * splineDdy t (i + 2) +
      (6 * u / (xs t (i + 2) - xs t i) - s * v) := by
    rw [h1]; field_simp
  have e2 : 6 * u / (xs t (i + 2) - xs t i) * (xs t (i + 2) - xs t i) = 6 * u := div_mul_cancel₀ _ hL
  generalize 6 * u / (xs t (i + 2) - xs t i) = w at e1 e2
  rw [h0]
  linear_combination (xs t (i + 2) - xs t i) * e1 + e2 +
    (z * splineDdy t (i + 1) + v - splineDdy t (i + 2)) * hs

/-- C66: on the interval between two points the spline takes the values of the table at both ends. -/
theorem C66_interpolates (t : List (K × K)) (ht : Increasing t) (i : Nat) (hi : i + 1 < t.length) :
    splineValue t i (xs t i) = ys t i ∧ splineValue t i (xs t (i + 1)) = ys t (i + 1) := by
  have ha : xs t i < xs t (i + 1) := ht.xs_lt (by omega) (by omega)
  have hL : xs t (i + 1) - xs t i ≠ 0 := by linarith
  constructor
  · change (xs t (i + 1) - xs t i) / (xs t (i + 1) - xs t i) * ys t i +
      (xs t i - xs t i) / (xs t (i + 1) - xs t i) * ys t (i + 1) + _ = _
    simp only [xs] at hL ⊢
    rw [div_self hL, sub_self, zero_div]
    ring
  · change (xs t (i + 1) - xs t (i + 1)) / (xs t (i + 1) - xs t i) * ys t i +
      (xs t (i + 1) - xs t i) / (xs t (i + 1) - xs t i) * ys t (i + 1) + _ = _
    simp only [xs] at hL ⊢
    rw [div_self hL, sub_self, zero_div]
    ring

/-- C66: in the range the spline is evaluated on an interval that contains `x`; the points of the table
are reproduced. -/
theorem C66_value (t : List (K × K)) (ht : Increasing t) (h2 : 2 ≤ t.length) (x : K) (hxa : xs t 0 ≤ x)
    (hxb : x ≤ xs t (t.length - 1)) :
    ∃ i, i + 1 < t.length ∧ xs t i ≤ x ∧ x ≤ xs t (i + 1) ∧ spline t x = .ok (splineValue t i x) := by
  have hlen : 0 < t.length := by omega
  have hg : ∀ i, i < t.length → t[i]? = some (t.getD i (0, 0)) := by
    intro i hi
    rw [List.getD_eq_getElem?_getD, List.getElem?_eq_getElem hi]; rfl
  have ha : t.head? = some (t.getD 0 (0, 0)) := by rw [List.head?_eq_getElem?, hg 0 hlen]
  have hb : t.getLast? = some (t.getD (t.length - 1) (0, 0)) := by
    rw [List.getLast?_eq_getElem?, hg _ (by omega)]
  obtain ⟨i, p, q, h3, h4, h5, h6, h7, _⟩ := bisection_spec t x h2 _ _ ha hb hxa hxb
  have hi : i + 1 < t.length := (List.getElem?_eq_some_iff.1 h5).1
  have hs := slope_eq t i p q h4 h5 (ht.lt h4 h5 (by omega))
  rw [hg i (by omega), Option.some.injEq] at h4
  rw [hg (i + 1) hi, Option.some.injEq] at h5
  subst h4 h5
  refine ⟨i, hi, h6, h7, ?_⟩
  have ho : outOfRange t x = .ok false := by
    rw [outOfRange_eq t x _ _ ha hb, decide_eq_false]
    exact not_or.2 ⟨not_lt.2 hxa, not_lt.2 hxb⟩
  rw [spline, ho]
  simp only [Res.bind_ok', Bool.false_eq_true, if_false, h3, hs]

/-- C66: the points of the table are reproduced. -/
theorem C66_reproduces (t : List (K × K)) (ht : Increasing t) (h2 : 2 ≤ t.length) (j : Nat) (hj : j < t.length) :
    spline t (xs t j) = .ok (ys t j) := by
  have hmono : ∀ a b, a ≤ b → b < t.length → xs t a ≤ xs t b := by
    intro a b hab hb
    rcases hab.lt_or_eq with h | rfl
    · exact (ht.xs_lt h hb).le
    · exact le_rfl
  obtain ⟨i, hi, h3, h4, h5⟩ := C66_value t ht h2 (xs t j) (hmono 0 j (by omega) hj) (hmono j _ (by omega) (by omega))
  have hij : j = i ∨ j = i + 1 := by
    rcases Nat.lt_trichotomy j i with h | h | h
    · exact absurd h3 (not_le.2 (ht.xs_lt h (by omega)))
    · exact Or.inl h
    · rcases Nat.lt_trichotomy j (i + 1) with h' | h' | h'
      · omega
      · exact Or.inr h'
      · exact absurd h4 (not_le.2 (ht.xs_lt h' hj))
  rw [h5]
  rcases hij with rfl | rfl
  · rw [(C66_interpolates t ht j hi).1]
  · rw [(C66_interpolates t ht i hi).2]

end Field

/-! ### Derivatives -/

/-- The value of an interpolation as a real function. -/
noncomputable def valueOf (f : ℝ → Res ℝ) (x : ℝ) : ℝ :=
  match f x with
  | .ok y => y
  | _ => 0

/-- C42: `derivative` is the derivative of the interpolation at every point strictly between
neighbouring points of the table. -/
theorem C42_derivative (t : List (ℝ × ℝ)) (ht : Increasing t) (i : Nat) (p q : ℝ × ℝ) (hp : t[i]? = some p)
    (hq : t[i + 1]? = some q) (x : ℝ) (hpx : p.1 < x) (hxq : x < q.1) :
    ∃ m, linearDerivative t x = .ok m ∧ HasDerivAt (valueOf (linear t)) m x := by
  have hi : i + 1 < t.length := (List.getElem?_eq_some_iff.1 hq).1
  have hlen : 0 < t.length := by omega
  have ha : t.head? = some t[0] := by rw [List.head?_eq_getElem?, List.getElem?_eq_getElem hlen]
  have hb : t.getLast? = some t[t.length - 1] := by
    rw [List.getLast?_eq_getElem?, List.getElem?_eq_getElem (by omega)]
  have h0 : t[0]? = some t[0] := List.getElem?_eq_getElem hlen
  have h1 : t[t.length - 1]? = some t[t.length - 1] := List.getElem?_eq_getElem (by omega)
  have key : ∀ y, p.1 < y → y < q.1 → linear t y = .ok (p.2 + (q.2 - p.2) * ((y - p.1) / (q.1 - p.1))) ∧
      linearDerivative t y = .ok ((q.2 - p.2) / (q.1 - p.1)) := by
    intro y hpy hyq
    obtain ⟨j, u, v, h3, h4, h5, h6, h7, h8, h9⟩ := C42_chord t ht (by omega) _ _ ha hb y
      ((ht.le h0 hp (by omega)).trans hpy.le) (hyq.le.trans (ht.le hq h1 (by omega)))
    have hji : j = i := by
      rcases Nat.lt_trichotomy j i with h | h | h
      · exact absurd (h6.trans (ht.le h4 hp (by omega))) (not_le.2 hpy)
      · exact h
      · exact absurd ((ht.le hq h3 (by omega)).trans h5) (not_le.2 hyq)
    subst hji
    rw [hp, Option.some.injEq] at h3
    rw [hq, Option.some.injEq] at h4
    subst h3 h4
    exact ⟨h8, h9⟩
  refine ⟨_, (key x hpx hxq).2, ?_⟩
  have hd : HasDerivAt (fun y : ℝ => p.2 + (q.2 - p.2) * ((y - p.1) / (q.1 - p.1)))
      ((q.2 - p.2) / (q.1 - p.1)) x := by
    have := ((((hasDerivAt_id x).sub_const p.1).div_const (q.1 - p.1)).const_mul (q.2 - p.2)).const_add p.2
    refine this.congr_deriv ?_
    ring
  refine hd.congr_of_eventuallyEq ?_
  filter_upwards [Ioo_mem_nhds hpx hxq] with y hy
  rw [valueOf, (key y hy.1 hy.2).1]

/-- First derivative of the spline on an interval. -/
noncomputable def splineSlope (t : List (ℝ × ℝ)) (i : Nat) (x : ℝ) : ℝ :=
  (ys t (i + 1) - ys t i) / (xs t (i + 1) - xs t i) +
    (-(3 * ((xs t (i + 1) - x) / (xs t (i + 1) - xs t i)) ^ 2 - 1) * splineDdy t i +
      (3 * ((x - xs t i) / (xs t (i + 1) - xs t i)) ^ 2 - 1) * splineDdy t (i + 1)) *
      (xs t (i + 1) - xs t i) / 6

/-- Second derivative of the spline on an interval. -/
noncomputable def splineCurvature (t : List (ℝ × ℝ)) (i : Nat) (x : ℝ) : ℝ :=
  (xs t (i + 1) - x) / (xs t (i + 1) - xs t i) * splineDdy t i +
    (x - xs t i) / (xs t (i + 1) - xs t i) * splineDdy t (i + 1)

theorem splineValue_hasDerivAt (t : List (ℝ × ℝ)) (i : Nat) (hL : xs t (i + 1) - xs t i ≠ 0) (x : ℝ) :
    HasDerivAt (splineValue t i) (splineSlope t i x) x := by
  have h1 : HasDerivAt (fun y => (xs t (i + 1) - y) / (xs t (i + 1) - xs t i)) (-1 / (xs t (i + 1) - xs t i)) x :=
    ((hasDerivAt_id x).const_sub _).div_const _
  have h2 : HasDerivAt (fun y => (y - xs t i) / (xs t (i + 1) - xs t i)) (1 / (xs t (i + 1) - xs t i)) x :=
    ((hasDerivAt_id x).sub_const _).div_const _
  have := ((h1.mul_const (ys t i)).add (h2.mul_const (ys t (i + 1)))).add
    (((((((h1.mul h1).mul h1).sub h1).mul_const (splineDdy t i)).add
      ((((h2.mul h2).mul h2).sub h2).mul_const (splineDdy t (i + 1)))).mul_const
        ((xs t (i + 1) - xs t i) * (xs t (i + 1) - xs t i))).div_const 6)
  refine HasDerivAt.congr_deriv (f := splineValue t i) this ?_
  unfold splineSlope
  simp only [Pi.mul_apply]
  generalize xs t (i + 1) - xs t i = L at hL
  have hinv : L⁻¹ * L = 1 := inv_mul_cancel₀ hL
  simp only [div_eq_mul_inv]
  generalize (xs t (i + 1) - x) * L⁻¹ = a
  generalize (x - xs t i) * L⁻¹ = b
  linear_combination (1 / 6) * L * ((1 - 3 * a ^ 2) * splineDdy t i + (3 * b ^ 2 - 1) * splineDdy t (i + 1)) * hinv

theorem splineSlope_hasDerivAt (t : List (ℝ × ℝ)) (i : Nat) (hL : xs t (i + 1) - xs t i ≠ 0) (x : ℝ) :
    HasDerivAt (splineSlope t i) (splineCurvature t i x) x := by
  have h1 : HasDerivAt (fun y => (xs t (i + 1) - y) / (xs t (i + 1) - xs t i)) (-1 / (xs t (i + 1) - xs t i)) x :=
    ((hasDerivAt_id x).const_sub _).div_const _
  have h2 : HasDerivAt (fun y => (y - xs t i) / (xs t (i + 1) - xs t i)) (1 / (xs t (i + 1) - xs t i)) x :=
    ((hasDerivAt_id x).sub_const _).div_const _
  have := ((((((((h1.pow 2).const_mul 3).sub_const 1).neg).mul_const (splineDdy t i)).add
    ((((h2.pow 2).const_mul 3).sub_const 1).mul_const (splineDdy t (i + 1)))).mul_const
      (xs t (i + 1) - xs t i)).div_const 6).const_add ((ys t (i + 1) - ys t i) / (xs t (i + 1) - xs t i))
  refine HasDerivAt.congr_deriv (f := splineSlope t i) this ?_
  unfold splineCurvature
  simp only [Nat.cast_ofNat, Nat.add_one_sub_one, pow_one]
  generalize xs t (i + 1) - xs t i = L at hL
  have hinv : L⁻¹ * L = 1 := inv_mul_cancel₀ hL
  simp only [div_eq_mul_inv]
  generalize (xs t (i + 1) - x) * L⁻¹ = a
  generalize (x - xs t i) * L⁻¹ = b
  linear_combination (a * splineDdy t i + b * splineDdy t (i + 1)) * hinv

/-- C66: the spline is twice continuously differentiable: every piece is twice differentiable, the
pieces meet with equal values, slopes and curvatures, and the curvature vanishes at both ends. -/
theorem C66_smooth (t : List (ℝ × ℝ)) (ht : Increasing t) (h2 : 2 ≤ t.length) :
    (∀ i, i + 1 < t.length → ∀ x, HasDerivAt (splineValue t i) (splineSlope t i x) x ∧
      HasDerivAt (splineSlope t i) (splineCurvature t i x) x) ∧
    (∀ i, i + 2 < t.length → splineValue t i (xs t (i + 1)) = splineValue t (i + 1) (xs t (i + 1)) ∧
      splineSlope t i (xs t (i + 1)) = splineSlope t (i + 1) (xs t (i + 1)) ∧
      splineCurvature t i (xs t (i + 1)) = splineCurvature t (i + 1) (xs t (i + 1))) ∧
    splineCurvature t 0 (xs t 0) = 0 ∧ splineCurvature t (t.length - 2) (xs t (t.length - 1)) = 0 := by
  have hne : ∀ i, i + 1 < t.length → xs t (i + 1) - xs t i ≠ 0 := fun i hi =>
    (sub_pos.2 (ht.xs_lt (by omega) hi)).ne'
  obtain ⟨m0, mn, mi⟩ := C66_moments t ht
  refine ⟨?_, ?_, ?_, ?_⟩
  · intro i hi x
    exact ⟨splineValue_hasDerivAt t i (hne i hi) x, splineSlope_hasDerivAt t i (hne i hi) x⟩
  · intro i hi
    have g1 := hne i (by omega)
    have g2 := hne (i + 1) hi
    refine ⟨?_, ?_, ?_⟩
    · rw [(C66_interpolates t ht i (by omega)).2, (C66_interpolates t ht (i + 1) hi).1]
    · have := mi i hi
      rw [show i + 2 = i + 1 + 1 from rfl] at this
      unfold splineSlope
      simp only [sub_self, zero_div, div_self g1, div_self g2]
      linear_combination (1 / 6) * this
    · unfold splineCurvature
      simp only [sub_self, zero_div, div_self g1, div_self g2]
      ring
  · unfold splineCurvature
    rw [sub_self, zero_div, m0]
    ring
  · unfold splineCurvature
    rw [show t.length - 2 + 1 = t.length - 1 by omega, sub_self, zero_div, mn]
    ring

/-- C66: `derivative` of the cubic spline returns the slope of the chord, which is not the derivative of
the spline: for the table (0,0), (1,1), (2,0) the slope at zero is 3/2, not 1. -/
theorem C66_derivative_counterexample :
    linearDerivative [((0 : ℝ), (0 : ℝ)), (1, 1), (2, 0)] (0 : ℝ) = .ok 1 ∧
      splineSlope [((0 : ℝ), (0 : ℝ)), (1, 1), (2, 0)] 0 0 = 3 / 2 := by
  constructor
  · obtain ⟨i, p, q, h1, h2, h3, h4, h5, _, h7⟩ := C42_chord [((0 : ℝ), (0 : ℝ)), (1, 1), (2, 0)]
      (by simp [Increasing]) (by simp) (0, 0) (2, 0) rfl rfl 0 (by simp) (by simp)
    rcases i with _ | i
    · simp only [List.getElem?_cons_zero, Option.some.injEq, zero_add, List.getElem?_cons_succ] at h1 h2
      rw [h7, ← h1, ← h2]
      norm_num
    · have := h5 (by omega)
      rcases i with _ | _ | i <;> simp at h1 h2
      · rw [← h1] at this
        norm_num at this
  · norm_num [splineSlope, splineDdy, splineBack, splineUp, splineForward, xs, ys]

/-- A table with three points meets the hypotheses. -/
example : Increasing [((0 : ℚ), (5 : ℚ)), (1, -2), (4, 3)] := by simp [Increasing]

end NuTo.Table
