/-
C45: the knot span search.
-/
import Verif.Model.Nurbs
import Mathlib.Tactic.Ring
import Mathlib.Data.Rat.Defs
import Mathlib.Algebra.Order.Ring.Rat

namespace NuTo.Nurbs

variable {K : Type _} [LinearOrder K]

/-- Specification: a non-decreasing knot vector with at least `degree + 1` basis functions. -/
structure KnotVector (knots : List K) (degree : Nat) : Prop where
  sorted : ∀ (i j : Nat) (a b : K), knots[i]? = some a → knots[j]? = some b → i ≤ j → a ≤ b
  length : 2 * (degree + 1) ≤ knots.length

omit [LinearOrder K] in
theorem knotAt_nat (knots : List K) (i : Nat) (h : i < knots.length) :
    knotAt knots (i : Int) = .ok knots[i] := by
  rw [knotAt, if_pos (by omega), Int.toNat_natCast, List.getElem?_eq_getElem h]

theorem spanLoop_inside (u : K) (knots : List K) (fuel low high : Nat) (hlt : low < high)
    (hlen : high < knots.length) (hfuel : high - low ≤ fuel + 1) (hlo : knots[low] ≤ u) (hhi : u < knots[high]) :
    ∃ (s : Nat) (h : s + 1 < knots.length), spanLoop u knots fuel low high = .ok (s : Int) ∧ low ≤ s ∧ s < high ∧
      knots[s] ≤ u ∧ u < knots[s + 1] := by
  induction fuel generalizing low high with
  | zero =>
    obtain rfl : high = low + 1 := by omega
    have hm : (low + (low + 1)) / 2 = low := by omega
    refine ⟨low, by omega, ?_, le_refl _, by omega, hlo, hhi⟩
    rw [spanLoop]
    simp only [hm]
    rw [knotAt_nat _ _ (by omega), Res.bind_ok', if_neg (not_lt.2 hlo)]
    have : ((low : Int) + 1) = ((low + 1 : Nat) : Int) := by push_cast; rfl
    rw [this, knotAt_nat _ _ (by omega), Res.bind_ok', if_neg (not_le.2 hhi)]
  | succ f ih =>
    have hml : low ≤ (low + high) / 2 := by omega
    have hmh : (low + high) / 2 < high := by omega
    rw [spanLoop]
    generalize hmid : (low + high) / 2 = mid at *
    rw [knotAt_nat _ _ (by omega), Res.bind_ok']
    by_cases h1 : u < knots[mid]
    · rw [if_pos h1]
      have hne : low ≠ mid := by
        rintro rfl
        exact absurd h1 (not_lt.2 hlo)
      obtain ⟨s, h, e, a, b, c⟩ := ih low mid (by omega) (by omega) (by omega) hlo h1
      exact ⟨s, h, e, a, by omega, c⟩
    · rw [if_neg h1]
      have : ((mid : Int) + 1) = ((mid + 1 : Nat) : Int) := by push_cast; rfl
      rw [this, knotAt_nat _ _ (by omega), Res.bind_ok']
      by_cases h2 : u ≥ knots[mid + 1]
      · rw [if_pos h2]
        have hne : mid + 1 ≠ high := by
          rintro rfl
          exact absurd hhi (not_lt.2 h2)
        obtain ⟨s, h, e, a, b, c⟩ := ih mid high (by omega) (by omega) (by omega) (not_lt.1 h1) hhi
        exact ⟨s, h, e, by omega, b, c⟩
      · rw [if_neg h2]
        exact ⟨mid, by omega, rfl, hml, hmh, not_lt.1 h1, not_le.1 h2⟩

theorem spanLoop_below (u : K) (knots : List K) (fuel low high : Nat) (hlt : low ≤ high)
    (hlen : high < knots.length) (hb : ∀ (i : Nat) (h : i < knots.length), low ≤ i → u < knots[i]) :
    spanLoop u knots fuel low high = .throw := by
  induction fuel generalizing high with
  | zero =>
    rw [spanLoop, knotAt_nat _ _ (by omega), Res.bind_ok', if_pos (hb _ _ (by omega))]
  | succ f ih =>
    rw [spanLoop, knotAt_nat _ _ (by omega), Res.bind_ok', if_pos (hb _ _ (by omega))]
    exact ih _ (by omega) (by omega)

theorem spanLoop_above (u : K) (knots : List K) (fuel low high : Nat) (hlt : low < high)
    (hlen : high < knots.length) (hb : ∀ (i : Nat) (h : i < knots.length), i ≤ high → knots[i] < u) :
    spanLoop u knots fuel low high = .throw := by
  have e : ∀ m : Nat, ((m : Int) + 1) = ((m + 1 : Nat) : Int) := fun m => by push_cast; rfl
  induction fuel generalizing low with
  | zero =>
    rw [spanLoop, knotAt_nat _ _ (by omega), Res.bind_ok', if_neg (not_lt.2 (hb _ _ (by omega)).le), e,
      knotAt_nat _ _ (by omega), Res.bind_ok', if_pos (hb _ _ (by omega)).le]
  | succ f ih =>
    rw [spanLoop, knotAt_nat _ _ (by omega), Res.bind_ok', if_neg (not_lt.2 (hb _ _ (by omega)).le), e,
      knotAt_nat _ _ (by omega), Res.bind_ok', if_pos (hb _ _ (by omega)).le]
    exact ih _ (by omega)

theorem findSpan_eq (u : K) (degree : Nat) (knots : List K) (h : 2 * (degree + 1) ≤ knots.length) :
    findSpan u degree knots =
      if u < knots[0] ∨ u > knots[knots.length - 1] then .throw
      else if u = knots[knots.length - degree - 1] then .ok ((knots.length - degree - 2 : Nat) : Int)
      else spanLoop u knots knots.length degree (knots.length - degree - 1) := by
  have e1 : ((knots.length : Int) - 1) = ((knots.length - 1 : Nat) : Int) := by omega
  have e2 : ((knots.length : Int) - degree - 1) = ((knots.length - degree - 1 : Nat) : Int) := by omega
  have e3 : (((knots.length - degree - 1 : Nat) : Int) - 1) = ((knots.length - degree - 2 : Nat) : Int) := by omega
  have e0 : (0 : Int) = ((0 : Nat) : Int) := rfl
  unfold findSpan
  dsimp only
  rw [e0, knotAt_nat _ _ (by omega), Res.bind_ok', e1, knotAt_nat _ _ (by omega), Res.bind_ok', e2,
    knotAt_nat _ _ (by omega), Res.bind_ok', e3, Int.toNat_natCast]

/-- C45: for a parameter in the domain `[knots[degree], knots[n])`, `n` the number of basis functions, the
returned span contains the parameter; nothing is raised. -/
theorem C45_inside (u : K) (degree : Nat) (knots : List K) (hk : KnotVector knots degree)
    (hl : ∀ a, knots[degree]? = some a → a ≤ u) (hr : ∀ b, knots[knots.length - degree - 1]? = some b → u < b) :
    ∃ (s : Nat) (a b : K), findSpan u degree knots = .ok (s : Int) ∧ degree ≤ s ∧ s < knots.length - degree - 1 ∧
      knots[s]? = some a ∧ knots[s + 1]? = some b ∧ a ≤ u ∧ u < b := by
  have hlen := hk.length
  have g : ∀ (i : Nat) (h : i < knots.length), knots[i]? = some knots[i] := fun i h => List.getElem?_eq_getElem h
  have hlo : knots[degree] ≤ u := hl _ (g _ (by omega))
  have hhi : u < knots[knots.length - degree - 1] := hr _ (g _ (by omega))
  obtain ⟨s, h, e, h1, h2, h3, h4⟩ := spanLoop_inside u knots knots.length degree (knots.length - degree - 1)
    (by omega) (by omega) (by omega) hlo hhi
  refine ⟨s, knots[s], knots[s + 1], ?_, h1, h2, g _ _, g _ _, h3, h4⟩
  rw [findSpan_eq u degree knots hlen, if_neg, if_neg (ne_of_lt hhi), e]
  rintro (h | h)
  · exact absurd (lt_of_le_of_lt hlo h) (not_lt.2 (hk.sorted 0 degree _ _ (g _ _) (g _ _) (by omega)))
  · exact absurd (lt_trans h hhi) (not_lt.2 (hk.sorted _ _ _ _ (g _ _) (g _ _) (by omega)))

/-- C45: for the right end of the domain the last span is returned.  It contains the end; it is non-empty
only if the knot before differs, see the counterexample. -/
theorem C45_right_end_partial (degree : Nat) (knots : List K) (hk : KnotVector knots degree) (u : K)
    (hu : knots[knots.length - degree - 1]? = some u)
    (hne : ∀ a, knots[knots.length - degree - 2]? = some a → a ≠ u) :
    ∃ (s : Nat) (a : K), findSpan u degree knots = .ok (s : Int) ∧ degree ≤ s ∧ knots[s]? = some a ∧
      knots[s + 1]? = some u ∧ a < u := by
  have hlen := hk.length
  have g : ∀ (i : Nat) (h : i < knots.length), knots[i]? = some knots[i] := fun i h => List.getElem?_eq_getElem h
  have hu' : u = knots[knots.length - degree - 1] := by
    have := g (knots.length - degree - 1) (by omega)
    rw [hu] at this
    exact Option.some.inj this
  refine ⟨knots.length - degree - 2, knots[knots.length - degree - 2], ?_, by omega, g _ (by omega), ?_, ?_⟩
  · rw [findSpan_eq u degree knots hlen, if_neg, if_pos hu']
    rintro (h | h)
    · exact absurd h (not_lt.2 (hk.sorted 0 (knots.length - degree - 1) _ _ (g _ _) hu (by omega)))
    · exact absurd h (not_lt.2 (hk.sorted (knots.length - degree - 1) _ _ _ hu (g _ (by omega)) (by omega)))
  · rw [← hu]; congr 1; omega
  · exact lt_of_le_of_ne (hk.sorted _ _ _ _ (g _ _) hu (by omega)) (hne _ (g _ _))

/-- C45: if the end knot is repeated once more than `degree + 1` times the returned span is empty, although
`[0, 1)` is a non-empty span. -/
theorem C45_right_end_counterexample :
    findSpan (1 : ℚ) 1 [0, 0, 1, 1, 1] = .ok 2 ∧ ([0, 0, 1, 1, 1] : List ℚ)[2]? = ([0, 0, 1, 1, 1] : List ℚ)[3]? := by
  decide +kernel

/-- C45: outside of the domain, in particular outside of the knot vector, an exception is raised. -/
theorem C45_outside (u : K) (degree : Nat) (knots : List K) (hk : KnotVector knots degree)
    (h : (∀ a, knots[degree]? = some a → u < a) ∨ ∀ b, knots[knots.length - degree - 1]? = some b → b < u) :
    findSpan u degree knots = .throw := by
  have hlen := hk.length
  have g : ∀ (i : Nat) (h : i < knots.length), knots[i]? = some knots[i] := fun i h => List.getElem?_eq_getElem h
  rw [findSpan_eq u degree knots hlen]
  split
  · rfl
  · rcases h with h | h
    · have hd : u < knots[degree] := h _ (g _ (by omega))
      have hall : ∀ (i : Nat) (hi : i < knots.length), degree ≤ i → u < knots[i] := fun i hi hdi =>
        lt_of_lt_of_le hd (hk.sorted _ _ _ _ (g _ _) (g _ _) hdi)
      rw [if_neg (ne_of_lt (hall _ _ (by omega)))]
      exact spanLoop_below u knots _ _ _ (by omega) (by omega) hall
    · have hd : knots[knots.length - degree - 1] < u := h _ (g _ (by omega))
      have hall : ∀ (i : Nat) (hi : i < knots.length), i ≤ knots.length - degree - 1 → knots[i] < u := fun i hi hdi =>
        lt_of_le_of_lt (hk.sorted _ _ _ _ (g _ _) (g _ _) hdi) hd
      rw [if_neg (ne_of_gt hd)]
      exact spanLoop_above u knots _ _ _ (by omega) (by omega) hall

/-- A quadratic knot vector with a repeated inner knot. -/
example : KnotVector ([0, 0, 0, 1, 1, 2, 2, 2] : List ℚ) 2 ∧
    findSpan (1 : ℚ) 2 [0, 0, 0, 1, 1, 2, 2, 2] = .ok 4 ∧ findSpan (2 : ℚ) 2 [0, 0, 0, 1, 1, 2, 2, 2] = .ok 4 ∧
    findSpan (1 / 2 : ℚ) 2 [0, 0, 0, 1, 1, 2, 2, 2] = .ok 2 := by
  refine ⟨⟨fun i j a b hi hj hij => ?_, by decide⟩, by decide +kernel, by decide +kernel, by decide +kernel⟩
  have hp : List.Pairwise (· ≤ ·) ([0, 0, 0, 1, 1, 2, 2, 2] : List ℚ) := by decide +kernel
  obtain ⟨hi', rfl⟩ := List.getElem?_eq_some_iff.1 hi
  obtain ⟨hj', rfl⟩ := List.getElem?_eq_some_iff.1 hj
  rcases Nat.lt_or_ge i j with h | h
  · exact List.pairwise_iff_getElem.1 hp i j hi' hj' h
  · obtain rfl : i = j := by omega
    exact le_refl _

end NuTo.Nurbs
