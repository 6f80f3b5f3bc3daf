/-
C41: integration of load displacement curves.
-/
import Verif.Model.Tables
import Mathlib.Algebra.Order.Field.Basic
import Mathlib.Algebra.BigOperators.Intervals
import Mathlib.Analysis.SpecialFunctions.Integrals.Basic
import Mathlib.MeasureTheory.Integral.IntervalIntegral.FundThmCalculus
import Mathlib.Data.List.GetD
import Mathlib.Tactic.Linarith
import Mathlib.Tactic.FieldSimp
import Mathlib.Tactic.Ring
import Mathlib.Tactic.NormNum
import Mathlib.Tactic.LinearCombination

set_option linter.unusedSectionVars false

namespace NuTo.LoadCurve

section Field

variable {K : Type} [Field K] [LinearOrder K] [IsStrictOrderedRing K]

theorem getElem?_getD (l : List K) (i : Nat) (h : i < l.length) : l[i]? = some (l.getD i 0) := by
  rw [List.getD_eq_getElem?_getD, List.getElem?_eq_getElem h]; rfl

theorem integral_eq (f d : List K) (n : Nat) (hf : n ≤ f.length) (hd : n ≤ d.length) :
    integral f d n = .ok (∑ i ∈ Finset.range (n - 1),
      (f.getD (i + 1) 0 + f.getD i 0) / 2 * (d.getD (i + 1) 0 - d.getD i 0)) := by
  have key : ∀ m, m + 1 ≤ f.length ∨ m = 0 → m + 1 ≤ d.length ∨ m = 0 →
      Res.foldlM (integralStep f d) 0 (List.range m) = .ok (∑ i ∈ Finset.range m,
        (f.getD (i + 1) 0 + f.getD i 0) / 2 * (d.getD (i + 1) 0 - d.getD i 0)) := by
    intro m
    induction m with
    | zero => intros; simp
    | succ m ih =>
      intro h1 h2
      have step : ∀ (l : List Nat) (b : K) (x : Nat), Res.foldlM (integralStep f d) b (l ++ [x]) =
          (Res.foldlM (integralStep f d) b l).bind fun b' => integralStep f d b' x := by
        intro l
        induction l with
        | nil =>
          intro b x
          simp only [List.nil_append, Res.foldlM_cons, Res.foldlM_nil, Res.bind_ok']
          cases integralStep f d b x <;> rfl
        | cons y l ih =>
          intro b x
          simp only [List.cons_append, Res.foldlM_cons]
          cases integralStep f d b y with
          | ok b' => simp only [Res.bind_ok', ih]
          | throw => rfl
          | ub => rfl
      rw [List.range_succ, step, ih (by omega) (by omega), Res.bind_ok', integralStep,
        getElem?_getD f m (by omega), getElem?_getD f (m + 1) (by omega), getElem?_getD d m (by omega),
        getElem?_getD d (m + 1) (by omega), Finset.sum_range_succ]
  exact key (n - 1) (by omega) (by omega)

/-- C41: the constructor takes absolute values and accepts exactly equally long, non-empty data that
starts at the origin (up to 1e-10). -/
theorem C41_constructor (forces displacements : List K) :
    (∃ r, make forces displacements = .ok r) ↔ forces.length = displacements.length ∧ forces ≠ [] ∧
      |forces.getD 0 0| ≤ 1 / 10 ^ 10 ∧ |displacements.getD 0 0| ≤ 1 / 10 ^ 10 := by
  unfold make check
  rw [List.length_map, List.length_map]
  by_cases hl : forces.length = displacements.length
  · rw [if_neg (not_not.2 hl)]
    cases forces with
    | nil => simp
    | cons f fs =>
      cases displacements with
      | nil => simp at hl
      | cons d ds =>
        simp only [List.map_cons, List.getElem?_cons_zero, abs_abs, List.getD_cons_zero]
        by_cases h1 : |f| > 1 / 10 ^ 10
        · rw [if_pos h1]
          simp only [Res.bind_throw', reduceCtorEq, exists_false, false_iff]
          rintro ⟨_, _, h, _⟩
          exact absurd h (not_le.2 h1)
        · rw [if_neg h1]
          by_cases h2 : |d| > 1 / 10 ^ 10
          · rw [if_pos h2]
            simp only [Res.bind_throw', reduceCtorEq, exists_false, false_iff]
            rintro ⟨_, _, _, h⟩
            exact absurd h (not_le.2 h2)
          · rw [if_neg h2]
            simp only [Res.bind_ok', Res.ok.injEq, exists_eq', true_iff]
            exact ⟨hl, by simp, not_lt.1 h1, not_lt.1 h2⟩
  · rw [if_pos hl]
    simp [hl]

/-- What the search for the threshold returns: the first index whose force is above the threshold and
whose successor is not. -/
theorem findIndex_spec (f : List K) (T : K) (i : Nat) : findIndex f T = some i ↔
    (i + 1 < f.length ∧ T < f.getD i 0 ∧ f.getD (i + 1) 0 ≤ T ∧
      ∀ j, j < i → ¬ (T < f.getD j 0 ∧ f.getD (j + 1) 0 ≤ T)) := by
  rw [findIndex, List.find?_range_eq_some]
  simp only [decide_eq_true_eq, List.mem_range, Bool.not_eq_true', decide_eq_false_iff_not]
  constructor
  · rintro ⟨h1, h2, h3⟩
    exact ⟨by omega, h1.1, h1.2, h3⟩
  · rintro ⟨h1, h2, h3, h4⟩
    exact ⟨⟨h2, h3⟩, by omega, h4⟩

/-- C41: the last force must not exceed the threshold and the curve has to fall to the threshold
somewhere; otherwise the call raises. -/
theorem C41_raises (f d : List K) (A T : K) (hne : f ≠ []) :
    (T < f.getD (f.length - 1) 0 → energyThreshold f d A T = .throw) ∧
    ((∀ i, i + 1 < f.length → T < f.getD i 0 → T < f.getD (i + 1) 0) → energyThreshold f d A T = .throw) := by
  have hl : f.getLast? = some (f.getD (f.length - 1) 0) := by
    rw [List.getLast?_eq_getElem?, getElem?_getD f _ (by have := List.length_pos_iff.2 hne; omega)]
  constructor
  · intro h
    rw [energyThreshold, indexJustAbove, hl]
    dsimp only
    rw [if_pos h, Res.bind_throw']
  · intro h
    have hn : findIndex f T = none := by
      cases hf : findIndex f T with
      | none => rfl
      | some i =>
        obtain ⟨h1, h2, h3, _⟩ := (findIndex_spec f T i).1 hf
        exact absurd h3 (not_le.2 (h i h1 h2))
    rw [energyThreshold, indexJustAbove, hl]
    dsimp only
    rw [hn]
    split <;> rfl

/-- Specification: the area under the curve up to the point where the segment after point `i` reaches
the threshold. -/
def areaToThreshold (f d : List K) (i : Nat) (T : K) : K :=
  (∑ j ∈ Finset.range i, (f.getD (j + 1) 0 + f.getD j 0) / 2 * (d.getD (j + 1) 0 - d.getD j 0)) +
    (f.getD i 0 + T) / 2 * ((d.getD (i + 1) 0 - d.getD i 0) * ((f.getD i 0 - T) / (f.getD i 0 - f.getD (i + 1) 0)))

/-- What the code computes: the last segment is the extrapolated segment before point `i`. -/
theorem energyThreshold_eq (f d : List K) (hlen : f.length = d.length) (A T : K) (hA : A ≠ 0) (i : Nat)
    (hlast : f.getD (f.length - 1) 0 ≤ T) (hi : findIndex f T = some (i + 1))
    (hne : f.getD i 0 ≠ f.getD (i + 1) 0) :
    energyThreshold f d A T = .ok (((∑ j ∈ Finset.range i,
      (f.getD (j + 1) 0 + f.getD j 0) / 2 * (d.getD (j + 1) 0 - d.getD j 0)) +
      (T + f.getD i 0) / 2 * ((d.getD i 0 - d.getD (i + 1) 0) / (f.getD i 0 - f.getD (i + 1) 0) *
        (T - f.getD i 0))) / A) := by
  obtain ⟨h1, _, _, _⟩ := (findIndex_spec f T _).1 hi
  have hl : f.getLast? = some (f.getD (f.length - 1) 0) := by
    rw [List.getLast?_eq_getElem?, getElem?_getD f _ (by omega)]
  rw [energyThreshold, indexJustAbove, hl]
  dsimp only
  rw [if_neg (not_lt.2 hlast), hi]
  dsimp only
  rw [Res.bind_ok', integral_eq f d (i + 1) (by omega) (by omega), Res.bind_ok', indexToThreshold]
  rw [getElem?_getD f i (by omega), getElem?_getD f (i + 1) (by omega), getElem?_getD d i (by omega),
    getElem?_getD d (i + 1) (by omega)]
  dsimp only
  rw [safeDiv, if_neg (sub_ne_zero.2 hne), Res.bind_ok', Res.bind_ok', safeDiv, if_neg hA, Nat.add_sub_cancel]
  congr 2
  ring

/-- C41: if the two segments around the last point above the threshold lie on one line, the area up to
the threshold is returned.  Without this condition the claim is false: see the counterexample. -/
theorem C41_threshold_partial (f d : List K) (hlen : f.length = d.length) (A T : K) (hA : A ≠ 0) (i : Nat)
    (hlast : f.getD (f.length - 1) 0 ≤ T) (hi : findIndex f T = some (i + 1))
    (hne : f.getD i 0 ≠ f.getD (i + 1) 0)
    (hline : (d.getD (i + 1) 0 - d.getD i 0) * (f.getD (i + 2) 0 - f.getD (i + 1) 0) =
      (d.getD (i + 2) 0 - d.getD (i + 1) 0) * (f.getD (i + 1) 0 - f.getD i 0)) :
    energyThreshold f d A T = .ok (areaToThreshold f d (i + 1) T / A) := by
  rw [energyThreshold_eq f d hlen A T hA i hlast hi hne, areaToThreshold, Finset.sum_range_succ]
  obtain ⟨_, h2, h3, _⟩ := (findIndex_spec f T _).1 hi
  rw [show i + 1 + 1 = i + 2 from rfl] at h3 ⊢
  congr 2
  have hne2 : f.getD (i + 1) 0 - f.getD (i + 2) 0 ≠ 0 := by
    have : f.getD (i + 2) 0 < f.getD (i + 1) 0 := lt_of_le_of_lt h3 h2
    exact (sub_pos.2 this).ne'
  have hne1 : f.getD i 0 - f.getD (i + 1) 0 ≠ 0 := sub_ne_zero.2 hne
  have e : (d.getD (i + 2) 0 - d.getD (i + 1) 0) / (f.getD (i + 1) 0 - f.getD (i + 2) 0) =
      -((d.getD i 0 - d.getD (i + 1) 0) / (f.getD i 0 - f.getD (i + 1) 0)) := by
    rw [div_eq_iff hne2, neg_mul, div_mul_eq_mul_div, eq_neg_iff_add_eq_zero]
    field_simp
    linear_combination hline
  have e2 : (d.getD (i + 2) 0 - d.getD (i + 1) 0) * ((f.getD (i + 1) 0 - T) / (f.getD (i + 1) 0 - f.getD (i + 2) 0)) =
      -((d.getD i 0 - d.getD (i + 1) 0) / (f.getD i 0 - f.getD (i + 1) 0)) * (f.getD (i + 1) 0 - T) := by
    rw [← e]; ring
  rw [e2]
  have e3 : d.getD (i + 1) 0 - d.getD i 0 = -((d.getD i 0 - d.getD (i + 1) 0) / (f.getD i 0 - f.getD (i + 1) 0)) *
      (f.getD i 0 - f.getD (i + 1) 0) := by
    rw [neg_mul, div_mul_cancel₀ _ hne1]; ring
  rw [e3]
  generalize (d.getD i 0 - d.getD (i + 1) 0) / (f.getD i 0 - f.getD (i + 1) 0) = q
  ring

/-- C41: counterexample.  Forces 0, 2, 3, 0 at displacements 0, 1, 2, 3, threshold 3/2: the area up to
the threshold is 37/8, the code extrapolates the rising segment before the peak and returns 1/8. -/
theorem C41_threshold_counterexample :
    energyThreshold [0, 2, 3, 0] [0, 1, 2, 3] (1 : K) (3 / 2) = .ok (1 / 8) ∧
      areaToThreshold [0, 2, 3, 0] [0, 1, 2, 3] 2 (3 / 2 : K) = 37 / 8 := by
  constructor
  · rw [energyThreshold_eq [0, 2, 3, 0] [0, 1, 2, 3] rfl 1 (3 / 2) one_ne_zero 1]
    · norm_num [Finset.sum_range_succ]
    · norm_num
    · rw [findIndex_spec]
      refine ⟨by simp, by norm_num, by norm_num, ?_⟩
      intro j hj
      rcases j with _ | _ | j
      · norm_num
      · norm_num
      · omega
    · norm_num
  · norm_num [areaToThreshold, Finset.sum_range_succ]

/-- C41: a plateau right before the threshold is divided by zero, and a threshold below the initial
force reads in front of the data. -/
theorem C41_undefined (f d : List K) (A T : K) (hlast : f.getD (f.length - 1) 0 ≤ T)
    (hlen : f.length = d.length) (i : Nat) (hi : findIndex f T = some i)
    (h : i = 0 ∨ ∃ k, i = k + 1 ∧ f.getD k 0 = f.getD (k + 1) 0) : energyThreshold f d A T = .ub := by
  obtain ⟨h1, _, _, _⟩ := (findIndex_spec f T _).1 hi
  have hl : f.getLast? = some (f.getD (f.length - 1) 0) := by
    rw [List.getLast?_eq_getElem?, getElem?_getD f _ (by omega)]
  rw [energyThreshold, indexJustAbove, hl]
  dsimp only
  rw [if_neg (not_lt.2 hlast), hi]
  dsimp only
  rw [Res.bind_ok', integral_eq f d i (by omega) (by omega), Res.bind_ok']
  rcases h with rfl | ⟨k, rfl, hk⟩
  · rfl
  · rw [indexToThreshold]
    rw [getElem?_getD f k (by omega), getElem?_getD f (k + 1) (by omega), getElem?_getD d k (by omega),
      getElem?_getD d (k + 1) (by omega)]
    dsimp only
    rw [safeDiv, if_pos (sub_eq_zero.2 hk)]
    rfl

end Field

/-! ### Areas as integrals -/

theorem integral_chord (d0 d1 f0 f1 : ℝ) (h : d0 ≠ d1) :
    ∫ x in d0..d1, (f0 + (f1 - f0) * ((x - d0) / (d1 - d0))) = (f1 + f0) / 2 * (d1 - d0) := by
  have hL : d1 - d0 ≠ 0 := sub_ne_zero.2 h.symm
  have hd : ∀ x ∈ Set.uIcc d0 d1, HasDerivAt
      (fun x : ℝ => f0 * x + (f1 - f0) * ((x - d0) ^ 2 / (2 * (d1 - d0))))
      (f0 + (f1 - f0) * ((x - d0) / (d1 - d0))) x := by
    intro x _
    have h1 : HasDerivAt (fun x : ℝ => (x - d0) ^ 2) (2 * (x - d0)) x := by
      have := ((hasDerivAt_id x).sub_const d0).pow 2
      refine HasDerivAt.congr_deriv (f := fun x : ℝ => (x - d0) ^ 2) this ?_
      simp
    have h2 := ((hasDerivAt_id x).const_mul f0).add ((h1.div_const (2 * (d1 - d0))).const_mul (f1 - f0))
    refine HasDerivAt.congr_deriv (f := fun x : ℝ => f0 * x + (f1 - f0) * ((x - d0) ^ 2 / (2 * (d1 - d0)))) h2 ?_
    field_simp
  rw [intervalIntegral.integral_eq_sub_of_hasDerivAt hd
    (Continuous.intervalIntegrable (by fun_prop) _ _)]
  field_simp
  ring

/-- Specification: `g` is the piecewise linear curve through the points `(d i, f i)`. -/
def IsPolyline (g : ℝ → ℝ) (d f : List ℝ) : Prop :=
  ∀ i, i + 1 < d.length → ∀ x, d.getD i 0 ≤ x → x ≤ d.getD (i + 1) 0 →
    g x = f.getD i 0 + (f.getD (i + 1) 0 - f.getD i 0) * ((x - d.getD i 0) / (d.getD (i + 1) 0 - d.getD i 0))

/-- C41: for increasing displacements the result without threshold is the integral of the piecewise
linear curve over the displacement divided by the area. -/
theorem C41_area (f d : List ℝ) (hlen : f.length = d.length) (hne : f ≠ []) (A : ℝ) (hA : A ≠ 0)
    (hinc : ∀ i, i + 1 < d.length → d.getD i 0 < d.getD (i + 1) 0) (g : ℝ → ℝ) (hg : IsPolyline g d f) :
    energy f d A = .ok ((∫ x in (d.getD 0 0)..(d.getD (d.length - 1) 0), g x) / A) := by
  rw [energy, integral_eq f d f.length le_rfl (by omega), Res.bind_ok', safeDiv, if_neg hA]
  congr 2
  have hpos := List.length_pos_iff.2 hne
  have seg : ∀ i, i + 1 < d.length → IntervalIntegrable g MeasureTheory.volume (d.getD i 0) (d.getD (i + 1) 0) ∧
      ∫ x in (d.getD i 0)..(d.getD (i + 1) 0), g x =
        (f.getD (i + 1) 0 + f.getD i 0) / 2 * (d.getD (i + 1) 0 - d.getD i 0) := by
    intro i hi
    have hlt := hinc i hi
    have heq : Set.EqOn g (fun x => f.getD i 0 + (f.getD (i + 1) 0 - f.getD i 0) *
        ((x - d.getD i 0) / (d.getD (i + 1) 0 - d.getD i 0))) (Set.uIcc (d.getD i 0) (d.getD (i + 1) 0)) := by
      intro x hx
      rw [Set.uIcc_of_le hlt.le] at hx
      exact hg i hi x hx.1 hx.2
    refine ⟨?_, ?_⟩
    · refine ContinuousOn.intervalIntegrable ?_
      refine ContinuousOn.congr ?_ heq
      exact (by fun_prop : Continuous fun x => f.getD i 0 + (f.getD (i + 1) 0 - f.getD i 0) *
        ((x - d.getD i 0) / (d.getD (i + 1) 0 - d.getD i 0))).continuousOn
    · rw [intervalIntegral.integral_congr heq, integral_chord _ _ _ _ hlt.ne]
  have key := intervalIntegral.sum_integral_adjacent_intervals (f := g) (a := fun i => d.getD i 0)
    (n := f.length - 1) (μ := MeasureTheory.volume) (fun k hk => (seg k (by omega)).1)
  rw [hlen] at key ⊢
  rw [← key]
  refine Finset.sum_congr rfl fun i hi => ?_
  rw [Finset.mem_range] at hi
  exact (seg i (by omega)).2.symm

/-- C41: the specification `areaToThreshold` is the integral of the piecewise linear curve up to the
point at which the curve first falls to the threshold. -/
theorem C41_areaToThreshold (f d : List ℝ) (hlen : f.length = d.length)
    (hinc : ∀ i, i + 1 < d.length → d.getD i 0 < d.getD (i + 1) 0) (g : ℝ → ℝ) (hg : IsPolyline g d f)
    (T : ℝ) (i : Nat) (hi : findIndex f T = some i) :
    ∃ x, d.getD i 0 < x ∧ x ≤ d.getD (i + 1) 0 ∧ g x = T ∧ (∀ y, d.getD i 0 ≤ y → y < x → T < g y) ∧
      areaToThreshold f d i T = ∫ y in (d.getD 0 0)..x, g y := by
  obtain ⟨h1, h2, h3, _⟩ := (findIndex_spec f T i).1 hi
  have hlt := hinc i (by omega)
  have hF : 0 < f.getD i 0 - f.getD (i + 1) 0 := by linarith
  have hL : 0 < d.getD (i + 1) 0 - d.getD i 0 := by linarith
  set s := (f.getD i 0 - T) / (f.getD i 0 - f.getD (i + 1) 0) with hs
  have hs0 : 0 < s := div_pos (by linarith) hF
  have hs1 : s ≤ 1 := by rw [hs, div_le_one hF]; linarith
  have hsT : s * (f.getD i 0 - f.getD (i + 1) 0) = f.getD i 0 - T := div_mul_cancel₀ _ hF.ne'
  refine ⟨d.getD i 0 + (d.getD (i + 1) 0 - d.getD i 0) * s, by nlinarith, by nlinarith, ?_, ?_, ?_⟩
  · rw [hg i (by omega) _ (by nlinarith) (by nlinarith), add_sub_cancel_left, mul_div_cancel_left₀ _ hL.ne']
    linear_combination -hsT
  · intro y hy1 hy2
    rw [hg i (by omega) y hy1 (by nlinarith)]
    have : (y - d.getD i 0) / (d.getD (i + 1) 0 - d.getD i 0) < s := by
      rw [div_lt_iff₀ hL]; linarith
    nlinarith
  · have chord : ∀ (a : ℝ), d.getD i 0 < a → a ≤ d.getD (i + 1) 0 →
        IntervalIntegrable g MeasureTheory.volume (d.getD i 0) a ∧ ∫ x in (d.getD i 0)..a, g x =
          (g a + f.getD i 0) / 2 * (a - d.getD i 0) := by
      intro a ha1 ha2
      have hga := hg i (by omega) a ha1.le ha2
      have heq : Set.EqOn g (fun x => f.getD i 0 + (g a - f.getD i 0) * ((x - d.getD i 0) / (a - d.getD i 0)))
          (Set.uIcc (d.getD i 0) a) := by
        intro x hx
        rw [Set.uIcc_of_le ha1.le] at hx
        rw [hg i (by omega) x hx.1 (hx.2.trans ha2)]
        show _ = f.getD i 0 + (g a - f.getD i 0) * ((x - d.getD i 0) / (a - d.getD i 0))
        rw [hga]
        have hne : a - d.getD i 0 ≠ 0 := by linarith
        field_simp
        ring
      refine ⟨?_, ?_⟩
      · refine ContinuousOn.intervalIntegrable ?_
        refine ContinuousOn.congr ?_ heq
        exact (by fun_prop : Continuous fun x => f.getD i 0 + (g a - f.getD i 0) *
          ((x - d.getD i 0) / (a - d.getD i 0))).continuousOn
      · rw [intervalIntegral.integral_congr heq, integral_chord _ _ _ _ ha1.ne]
    have seg : ∀ j, j + 1 < d.length →
        IntervalIntegrable g MeasureTheory.volume (d.getD j 0) (d.getD (j + 1) 0) ∧
        ∫ x in (d.getD j 0)..(d.getD (j + 1) 0), g x =
          (f.getD (j + 1) 0 + f.getD j 0) / 2 * (d.getD (j + 1) 0 - d.getD j 0) := by
      intro j hj
      have hlt := hinc j hj
      have heq : Set.EqOn g (fun x => f.getD j 0 + (f.getD (j + 1) 0 - f.getD j 0) *
          ((x - d.getD j 0) / (d.getD (j + 1) 0 - d.getD j 0))) (Set.uIcc (d.getD j 0) (d.getD (j + 1) 0)) := by
        intro x hx
        rw [Set.uIcc_of_le hlt.le] at hx
        exact hg j hj x hx.1 hx.2
      refine ⟨?_, ?_⟩
      · refine ContinuousOn.intervalIntegrable ?_
        refine ContinuousOn.congr ?_ heq
        exact (by fun_prop : Continuous fun x => f.getD j 0 + (f.getD (j + 1) 0 - f.getD j 0) *
          ((x - d.getD j 0) / (d.getD (j + 1) 0 - d.getD j 0))).continuousOn
      · rw [intervalIntegral.integral_congr heq, integral_chord _ _ _ _ hlt.ne]
    have hint : ∀ k, k < i → IntervalIntegrable g MeasureTheory.volume (d.getD k 0) (d.getD (k + 1) 0) :=
      fun k hk => (seg k (by omega)).1
    have key := intervalIntegral.sum_integral_adjacent_intervals (f := g) (a := fun i => d.getD i 0)
      (n := i) (μ := MeasureTheory.volume) hint
    have hall := IntervalIntegrable.trans_iterate (f := g) (a := fun i => d.getD i 0) (n := i)
      (μ := MeasureTheory.volume) hint
    obtain ⟨c1, c2⟩ := chord (d.getD i 0 + (d.getD (i + 1) 0 - d.getD i 0) * s) (by nlinarith) (by nlinarith)
    rw [← intervalIntegral.integral_add_adjacent_intervals hall c1, c2, ← key, areaToThreshold]
    congr 1
    · refine Finset.sum_congr rfl fun j hj => ?_
      rw [Finset.mem_range] at hj
      exact (seg j (by omega)).2.symm
    · have hgx : g (d.getD i 0 + (d.getD (i + 1) 0 - d.getD i 0) * s) = T := by
        rw [hg i (by omega) _ (by nlinarith) (by nlinarith), add_sub_cancel_left, mul_div_cancel_left₀ _ hL.ne']
        linear_combination -hsT
      rw [hgx, add_sub_cancel_left, add_comm T]

/-- A curve that meets the hypotheses of `C41_threshold_partial`: the two segments before the threshold
lie on one line. -/
example : energyThreshold [0, 4, 3, 2, 0] [0, 1, 2, 3, 5] (2 : ℚ) (5 / 2) =
    .ok (areaToThreshold [0, 4, 3, 2, 0] [0, 1, 2, 3, 5] 2 (5 / 2) / 2) :=
  C41_threshold_partial (K := ℚ) [0, 4, 3, 2, 0] [0, 1, 2, 3, 5] rfl 2 (5 / 2) two_ne_zero 1 (by norm_num)
    (by
      rw [findIndex_spec]
      refine ⟨by simp, by norm_num, by norm_num, ?_⟩
      intro j hj
      rcases j with _ | _ | j
      · norm_num
      · norm_num
      · omega)
    (by norm_num) (by norm_num)

end NuTo.LoadCurve
