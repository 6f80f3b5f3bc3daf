import Verif.Model.Adaptive
import Mathlib.Algebra.Order.Field.Basic
import Mathlib.Algebra.Order.Archimedean.Basic
import Mathlib.Algebra.Field.Rat
import Mathlib.Algebra.Order.Ring.Rat
import Mathlib.Tactic.Linarith
import Mathlib.Tactic.NormNum
import Mathlib.Tactic.Positivity
import Mathlib.Tactic.ByContra

/-! C21: adaptive time stepping. -/
set_option linter.unusedSectionVars false
namespace NuTo
open Adaptive
variable {K : Type _} [Field K] [LinearOrder K] [IsStrictOrderedRing K]

/-- parameters for which the scheme is meant -/
structure Adaptive.Sane (p : Params K) : Prop where
  dtMin : 0 < p.dtMin
  decrease : 0 < p.decrease ∧ p.decrease < 1
  increase : 1 ≤ p.increase

/-- state between two passes; `F` says that the first step fits -/
structure Adaptive.Inv (tStart tEnd m : K) (F : Prop) (s : St K) : Prop where
  mpos : 0 < m
  dt : 0 < s.dt
  fits : F → s.t + s.dt ≤ tEnd
  big : m ≤ s.dt ∨ s.t + s.dt = tEnd
  posts : ∃ older, s.posts = s.t :: older
  first : ∃ newer, s.posts = newer ++ [tStart]
  incr : s.posts.Pairwise (fun later earlier => earlier < later)
  le : ∀ x ∈ s.posts, x ≤ s.t
  lt : s.t < tEnd ∨ s.posts = [tStart]

namespace Adaptive
variable {p : Params K} {tStart tEnd m : K} {s : St K} {F : Prop}

theorem inv_incr (h : Inv tStart tEnd m F s) : ((s.t + s.dt) :: s.posts).Pairwise (fun later earlier => earlier < later) := by
  rw [List.pairwise_cons]
  exact ⟨fun x hx => by have := h.le x hx; have := h.dt; linarith, h.incr⟩

theorem inv_fail (hp : Sane p) (hm : m ≤ p.dtMin) (h : Inv tStart tEnd m F s) (hlt : ¬ s.dt * p.decrease < p.dtMin) :
    Inv tStart tEnd m F ⟨s.t, s.dt * p.decrease, s.posts⟩ := by
  have hdt := h.dt
  have h1 : s.dt * p.decrease ≤ s.dt := by nlinarith [hp.decrease.2]
  push Not at hlt
  exact ⟨h.mpos, by have := hp.decrease.1; simp only; positivity, fun hF => by have := h.fits hF; simp only; linarith,
    .inl (by simp only; linarith), h.posts, h.first, h.incr, h.le, h.lt⟩

theorem inv_accept (hp : Sane p) (h : Inv tStart tEnd m F s) (hge : ¬ s.t + s.dt ≥ tEnd) (n : Int) :
    m ≤ s.dt ∧ Inv tStart tEnd m F ⟨s.t + s.dt,
      if s.t + s.dt + (if n < 3 ∧ s.dt < p.dtMax then min (s.dt * p.increase) p.dtMax else s.dt) > tEnd
      then tEnd - (s.t + s.dt) else (if n < 3 ∧ s.dt < p.dtMax then min (s.dt * p.increase) p.dtMax else s.dt),
      (s.t + s.dt) :: s.posts⟩ := by
  have hdt := h.dt
  have hmd : m ≤ s.dt := by
    rcases h.big with h' | h'
    · exact h'
    · exact absurd (le_of_eq h'.symm) hge
  have hle : s.dt ≤ (if n < 3 ∧ s.dt < p.dtMax then min (s.dt * p.increase) p.dtMax else s.dt) := by
    split
    · rename_i hc
      apply le_min
      · nlinarith [hp.increase]
      · exact le_of_lt hc.2
    · exact le_refl _
  generalize (if n < 3 ∧ s.dt < p.dtMax then min (s.dt * p.increase) p.dtMax else s.dt) = dt' at hle
  push Not at hge
  refine ⟨hmd, ⟨h.mpos, ?_, ?_, ?_, ⟨_, rfl⟩, ?_, inv_incr h, ?_, .inl hge⟩⟩
  · simp only
    split <;> linarith
  · intro _
    simp only
    split
    · linarith
    · rename_i hc; push Not at hc; linarith
  · simp only
    split
    · right; ring
    · left; linarith
  · obtain ⟨newer, hn⟩ := h.first
    exact ⟨(s.t + s.dt) :: newer, by simp [hn]⟩
  · intro x hx
    rcases List.mem_cons.mp hx with rfl | hx
    · exact le_refl _
    · have := h.le x hx
      simp only; linarith

theorem init_inv (hp : Sane p) (tStart tEnd dt0 : K) (hdt : 0 < dt0) :
    Inv tStart tEnd (min p.dtMin dt0) (tStart + dt0 ≤ tEnd) (⟨tStart, dt0, [tStart]⟩ : St K) :=
  ⟨lt_min hp.dtMin hdt, hdt, id, .inl (min_le_right _ _), ⟨[], rfl⟩, ⟨[], rfl⟩, by simp, by simp, .inr rfl⟩

/-- what is observed of an outcome; `F` says that the first step fits -/
def Good (p : Params K) (tStart tEnd m : K) (F : Prop) : Out K → Prop
  | .running s => Inv tStart tEnd m F s
  | .finished s => tEnd ≤ s.t ∧ (F → s.t = tEnd) ∧ s.posts.Pairwise (fun later earlier => earlier < later) ∧
      ∃ older, s.posts = s.t :: older ∧ (∃ newer, older = newer ++ [tStart]) ∧ (older = [tStart] ∨ ∀ x ∈ older, x < tEnd)
  | .failed s => s.posts.Pairwise (fun later earlier => earlier < later) ∧ (∃ newer, s.posts = newer ++ [tStart]) ∧
      (s.posts = [tStart] ∨ ∀ x ∈ s.posts, x < tEnd) ∧ s.dt < p.dtMin

theorem posts_lt (h : Inv tStart tEnd m F s) : s.posts = [tStart] ∨ ∀ x ∈ s.posts, x < tEnd := by
  rcases h.lt with h1 | h1
  · exact .inr fun x hx => lt_of_le_of_lt (h.le x hx) h1
  · exact .inl h1

theorem good_pass (hp : Sane p) (hm : m ≤ p.dtMin) (h : Inv tStart tEnd m F s) (r : Response) :
    Good p tStart tEnd m F (pass p tEnd s r) := by
  cases r with
  | none =>
    simp only [pass]
    by_cases hlt : s.dt * p.decrease < p.dtMin
    · rw [if_pos hlt]
      exact ⟨h.incr, h.first, (posts_lt h : s.posts = [tStart] ∨ ∀ x ∈ s.posts, x < tEnd), hlt⟩
    · rw [if_neg hlt]
      exact inv_fail hp hm h hlt
  | some n =>
    simp only [pass]
    by_cases hge : s.t + s.dt ≥ tEnd
    · rw [if_pos hge]
      exact ⟨hge, fun hF => le_antisymm (h.fits hF) hge, inv_incr h, _, rfl, h.first, posts_lt h⟩
    · rw [if_neg hge]
      exact (inv_accept hp h hge n).2

theorem good_run (hp : Sane p) (tStart tEnd dt0 : K) (hdt : 0 < dt0) (resp : Nat → Response) (n : Nat) :
    Good p tStart tEnd (min p.dtMin dt0) (tStart + dt0 ≤ tEnd) (run p tStart tEnd dt0 resp n) := by
  unfold run
  induction n with
  | zero => exact init_inv hp tStart tEnd dt0 hdt
  | succ n ih =>
    simp only [runFrom]
    cases hr : runFrom p tEnd resp (.running ⟨tStart, dt0, [tStart]⟩) n with
    | running s => rw [hr] at ih; exact good_pass hp (min_le_left _ _) ih _
    | finished s => rw [hr] at ih; exact ih
    | failed s => rw [hr] at ih; exact ih

def Running : Out K → Prop
  | .running _ => True
  | _ => False

theorem runFrom_add (p : Params K) (tEnd : K) (resp : Nat → Response) (o : Out K) (a b : Nat) :
    runFrom p tEnd resp o (a + b) = runFrom p tEnd (fun k => resp (a + k)) (runFrom p tEnd resp o a) b := by
  induction b with
  | zero => rfl
  | succ b ih => rw [← Nat.add_assoc]; simp only [runFrom]; rw [ih]

theorem runFrom_stopped (p : Params K) (tEnd : K) (resp : Nat → Response) (o : Out K) (h : ¬ Running o) (n : Nat) :
    runFrom p tEnd resp o n = o := by
  induction n with
  | zero => rfl
  | succ n ih =>
    simp only [runFrom]; rw [ih]
    cases o with
    | running s => exact absurd trivial h
    | finished s => rfl
    | failed s => rfl

variable [Archimedean K]

theorem stops (hp : Sane p) (hm : m ≤ p.dtMin) : ∀ (N : Nat) (s : St K) (f : Nat) (resp : Nat → Response),
    Inv tStart tEnd m F s → tEnd - s.t ≤ N * m → s.dt * p.decrease ^ f < p.dtMin →
    ∃ n, ¬ Running (runFrom p tEnd resp (.running s) n) := by
  intro N
  induction N with
  | zero =>
    intro s f
    induction f generalizing s with
    | zero =>
      intro resp h hN hf
      refine ⟨1, ?_⟩
      simp only [runFrom]
      have hdt := h.dt
      cases hr : resp 0 with
      | none =>
        simp only [pass]
        have : s.dt * p.decrease < p.dtMin := by
          have : s.dt * p.decrease ≤ s.dt := by nlinarith [hp.decrease.2]
          simp only [pow_zero, mul_one] at hf
          linarith
        rw [if_pos this]; simp [Running]
      | some n =>
        simp only [pass]
        have : s.t + s.dt ≥ tEnd := by simp only [Nat.cast_zero, zero_mul] at hN; linarith
        rw [if_pos this]; simp [Running]
    | succ f ihf =>
      intro resp h hN hf
      have hdt := h.dt
      cases hr : resp 0 with
      | none =>
        by_cases hlt : s.dt * p.decrease < p.dtMin
        · refine ⟨1, ?_⟩
          simp only [runFrom, hr, pass]
          rw [if_pos hlt]; simp [Running]
        · obtain ⟨n, hn⟩ := ihf ⟨s.t, s.dt * p.decrease, s.posts⟩ (fun k => resp (1 + k)) (inv_fail hp hm h hlt) hN (by
            simp only
            rw [mul_assoc, ← pow_succ']; exact hf)
          refine ⟨1 + n, ?_⟩
          rw [runFrom_add]
          have e : runFrom p tEnd resp (.running s) 1 = .running ⟨s.t, s.dt * p.decrease, s.posts⟩ := by
            simp only [runFrom, hr, pass]; rw [if_neg hlt]
          rw [e]; exact hn
      | some n =>
        refine ⟨1, ?_⟩
        simp only [runFrom, hr, pass]
        have : s.t + s.dt ≥ tEnd := by simp only [Nat.cast_zero, zero_mul] at hN; linarith
        rw [if_pos this]; simp [Running]
  | succ N ihN =>
    intro s f
    induction f generalizing s with
    | zero =>
      intro resp h hN hf
      have hdt := h.dt
      cases hr : resp 0 with
      | none =>
        refine ⟨1, ?_⟩
        simp only [runFrom, hr, pass]
        have : s.dt * p.decrease < p.dtMin := by
          have : s.dt * p.decrease ≤ s.dt := by nlinarith [hp.decrease.2]
          simp only [pow_zero, mul_one] at hf
          linarith
        rw [if_pos this]; simp [Running]
      | some k => exact accept hp ihN resp h hN hr
    | succ f ihf =>
      intro resp h hN hf
      have hdt := h.dt
      cases hr : resp 0 with
      | none =>
        by_cases hlt : s.dt * p.decrease < p.dtMin
        · refine ⟨1, ?_⟩
          simp only [runFrom, hr, pass]
          rw [if_pos hlt]; simp [Running]
        · obtain ⟨n, hn⟩ := ihf ⟨s.t, s.dt * p.decrease, s.posts⟩ (fun k => resp (1 + k)) (inv_fail hp hm h hlt) hN (by
            simp only
            rw [mul_assoc, ← pow_succ']; exact hf)
          refine ⟨1 + n, ?_⟩
          rw [runFrom_add]
          have e : runFrom p tEnd resp (.running s) 1 = .running ⟨s.t, s.dt * p.decrease, s.posts⟩ := by
            simp only [runFrom, hr, pass]; rw [if_neg hlt]
          rw [e]; exact hn
      | some k => exact accept hp ihN resp h hN hr
where
  accept {p : Params K} {tStart tEnd m : K} {F : Prop} (hp : Sane p) {N : Nat} {s : St K}
    (ihN : ∀ (s : St K) (f : Nat) (resp : Nat → Response),
      Inv tStart tEnd m F s → tEnd - s.t ≤ N * m → s.dt * p.decrease ^ f < p.dtMin →
      ∃ n, ¬ Running (runFrom p tEnd resp (.running s) n)) {k : Int}
    (resp : Nat → Response) (h : Inv tStart tEnd m F s) (hN : tEnd - s.t ≤ (N + 1 : Nat) * m) (hr : resp 0 = some k) :
      ∃ n, ¬ Running (runFrom p tEnd resp (.running s) n) := by
    by_cases hge : s.t + s.dt ≥ tEnd
    · refine ⟨1, ?_⟩
      simp only [runFrom, hr, pass]
      rw [if_pos hge]; simp [Running]
    · obtain ⟨hmd, hi⟩ := inv_accept hp h hge k
      set s' : St K := ⟨s.t + s.dt,
        if s.t + s.dt + (if k < 3 ∧ s.dt < p.dtMax then min (s.dt * p.increase) p.dtMax else s.dt) > tEnd
        then tEnd - (s.t + s.dt) else (if k < 3 ∧ s.dt < p.dtMax then min (s.dt * p.increase) p.dtMax else s.dt),
        (s.t + s.dt) :: s.posts⟩ with hs'
      have hpos := hi.dt
      obtain ⟨f, hf⟩ := exists_pow_lt_of_lt_one (div_pos hp.dtMin hpos) hp.decrease.2
      have hf' : s'.dt * p.decrease ^ f < p.dtMin := by
        rw [lt_div_iff₀ hpos] at hf
        linarith
      obtain ⟨n, hn⟩ := ihN s' f (fun j => resp (1 + j)) hi (by
        push_cast at hN
        simp only [hs']
        nlinarith) hf'
      refine ⟨1 + n, ?_⟩
      rw [runFrom_add]
      have e : runFrom p tEnd resp (.running s) 1 = .running s' := by
        simp only [runFrom, hr, pass]; rw [if_neg hge]
      rw [e]; exact hn

end Adaptive

/-- C21, safety, when the first step fits (`tStart + dt <= tEnd`): for every pattern of convergence failures and iteration
numbers and at every moment, the post processed times strictly increase from `tStart`, all are below `tEnd` until the call
ends, and when it ends regularly the last one is exactly `tEnd`.
Missing for the full claim: a first step beyond the end time is not shortened, see `C21_first_step_counterexample`. -/
theorem C21_safety_partial {p : Params K} (hp : Sane p) (tStart tEnd dt0 : K) (hdt : 0 < dt0) (hfit : tStart + dt0 ≤ tEnd)
    (resp : Nat → Response) (n : Nat) (s : St K) :
    (run p tStart tEnd dt0 resp n = .running s ∨ run p tStart tEnd dt0 resp n = .failed s →
      s.posts.Pairwise (fun later earlier => earlier < later) ∧ ∀ x ∈ s.posts, tStart ≤ x ∧ x < tEnd) ∧
    (run p tStart tEnd dt0 resp n = .finished s → s.t = tEnd ∧ s.posts.Pairwise (fun later earlier => earlier < later) ∧
      ∃ older, s.posts = tEnd :: older ∧ ∀ x ∈ older, tStart ≤ x ∧ x < tEnd) := by
  have hg := good_run hp tStart tEnd dt0 hdt resp n
  have hse : tStart < tEnd := by linarith
  have low : ∀ l : List K, l.Pairwise (fun later earlier => earlier < later) → (∃ newer, l = newer ++ [tStart]) →
      ∀ x ∈ l, tStart ≤ x := by
    rintro l hl ⟨newer, rfl⟩ x hx
    rcases List.mem_append.mp hx with hx | hx
    · exact le_of_lt ((List.pairwise_append.mp hl).2.2 x hx tStart (by simp))
    · simp only [List.mem_singleton] at hx; exact le_of_eq hx.symm
  have upp : ∀ l : List K, (l = [tStart] ∨ ∀ x ∈ l, x < tEnd) → ∀ x ∈ l, x < tEnd := by
    rintro l (rfl | h) x hx
    · simp only [List.mem_singleton] at hx; rw [hx]; exact hse
    · exact h x hx
  refine ⟨?_, ?_⟩
  · rintro (h | h)
    · rw [h] at hg
      have hg : Inv tStart tEnd (min p.dtMin dt0) (tStart + dt0 ≤ tEnd) s := hg
      exact ⟨hg.incr, fun x hx => ⟨low _ hg.incr hg.first x hx, upp _ (posts_lt hg) x hx⟩⟩
    · rw [h] at hg
      obtain ⟨g1, g2, g3, _⟩ := hg
      exact ⟨g1, fun x hx => ⟨low _ g1 g2 x hx, upp _ g3 x hx⟩⟩
  · intro h
    rw [h] at hg
    obtain ⟨_, g2, g3, older, g4, g5, g6⟩ := hg
    have ht := g2 hfit
    refine ⟨ht, g3, older, by rw [g4, ht], ?_⟩
    rw [g4] at g3
    exact fun x hx => ⟨low _ (List.pairwise_cons.mp g3).2 g5 x hx, upp _ g6 x hx⟩

/-- C21, without the condition on the first step: the times still strictly increase, the call ends regularly only at or
beyond `tEnd`, and every time before the last one that is not the start time is below `tEnd`. -/
theorem C21_general_partial {p : Params K} (hp : Sane p) (tStart tEnd dt0 : K) (hdt : 0 < dt0)
    (resp : Nat → Response) (n : Nat) (s : St K) (h : run p tStart tEnd dt0 resp n = .finished s) :
    tEnd ≤ s.t ∧ s.posts.Pairwise (fun later earlier => earlier < later) ∧
      ∃ older, s.posts = s.t :: older ∧ (older = [tStart] ∨ ∀ x ∈ older, x < tEnd) := by
  have hg := good_run hp tStart tEnd dt0 hdt resp n
  rw [h] at hg
  obtain ⟨g1, _, g3, older, g4, _, g6⟩ := hg
  exact ⟨g1, g3, older, g4, g6⟩

/-- C21, liveness: for every start, end, initial step and pattern of responses the call ends after finitely many passes,
regularly or with the exception about the minimal time step. -/
theorem C21_terminates [Archimedean K] {p : Params K} (hp : Sane p) (tStart tEnd dt0 : K) (hdt : 0 < dt0)
    (resp : Nat → Response) :
    ∃ n s, run p tStart tEnd dt0 resp n = .finished s ∨ run p tStart tEnd dt0 resp n = .failed s ∧ s.dt < p.dtMin := by
  have hi := init_inv hp tStart tEnd dt0 hdt
  obtain ⟨N, hN⟩ := exists_nat_gt ((tEnd - tStart) / min p.dtMin dt0)
  rw [div_lt_iff₀ hi.mpos] at hN
  obtain ⟨f, hf⟩ := exists_pow_lt_of_lt_one (div_pos hp.dtMin hdt) hp.decrease.2
  rw [lt_div_iff₀ hdt] at hf
  obtain ⟨n, hn⟩ := stops hp (min_le_left _ _) N _ f resp hi (le_of_lt hN) (by simp only; linarith)
  have hg := good_run hp tStart tEnd dt0 hdt resp n
  unfold run
  unfold run at hg
  cases hr : runFrom p tEnd resp (.running ⟨tStart, dt0, [tStart]⟩) n with
  | running s => rw [hr] at hn; exact absurd trivial hn
  | finished s => exact ⟨n, s, .inl hr⟩
  | failed s => rw [hr] at hg; exact ⟨n, s, .inr ⟨hr, hg.2.2.2⟩⟩

/-- the default parameters, AdaptiveSolve.h 28-32 -/
def Adaptive.defaults : Params ℚ := ⟨1 / 10, 1 / 1000000, 3 / 2, 1 / 2⟩
theorem Adaptive.defaults_sane : Sane defaults := ⟨by decide +kernel, by decide +kernel, by decide +kernel⟩

/-- C21 is false as stated: with the default parameters (`dt = 0.1`) and `tEnd = 0.05` the first accepted time is 0.1, beyond
the end time. -/
theorem C21_first_step_counterexample (resp : Nat → Response) (h : resp 0 = some 1) :
    run defaults 0 (1 / 20) (1 / 10) resp 1 = .finished ⟨1 / 10, 1 / 10, [1 / 10, 0]⟩ := by
  simp only [run, runFrom, h]
  decide +kernel

/-- the hypotheses of C21 are met by the default parameters with `tEnd = 1`; a run with a failure, and a run that fails -/
example : Sane defaults ∧ (0 : ℚ) < 1 / 10 ∧ (0 : ℚ) + 1 / 10 ≤ 1 / 4 ∧
    run defaults 0 (1 / 4) (1 / 10) (fun k => if k = 1 then none else some 4) 6 =
      .finished ⟨1 / 4, 1 / 20, [1 / 4, 1 / 5, 3 / 20, 1 / 10, 0]⟩ ∧
    run defaults 0 (1 / 4) (1 / 10) (fun _ => none) 20 = .failed ⟨0, 1 / 1310720, [0]⟩ :=
  ⟨defaults_sane, by decide +kernel, by decide +kernel, by decide +kernel, by decide +kernel⟩

end NuTo
