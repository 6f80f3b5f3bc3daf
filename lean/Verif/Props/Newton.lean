import Verif.Model.Newton
import Verif.Lemmas.MatrixAssembler
import Mathlib.Tactic.Ring
import Mathlib.Tactic.NormNum
import Mathlib.Algebra.Order.Field.Basic
import Mathlib.Algebra.Field.Rat
import Mathlib.Algebra.Order.Ring.Rat

/-! C20: Newton's method and the line search. -/
set_option linter.unusedSectionVars false
namespace NuTo
open Newton
variable {X D K : Type _} [Field K] [LinearOrder K]

/-- the loop of the line search: which trial is taken -/
theorem Newton.lsLoop_spec (p : Problem X D K) (x0 dx : X) (prev : K) : ∀ (m : Nat) (alpha : K) (x r : X) (o : LsOut X),
    lsLoop p x0 dx prev m alpha x r = .ok o →
    (m = 0 ∧ o = ⟨false, x, r⟩) ∨
    ∃ (k : Nat) (n : K), k < m ∧ p.axpy x0 (alpha / 2 ^ k) dx = .ok o.x ∧ p.residual o.x = .ok o.r ∧ p.norm o.r = .ok n ∧
      (o.converged = true ↔ n < p.tol) ∧
      (n < p.tol ∨ n < (1 - alpha / 2 ^ (k + 1)) * prev ∨ k + 1 = m) ∧
      ∀ j, j < k → ∃ (xj rj : X) (nj : K), p.axpy x0 (alpha / 2 ^ j) dx = .ok xj ∧ p.residual xj = .ok rj ∧
        p.norm rj = .ok nj ∧ ¬ nj < p.tol ∧ ¬ nj < (1 - alpha / 2 ^ (j + 1)) * prev := by
  intro m
  induction m with
  | zero =>
    intro alpha x r o h
    simp only [lsLoop, Res.ok.injEq] at h
    exact .inl ⟨rfl, h.symm⟩
  | succ m ih =>
    intro alpha x r o h
    right
    simp only [lsLoop] at h
    obtain ⟨x1, h1, h⟩ := Res.bind_eq_ok h
    obtain ⟨r1, h2, h⟩ := Res.bind_eq_ok h
    obtain ⟨n1, h3, h⟩ := Res.bind_eq_ok h
    split at h
    · rename_i hc
      simp only [Res.ok.injEq] at h
      subst h
      exact ⟨0, n1, by omega, by simpa using h1, h2, h3, by simp [hc], .inl hc, by intro j hj; omega⟩
    · rename_i hc
      split at h
      · rename_i hd
        simp only [Res.ok.injEq] at h
        subst h
        exact ⟨0, n1, by omega, by simpa using h1, h2, h3, by simp [hc], .inr (.inl (by simpa using hd)),
          by intro j hj; omega⟩
      · rename_i hd
        rcases ih _ _ _ _ h with ⟨hm, ho⟩ | ⟨k, n, hk, k1, k2, k3, k4, k5, k6⟩
        · subst hm; subst ho
          exact ⟨0, n1, by omega, by simpa using h1, h2, h3, by simp [hc], .inr (.inr rfl), by intro j hj; omega⟩
        · have e : ∀ j : Nat, alpha / 2 / 2 ^ j = alpha / 2 ^ (j + 1) := by
            intro j; rw [div_div, ← pow_succ']
          refine ⟨k + 1, n, by omega, by rw [← e]; exact k1, k2, k3, k4, ?_, ?_⟩
          · rw [← e]
            rcases k5 with h | h | h
            · exact .inl h
            · exact .inr (.inl h)
            · exact .inr (.inr (by omega))
          · intro j hj
            cases j with
            | zero =>
              refine ⟨x1, r1, n1, by simpa using h1, h2, h3, hc, ?_⟩
              simpa using hd
            | succ j =>
              obtain ⟨xj, rj, nj, a1, a2, a3, a4, a5⟩ := k6 j (by omega)
              exact ⟨xj, rj, nj, by rw [← e]; exact a1, a2, a3, a4, by rw [← e]; exact a5⟩

/-- C20, line search: if it returns, the accepted step length is `2^-k` for the *first* `k` whose residual norm is below the
tolerance or fulfils the descent condition `|r| < (1 - 2^-(k+1)) |r0|`, or the last of the `maxSteps` trials if none does;
`true` is returned exactly if the accepted residual norm is below the tolerance; the returned residual belongs to the
returned `x`. -/
theorem C20_lineSearch (p : Problem X D K) (maxSteps : Nat) (hm : 0 < maxSteps) (r x dx : X) (o : LsOut X)
    (h : lineSearch maxSteps p r x dx = .ok o) :
    ∃ (r0 : X) (n0 : K) (k : Nat) (n : K), p.residual x = .ok r0 ∧ p.norm r0 = .ok n0 ∧ k < maxSteps ∧
      p.axpy x (1 / 2 ^ k) dx = .ok o.x ∧ p.residual o.x = .ok o.r ∧ p.norm o.r = .ok n ∧
      (o.converged = true ↔ n < p.tol) ∧
      (n < p.tol ∨ n < (1 - 1 / 2 ^ (k + 1)) * n0 ∨ k + 1 = maxSteps) ∧
      ∀ j, j < k → ∃ (xj rj : X) (nj : K), p.axpy x (1 / 2 ^ j) dx = .ok xj ∧ p.residual xj = .ok rj ∧
        p.norm rj = .ok nj ∧ ¬ nj < p.tol ∧ ¬ nj < (1 - 1 / 2 ^ (j + 1)) * n0 := by
  unfold lineSearch at h
  obtain ⟨r0, h1, h⟩ := Res.bind_eq_ok h
  obtain ⟨n0, h2, h⟩ := Res.bind_eq_ok h
  rcases lsLoop_spec p x dx n0 maxSteps 1 x r o h with ⟨h0, _⟩ | ⟨k, n, h3⟩
  · omega
  · exact ⟨r0, n0, k, n, h1, h2, h3⟩

/-- what Newton's method needs of a line search algorithm -/
def Newton.GoodLs (ls : Problem X D K → X → X → X → Res (LsOut X)) : Prop :=
  ∀ p r x dx o, p.residual x = .ok r → (∃ n, p.norm r = .ok n ∧ ¬ n < p.tol) → ls p r x dx = .ok o →
    p.residual o.x = .ok o.r ∧ ∃ n, p.norm o.r = .ok n ∧ (o.converged = true ↔ n < p.tol)

theorem Newton.goodLs_lineSearch (m : Nat) : GoodLs (X := X) (D := D) (K := K) (lineSearch m) := by
  intro p r x dx o hr hn h
  unfold lineSearch at h
  obtain ⟨r0, h1, h⟩ := Res.bind_eq_ok h
  obtain ⟨n0, h2, h⟩ := Res.bind_eq_ok h
  rcases lsLoop_spec p x dx n0 m 1 x r o h with ⟨h0, rfl⟩ | ⟨k, n, h3⟩
  · obtain ⟨n, hn1, hn2⟩ := hn
    exact ⟨hr, n, hn1, by simp [hn2]⟩
  · exact ⟨h3.2.2.1, n, h3.2.2.2.1, h3.2.2.2.2.1⟩

theorem Newton.goodLs_noLineSearch : GoodLs (X := X) (D := D) (K := K) noLineSearch := by
  intro p r x dx o _ _ h
  unfold noLineSearch at h
  obtain ⟨x1, h1, h⟩ := Res.bind_eq_ok h
  obtain ⟨r1, h2, h⟩ := Res.bind_eq_ok h
  obtain ⟨n, h3, h⟩ := Res.bind_eq_ok h
  simp only [Res.ok.injEq] at h
  subst h
  exact ⟨h2, n, h3, by simp⟩

/-- the converged states -/
def Newton.Converged (p : Problem X D K) (x : X) : Prop := ∃ r n, p.residual x = .ok r ∧ p.norm r = .ok n ∧ n < p.tol

theorem Newton.loop_spec (p : Problem X D K) (solver : D → X → Res X) (ls : Problem X D K → X → X → X → Res (LsOut X))
    (hls : GoodLs ls) : ∀ (n it : Nat) (x r : X), p.residual x = .ok r → (∃ a, p.norm r = .ok a ∧ ¬ a < p.tol) →
      (loop p solver ls n it x r).1.length ≤ n ∧
      (∀ c ∈ (loop p solver ls n it x r).1, p.derivative c.x = .ok c.dr ∧ p.residual c.x = .ok c.r ∧ ¬ Converged p c.x) ∧
      (∀ y k, (loop p solver ls n it x r).2 = .ok (.converged y k) → Converged p y ∧
        k = some (it + (loop p solver ls n it x r).1.length) ∧ 0 < (loop p solver ls n it x r).1.length) ∧
      (∀ k, (loop p solver ls n it x r).2 = .ok (.noConvergence k) → k = it + n ∧
        (loop p solver ls n it x r).1.length = n) := by
  intro n
  induction n with
  | zero => intro it x r _ _; simp [loop]
  | succ n ih =>
    intro it x r hr ha
    have hnc : ¬ Converged p x := by
      rintro ⟨r', m, h1, h2, h3⟩
      rw [hr] at h1
      simp only [Res.ok.injEq] at h1
      subst h1
      obtain ⟨a, a1, a2⟩ := ha
      rw [a1] at h2
      simp only [Res.ok.injEq] at h2
      subst h2
      exact a2 h3
    simp only [loop]
    cases hd : p.derivative x with
    | throw => simp
    | ub => simp
    | ok dr =>
      simp only
      cases hs : (solver dr r).bind fun dx => ls p r x dx with
      | throw => simp [hd, hr, hnc]
      | ub => simp [hd, hr, hnc]
      | ok o =>
        simp only
        obtain ⟨dx, hdx, ho⟩ := Res.bind_eq_ok hs
        obtain ⟨o1, m, o2, o3⟩ := hls p r x dx o hr ha ho
        by_cases hc : o.converged = true
        · rw [if_pos hc]
          refine ⟨by simp, by simp [hd, hr, hnc], ?_, by simp⟩
          intro y k hy
          simp only [Res.ok.injEq, Out.converged.injEq] at hy
          obtain ⟨rfl, rfl⟩ := hy
          exact ⟨⟨o.r, m, o1, o2, o3.mp hc⟩, by simp, by simp⟩
        · rw [if_neg hc]
          obtain ⟨i1, i2, i3, i4⟩ := ih (it + 1) o.x o.r o1 ⟨m, o2, fun h => hc (o3.mpr h)⟩
          refine ⟨by simpa using i1, ?_, ?_, ?_⟩
          · intro c hcm
            rcases List.mem_cons.mp hcm with rfl | hcm
            · exact ⟨hd, hr, hnc⟩
            · exact i2 c hcm
          · intro y k hy
            obtain ⟨a, b, c⟩ := i3 y k hy
            refine ⟨a, ?_, by simp⟩
            rw [b, List.length_cons]; congr 1; omega
          · intro k hk
            obtain ⟨a, b⟩ := i4 k hk
            exact ⟨by omega, by simpa using b⟩

/-- C20: whatever the residual, derivative, norm and linear solver do (they may throw), with either line search algorithm,
`Solve` returns only converged solutions, makes at most `maxIterations` linear solves, each with the derivative and residual
of a not yet converged iterate, and `NoConvergence` is raised exactly after `maxIterations` of them. The reported number of
iterations is the number of linear solves; it is not written if the start value is converged, and only then no linear solve
is made on success. -/
theorem C20_newton (p : Problem X D K) (solver : D → X → Res X) (ls : Problem X D K → X → X → X → Res (LsOut X))
    (hls : ls = noLineSearch ∨ ∃ m, ls = lineSearch m) (maxIt : Nat) (x0 : X) :
    (solve p solver ls maxIt x0).1.length ≤ maxIt ∧
    (∀ c ∈ (solve p solver ls maxIt x0).1, p.derivative c.x = .ok c.dr ∧ p.residual c.x = .ok c.r ∧
      ¬ ∃ r n, p.residual c.x = .ok r ∧ p.norm r = .ok n ∧ n < p.tol) ∧
    (∀ y k, (solve p solver ls maxIt x0).2 = .ok (.converged y k) →
      (∃ r n, p.residual y = .ok r ∧ p.norm r = .ok n ∧ n < p.tol) ∧
      (k = none → y = x0 ∧ (solve p solver ls maxIt x0).1 = []) ∧
      (∀ j, k = some j → j = (solve p solver ls maxIt x0).1.length ∧ 0 < j)) ∧
    (∀ k, (solve p solver ls maxIt x0).2 = .ok (.noConvergence k) →
      k = maxIt ∧ (solve p solver ls maxIt x0).1.length = maxIt) := by
  have hg : GoodLs ls := by
    rcases hls with rfl | ⟨m, rfl⟩
    · exact goodLs_noLineSearch
    · exact goodLs_lineSearch m
  unfold solve
  cases hr : p.residual x0 with
  | throw => simp
  | ub => simp
  | ok r =>
    simp only
    cases hn : p.norm r with
    | throw => simp
    | ub => simp
    | ok n =>
      simp only
      by_cases hc : n < p.tol
      · rw [if_pos hc]
        refine ⟨by simp, by simp, ?_, by simp⟩
        intro y k h
        simp only [Res.ok.injEq, Out.converged.injEq] at h
        obtain ⟨rfl, rfl⟩ := h
        exact ⟨⟨r, n, hr, hn, hc⟩, by simp, by simp⟩
      · rw [if_neg hc]
        obtain ⟨h1, h2, h3, h4⟩ := loop_spec p solver ls hg maxIt 0 x0 r hr ⟨n, hn, hc⟩
        refine ⟨h1, h2, ?_, ?_⟩
        · intro y k h
          obtain ⟨a, b, c⟩ := h3 y k h
          refine ⟨a, by rw [b]; simp, ?_⟩
          intro j hj
          rw [b] at hj
          simp only [Option.some.injEq] at hj
          omega
        · intro k h
          obtain ⟨a, b⟩ := h4 k h
          exact ⟨by omega, b⟩

/-- a scalar problem `x^2 - 4 = 0` with `DoubleSolver` -/
def exNewton : Problem ℚ ℚ ℚ :=
  ⟨fun x => .ok (x * x - 4), fun x => .ok (2 * x), fun r => .ok |r|, 1 / 100, fun x a d => .ok (x - a * d)⟩
def exDoubleSolver (dr r : ℚ) : Res ℚ := if dr = 0 then .throw else .ok (r / dr)

/-- it converges from 3 in three iterations, does not within one, reports a converged start value, and at the bad start
value 1/4 the line search takes a quarter of the step -/
example : (solve exNewton exDoubleSolver noLineSearch 20 3).2 = .ok (.converged (195313 / 97656) (some 3)) ∧
    (solve exNewton exDoubleSolver (lineSearch 6) 1 3).2 = .ok (.noConvergence 1) ∧
    (solve exNewton exDoubleSolver (lineSearch 6) 20 2).2 = .ok (.converged 2 none) ∧
    lineSearch 6 exNewton (1/16 - 4) (1/4) ((1/16 - 4) / (1/2)) = .ok ⟨false, 71 / 32, 945 / 1024⟩ := by
  decide +kernel

end NuTo
