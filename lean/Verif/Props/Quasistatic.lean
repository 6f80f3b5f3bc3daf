import Verif.Model.Quasistatic
import Verif.Props.Newton
import Verif.Lemmas.Solve
import Mathlib.Algebra.Order.BigOperators.Group.Finset

/-! C18, C19: convergence norm and load steps of the quasi-static solver. -/
set_option linter.unusedSectionVars false
namespace NuTo
open Quasistatic
variable {K : Type _} [Field K] [LinearOrder K]

/-- C18 is false with two active dof types: the off-diagonal blocks of the constraint matrix have size 0 x 0, so the diagonal
blocks overlap in the flat matrix and the projected residuals of different dof types are added.  Two dof types with one
unconstrained dof each and residual (1, -1): the norm used for the convergence check is 0, although `C^T r = (1, -1)`. -/
theorem C18_norm_counterexample :
    ∃ (bcs : Bcs ℚ) (cmat : DofSpMat ℚ), (∀ d, bcs.unit d 1 = .ok ⟨1, 1, [⟨0, 0, 1⟩]⟩) ∧
      setConstraints bcs (fun _ => 1) [] [0, 1] = .ok cmat ∧
      normSq cmat [0, 1] [(0, [1]), (1, [-1])] = .ok 0 ∧
      (⟨1, 1, [⟨0, 0, 1⟩]⟩ : SpMat ℚ).transpose.mulVec [1] = .ok [1] :=
  ⟨⟨fun _ _ => .ok ⟨1, 1, [⟨0, 0, 1⟩]⟩, fun _ _ _ => .ok [0]⟩,
    [(toLex (0, 0), ⟨1, 1, [⟨0, 0, 1⟩]⟩), (toLex (0, 1), ⟨0, 0, []⟩), (toLex (1, 0), ⟨0, 0, []⟩),
      (toLex (1, 1), ⟨1, 1, [⟨0, 0, 1⟩]⟩)], fun _ => rfl, by decide +kernel, by decide +kernel, by decide +kernel⟩

/-- C18 with one active dof type: the norm is the norm of the complete projected residual `C^T r`, in particular every
component of `C^T r` is below the tolerance when the norm is.
Missing for the full claim: several dof types. -/
theorem C18_norm_single_partial [IsStrictOrderedRing K] (bcs : Bcs K) (size : Nat → Nat) (d : Nat) (C : SpMat K)
    (hC : bcs.unit d (size d) = .ok C) (hw : C.WF) (c0 : DofSpMat K) (res : DofVec K) (r : List K)
    (hr : res.find? d = some r) (hrl : r.length = C.rows) :
    ∃ cmat n, setConstraints bcs size c0 [d] = .ok cmat ∧ normSq cmat [d] res = .ok n ∧
      n = ∑ k ∈ Finset.range C.cols, (∑ i ∈ Finset.range C.rows, C.entry i k * r.getD i 0) ^ 2 ∧
      ∀ tol : K, 0 < tol → n < tol ^ 2 → ∀ k, k < C.cols → |∑ i ∈ Finset.range C.rows, C.entry i k * r.getD i 0| < tol := by
  obtain ⟨y, hy⟩ := SpMat.mulVec_ok C.transpose r hrl
  obtain ⟨_, y1, y2⟩ := SpMat.mulVec_eq_ok (SpMat.transpose_wf hw) hy
  have hsum : (y.map fun v => v * v).sum =
      ∑ k ∈ Finset.range C.cols, (∑ i ∈ Finset.range C.rows, C.entry i k * r.getD i 0) ^ 2 := by
    have hlen : y.length = C.cols := y1
    rw [← hlen]
    have e : ∀ l : List K, (l.map fun v => v * v).sum = ∑ k ∈ Finset.range l.length, (l.getD k 0) ^ 2 := by
      intro l
      induction l with
      | nil => simp
      | cons a l ih =>
        rw [List.map_cons, List.sum_cons, ih, List.length_cons, Finset.sum_range_succ']
        simp only [List.getD_cons_succ, List.getD_cons_zero]
        ring
    rw [e]
    apply Finset.sum_congr rfl
    intro k hk
    rw [y2 k (by show k < C.cols; rw [← hlen]; exact Finset.mem_range.mp hk)]
    congr 1
    show ∑ j ∈ Finset.range C.rows, _ = _
    apply Finset.sum_congr rfl
    intro i _
    rw [SpMat.transpose_entry]
  refine ⟨c0.set (toLex (d, d)) C, _, ?_, ?_, hsum, ?_⟩
  · simp [setConstraints, Solve.allPairs, constraintStep, hC]
  · unfold normSq
    rw [DofVec.toEigen_eq res (fun _ => r) [d] (by intro e he; simp only [List.mem_singleton] at he; subst he; exact hr)]
    simp only [Res.bind_ok', DofSpMat.toEigen, DofSpMat.at2, OMap.at', OMap.find?_set, if_true, List.flatMap_cons,
      List.flatMap_nil, List.append_nil, hy]
  · intro tol ht hn k hk
    rw [hsum] at hn
    have h1 : (∑ i ∈ Finset.range C.rows, C.entry i k * r.getD i 0) ^ 2 < tol ^ 2 := by
      refine lt_of_le_of_lt ?_ hn
      exact Finset.single_le_sum (f := fun k => (∑ i ∈ Finset.range C.rows, C.entry i k * r.getD i 0) ^ 2)
        (fun i _ => sq_nonneg _) (Finset.mem_range.mpr hk)
    exact abs_lt_of_sq_lt_sq h1 (le_of_lt ht)

/-- the hypotheses of `C18_norm_single_partial`: two dofs, `u0 + 2 u1 = 0` -/
example : (⟨2, 1, [⟨1, 0, 1⟩, ⟨0, 0, -2⟩]⟩ : SpMat ℚ).WF ∧
    normSq [(toLex (0, 0), (⟨2, 1, [⟨1, 0, 1⟩, ⟨0, 0, -2⟩]⟩ : SpMat ℚ))] [0] [(0, [1, 5])] = .ok 9 := by
  refine ⟨?_, by decide +kernel⟩
  intro t ht
  simp only [List.mem_cons, List.not_mem_nil, or_false] at ht
  rcases ht with rfl | rfl <;> simp

variable {X D H : Type _}

/-- C19, failure: if `DoStep` raises because the step did not converge, or because the trial state could not be computed, the
stored solution, the global time and the history data are those before the call.
Missing for the full claim: the stored step size, see `C19_step_size_counterexample`. -/
theorem C19_failure_partial (e : Env X D H K) (s : State X H K) (newTime : K)
    (h : (doStep e s newTime).2 = .noConvergence ∨ (doStep e s newTime).2 = .trialError) :
    (doStep e s newTime).1.x = s.x ∧ (doStep e s newTime).1.time = s.time ∧ (doStep e s newTime).1.hist = s.hist ∧
    ((doStep e s newTime).2 = .trialError → (doStep e s newTime).1 = s) := by
  unfold doStep at h ⊢
  cases htr : trialState e s newTime with
  | throw => simp
  | ub => rw [htr] at h; simp at h
  | ok trial =>
    rw [htr] at h
    simp only at h ⊢
    cases hs : (Newton.solve (problem e { s with step := newTime - s.time }) e.solve (Newton.lineSearch 6) 6 trial).2 with
    | throw => simp
    | ub => rw [hs] at h; simp at h
    | ok o =>
      rw [hs] at h
      cases o with
      | noConvergence k => simp
      | converged y k =>
        simp only at h ⊢
        cases hn : e.norm y with
        | throw => rw [hn] at h; simp at h
        | ub => rw [hn] at h; simp at h
        | ok n =>
          rw [hn] at h
          simp only at h ⊢
          by_cases hg : n > 10000000000
          · rw [if_pos hg]; simp
          · rw [if_neg hg] at h
            split at h <;> simp at h

/-- C19, success: the history is updated exactly once, with the converged solution at the new time; the time advances to the
new time; the stored solution is converged for the old history data and at most six linear solves were made. -/
theorem C19_success (e : Env X D H K) (s : State X H K) (newTime : K) (k : Nat)
    (h : (doStep e s newTime).2 = .converged k) :
    (doStep e s newTime).1.time = newTime ∧ (doStep e s newTime).1.step = newTime - s.time ∧
    e.update s.hist (doStep e s newTime).1.x (s.time + (newTime - s.time)) (newTime - s.time) =
      ((doStep e s newTime).1.hist, true) ∧
    k ≤ 6 ∧
    ∃ r n, e.gradient s.hist (doStep e s newTime).1.x (s.time + (newTime - s.time)) (newTime - s.time) = .ok r ∧
      e.norm r = .ok n ∧ n < e.tol := by
  unfold doStep at h ⊢
  cases htr : trialState e s newTime with
  | throw => rw [htr] at h; simp at h
  | ub => rw [htr] at h; simp at h
  | ok trial =>
    rw [htr] at h
    simp only at h ⊢
    obtain ⟨n1, n2, n3, n4⟩ := C20_newton (problem e { s with step := newTime - s.time }) e.solve (Newton.lineSearch 6)
      (.inr ⟨6, rfl⟩) 6 trial
    cases hs : (Newton.solve (problem e { s with step := newTime - s.time }) e.solve (Newton.lineSearch 6) 6 trial).2 with
    | throw => rw [hs] at h; simp at h
    | ub => rw [hs] at h; simp at h
    | ok o =>
      rw [hs] at h
      cases o with
      | noConvergence k => simp at h
      | converged y j =>
        simp only at h ⊢
        obtain ⟨c1, c2, c3⟩ := n3 y j hs
        cases hn : e.norm y with
        | throw => rw [hn] at h; simp at h
        | ub => rw [hn] at h; simp at h
        | ok n =>
          rw [hn] at h
          simp only at h ⊢
          by_cases hg : n > 10000000000
          · rw [if_pos hg] at h; simp at h
          · rw [if_neg hg] at h ⊢
            by_cases hu : (e.update s.hist y (s.time + (newTime - s.time)) (newTime - s.time)).2 = true
            · rw [if_pos hu] at h ⊢
              simp only [StepOut.converged.injEq] at h
              refine ⟨rfl, rfl, ?_, ?_, c1⟩
              · exact Prod.ext rfl hu
              · cases j with
                | none => simp at h; omega
                | some j => have := c3 j rfl; simp at h; omega
            · rw [if_neg hu] at h; simp at h

/-- the committed part of the state -/
def Quasistatic.committed (s : State X H K) : X × K × H := (s.x, s.time, s.hist)

/-- state after a list of calls, and the outcomes -/
def Quasistatic.run (e : Env X D H K) (s : State X H K) (ops : List (Op K)) : State X H K × List (Option StepOut) :=
  ops.foldl (fun a o => let r := op e a.1 o; (r.1, a.2 ++ [r.2])) (s, [])

theorem Quasistatic.run_append (e : Env X D H K) (s : State X H K) (ops : List (Op K)) (o : Op K) :
    run e s (ops ++ [o]) = ((op e (run e s ops).1 o).1, (run e s ops).2 ++ [(op e (run e s ops).1 o).2]) := by
  simp [run, List.foldl_append]

/-- C19, for call sequences: after any number of load steps that all failed, the stored solution, time and history data are
those before. -/
theorem C19_failures_partial (e : Env X D H K) (s : State X H K) (times : List K)
    (h : ∀ o ∈ (run e s (times.map .doStep)).2, o = some .noConvergence ∨ o = some .trialError) :
    committed (run e s (times.map .doStep)).1 = committed s := by
  induction times using List.reverseRecOn with
  | nil => rfl
  | append_singleton ts t ih =>
    rw [List.map_append, List.map_singleton, run_append] at h ⊢
    simp only [op] at h ⊢
    rw [← ih (fun o ho => h o (by simp [ho]))]
    have hl := h (some (doStep e (run e s (ts.map .doStep)).1 t).2) (by simp)
    obtain ⟨a, b, c, _⟩ := C19_failure_partial e (run e s (ts.map .doStep)).1 t (by simpa using hl)
    exact Prod.ext a (Prod.ext b c)

/-- C19, for call sequences: whatever mixture of successful and failed load steps and `SetGlobalTime` calls is made (no
update function throws, nothing undefined happens), the history data result from applying the update exactly once per
successful load step, in order, and to nothing else; the stored solution is that of the last successful step. -/
theorem C19_history_updates (e : Env X D H K) (s : State X H K) (ops : List (Op K))
    (h : ∀ o ∈ (run e s ops).2, o ≠ some .updateError ∧ o ≠ some .undefined) :
    ∃ steps : List (X × K × K), steps.length = ((run e s ops).2.filter fun o => match o with
        | some (.converged _) => true
        | _ => false).length ∧
      (run e s ops).1.hist = steps.foldl (fun hist a => (e.update hist a.1 a.2.1 a.2.2).1) s.hist ∧
      (run e s ops).1.x = ((steps.getLast?.map fun a => a.1).getD s.x) := by
  induction ops using List.reverseRecOn with
  | nil => exact ⟨[], rfl, rfl, rfl⟩
  | append_singleton ops o ih =>
    rw [run_append] at h ⊢
    obtain ⟨steps, i1, i2, i3⟩ := ih (fun x hx => h x (by simp [hx]))
    have hl := h _ (List.mem_append_right _ (List.mem_singleton.mpr rfl))
    cases o with
    | setGlobalTime t =>
      refine ⟨steps, ?_, i2, i3⟩
      simp [op, i1]
    | doStep t =>
      simp only [op] at hl ⊢
      cases ho : (doStep e (run e s ops).1 t).2 with
      | converged k =>
        obtain ⟨a1, a2, a3, _⟩ := C19_success e (run e s ops).1 t k ho
        refine ⟨steps ++ [((doStep e (run e s ops).1 t).1.x, (run e s ops).1.time + (t - (run e s ops).1.time),
          t - (run e s ops).1.time)], ?_, ?_, ?_⟩
        · simp [i1]
        · rw [List.foldl_append, ← i2]
          simp only [List.foldl_cons, List.foldl_nil, a3]
        · simp
      | noConvergence =>
        obtain ⟨a1, a2, a3, _⟩ := C19_failure_partial e (run e s ops).1 t (.inl ho)
        exact ⟨steps, by simp [i1], by rw [a3]; exact i2, by rw [a1]; exact i3⟩
      | trialError =>
        obtain ⟨a1, a2, a3, _⟩ := C19_failure_partial e (run e s ops).1 t (.inr ho)
        exact ⟨steps, by simp [i1], by rw [a3]; exact i2, by rw [a1]; exact i3⟩
      | updateError => exact absurd (by rw [ho]) hl.1
      | undefined => exact absurd (by rw [ho]) hl.2

/-- a scalar problem: gradient `x - t` (without root for a step of 2), a Hessian that depends on the step size -/
def exEnv : Env ℚ ℚ (List ℚ) ℚ where
  gradient := fun _ x t dt => .ok (if dt = 2 then 1 else x - t)
  hessian := fun _ _ _ dt => .ok (if dt ≤ 1 then 1 else 2)
  update := fun h x _ _ => (x :: h, true)
  solveTrial := fun d r _ _ => .ok (r / d)
  solve := fun d r => .ok (r / d)
  norm := fun r => .ok |r|
  axpy := fun x a d => .ok (x - a * d)
  tol := 1 / 100

/-- C19 is false as stated: a failed step leaves its step size behind, and the next load step uses it for the Hessian of its
trial state.  Here the step to time 3 fails; afterwards the step to time 2 needs one iteration, without the failed call it
needs none. -/
theorem C19_step_size_counterexample :
    doStep exEnv ⟨1, 1, 1, [1]⟩ 3 = (⟨1, 1, 2, [1]⟩, .noConvergence) ∧
    doStep exEnv ⟨1, 1, 1, [1]⟩ 2 = (⟨2, 2, 1, [2, 1]⟩, .converged 0) ∧
    doStep exEnv (doStep exEnv ⟨1, 1, 1, [1]⟩ 3).1 2 = (⟨2, 2, 1, [2, 1]⟩, .converged 1) := by
  decide +kernel

/-- a mixed sequence: success, failure, `SetGlobalTime`, success -/
example : run exEnv ⟨1, 1, 1, [1]⟩ [.doStep 2, .doStep 4, .setGlobalTime 3, .doStep 4] =
    (⟨4, 4, 1, [4, 2, 1]⟩, [some (.converged 0), some .noConvergence, none, some (.converged 0)]) := by
  decide +kernel

end NuTo
