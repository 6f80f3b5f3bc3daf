import Verif.Lemmas.Gmres
import Mathlib.Analysis.InnerProductSpace.Basic

/-!
# C74: what the generalized minimal residual solver returns
-/

namespace NuTo

namespace Gmres

open Finset

variable {E : Type} [NormedAddCommGroup E] [InnerProductSpace ℝ E]

/-- the residual after a step from `x` to `x'` -/
theorem residual_step (A P : E →ₗ[ℝ] E) (rhs x x' : E) :
    P (rhs - A x') = P (rhs - A x) - (P ∘ₗ A) (x' - x) := by
  simp only [LinearMap.comp_apply, map_sub]; abel

omit [InnerProductSpace ℝ E] in
theorem rhsNorm_pos (rhs : E) : 0 < rhsNorm rhs := by
  unfold rhsNorm
  split
  · exact one_pos
  · rename_i h
    have : (0 : ℝ) < 1 / 100000 := by norm_num
    linarith

/-- one cycle of columns and update -/
theorem cycle_spec (A P : E →ₗ[ℝ] E) (n kd : Nat) (limit : ℝ) (a : Arrays E) (rhs x : E) (r : E) (hr : r = P (rhs - A x))
    (hr0 : ‖r‖ ≠ 0) (a' : Arrays E) (o : Option Nat)
    (hc : columns (fun v => P (A v)) n limit kd 0 (startArrays a r) = .ok (a', o)) :
    ∃ m ≤ kd, (o = none → m = kd) ∧ (∀ i, o = some i → m = i + 1 ∧ |a'.s m| < limit) ∧
      (Function.Injective (P ∘ₗ A) → ∃ x', update a' m x = .ok x') ∧
      ∀ x', update a' m x = .ok x' → x' - x ∈ krylov (P ∘ₗ A) r m ∧ ‖P (rhs - A x')‖ = |a'.s m| ∧
        ∀ z ∈ krylov (P ∘ₗ A) r m, ‖P (rhs - A x')‖ ≤ ‖P (rhs - A (x + z))‖ := by
  have hstart := Inv.start (fun v => (P ∘ₗ A) v) a r hr0
  have hs := columns_spec (fun v => (P ∘ₗ A) v) ‖r‖ (‖r‖⁻¹ • r) n limit kd 0 _ _ _ hstart a' o hc
  have main : ∀ m hess' W', Inv (fun v => (P ∘ₗ A) v) ‖r‖ (‖r‖⁻¹ • r) m a' hess' W' → ∀ x', update a' m x = .ok x' →
      x' - x ∈ krylov (P ∘ₗ A) r m ∧ ‖P (rhs - A x')‖ = |a'.s m| ∧
        ∀ z ∈ krylov (P ∘ₗ A) r m, ‖P (rhs - A x')‖ ≤ ‖P (rhs - A (x + z))‖ := by
    intro m hess' W' hI x' hx
    obtain ⟨h1, h2, h3⟩ := hI.minimal hr0 x x' hx
    have hres : P (rhs - A x') = r - (P ∘ₗ A) (x' - x) := by rw [residual_step A P rhs x x', hr]
    refine ⟨h1, by rw [hres, h2], fun z hz => ?_⟩
    rw [hres, h2, residual_step A P rhs x (x + z), ← hr, add_sub_cancel_left]
    exact h3 z hz
  cases o with
  | none =>
    obtain ⟨hess', W', hI⟩ := hs
    rw [Nat.zero_add] at hI
    exact ⟨kd, le_rfl, fun _ => rfl, fun i h => absurd h (by simp), fun hB => hI.update_ok hB x, main kd hess' W' hI⟩
  | some i =>
    obtain ⟨_, h1, h2, hess', W', hI⟩ := hs
    refine ⟨i + 1, by omega, fun h => absurd h (by simp), fun i' h => ?_, fun hB => hI.update_ok hB x, main (i + 1) hess' W' hI⟩
    obtain rfl : i = i' := by simpa using h
    exact ⟨rfl, h2⟩

/-- no column can be used after a division by zero -/
theorem columns_poison (B : E → E) (n : Nat) (limit : ℝ) (fuel : Nat) (a : Arrays E) (h : a.V 0 = none) :
    columns B n limit (fuel + 1) 0 a = .ub := by
  rw [columns, column, h]; rfl

theorem restarts_spec (A P : E →ₗ[ℝ] E) (rhs : E) (n kd : Nat) (limit : ℝ) (fuel num : Nat) (a : Arrays E) (x : E)
    (num' : Nat) (x' : E) (h : restarts A P rhs n kd limit fuel num a x (P (rhs - A x)) = .ok (num', x')) :
    num ≤ num' ∧ num' ≤ num + fuel ∧ ‖P (rhs - A x')‖ ≤ ‖P (rhs - A x)‖ ∧
      (num' < num + fuel → ‖P (rhs - A x')‖ ≤ limit) := by
  induction fuel generalizing num a x with
  | zero =>
    rw [restarts] at h
    cases h
    exact ⟨le_rfl, by omega, le_rfl, fun h => absurd h (by omega)⟩
  | succ fuel ih =>
    rw [restarts] at h
    split at h
    · rename_i hlt
      by_cases hr0 : ‖P (rhs - A x)‖ = 0
      · -- the residual is zero and the tolerance negative
        rcases Nat.eq_zero_or_pos kd with hk | hk
        · subst hk
          simp only [columns, Res.bind_ok', update, backSubst, List.range_zero, List.reverse_nil, Res.foldlM_nil] at h
          obtain ⟨h1, h2, h3, h4⟩ := ih _ _ x h
          exact ⟨by omega, by omega, h3, fun h => h4 (by omega)⟩
        · obtain ⟨k, rfl⟩ : ∃ k, kd = k + 1 := ⟨kd - 1, by omega⟩
          rw [columns_poison _ _ _ _ _ (by simp only [startArrays, if_true, if_pos hr0])] at h
          exact absurd h (by simp [Res.bind])
      · cases hc : columns (fun v => P (A v)) n limit kd 0 (startArrays a (P (rhs - A x))) with
        | throw => rw [hc] at h; exact absurd h (by simp [Res.bind])
        | ub => rw [hc] at h; exact absurd h (by simp [Res.bind])
        | ok res =>
          obtain ⟨a', o⟩ := res
          obtain ⟨m, hm, hnone, hsome, _, hup⟩ := cycle_spec A P n kd limit a rhs x _ rfl hr0 a' o hc
          rw [hc, Res.bind_ok'] at h
          cases o with
          | none =>
            obtain rfl := hnone rfl
            dsimp only at h
            cases hu : update a' m x with
            | throw => rw [hu] at h; exact absurd h (by simp [Res.bind])
            | ub => rw [hu] at h; exact absurd h (by simp [Res.bind])
            | ok x1 =>
              rw [hu, Res.bind_ok'] at h
              obtain ⟨h1, h2, h3, h4⟩ := ih _ _ x1 h
              obtain ⟨_, _, h5⟩ := hup x1 hu
              have := h5 0 (Submodule.zero_mem _)
              rw [add_zero] at this
              exact ⟨by omega, by omega, le_trans h3 this, fun h => h4 (by omega)⟩
          | some i =>
            obtain ⟨rfl, hl⟩ := hsome i rfl
            dsimp only at h
            cases hu : update a' (i + 1) x with
            | throw => rw [hu] at h; exact absurd h (by simp [Res.bind])
            | ub => rw [hu] at h; exact absurd h (by simp [Res.bind])
            | ok x1 =>
              rw [hu, Res.bind_ok'] at h
              cases h
              obtain ⟨_, h4, h5⟩ := hup _ hu
              have := h5 0 (Submodule.zero_mem _)
              rw [add_zero] at this
              exact ⟨le_rfl, by omega, this, fun _ => by rw [h4]; exact le_of_lt hl⟩
    · rename_i hlt
      cases h
      exact ⟨le_rfl, by omega, le_rfl, fun _ => not_lt.mp hlt⟩

/-- C74: if fewer restarts than allowed are reported, the norm of the **preconditioned** residual of the returned vector is at
most the tolerance times the norm of the right-hand side (one for a right-hand side that is almost zero). -/
theorem C74_converged_partial (A P : E →ₗ[ℝ] E) (n : Nat) (rhs x : E) (maxNumRestarts : Nat) (tolerance : ℝ) (kd : Nat)
    (num : Nat) (x' : E) (h : gmres A P n rhs x maxNumRestarts tolerance kd = .ok (num, x')) (hnum : num < maxNumRestarts) :
    ‖P (rhs - A x')‖ ≤ tolerance * (if ‖rhs‖ < 1 / 100000 then 1 else ‖rhs‖) := by
  rw [gmres] at h
  split at h
  · exact absurd h (by simp)
  · have := (restarts_spec A P rhs n kd _ maxNumRestarts 0 _ x num x' h).2.2.2 (by omega)
    refine le_trans this (le_of_eq ?_)
    rw [rhsNorm]

/-- C74: the preconditioned residual never grows, and the number of restarts is at most the allowed number. -/
theorem C74_monotone (A P : E →ₗ[ℝ] E) (n : Nat) (rhs x : E) (maxNumRestarts : Nat) (tolerance : ℝ) (kd : Nat)
    (num : Nat) (x' : E) (h : gmres A P n rhs x maxNumRestarts tolerance kd = .ok (num, x')) :
    ‖P (rhs - A x')‖ ≤ ‖P (rhs - A x)‖ ∧ num ≤ maxNumRestarts := by
  rw [gmres] at h
  split at h
  · exact absurd h (by simp)
  · have := restarts_spec A P rhs n kd _ maxNumRestarts 0 _ x num x' h
    exact ⟨this.2.2.1, by omega⟩

/-- C74: one cycle returns the vector with the smallest preconditioned residual of the Krylov space of the initial residual, and
a cycle that is not stopped early uses all of the allowed dimensions. -/
theorem C74_minimal (A P : E →ₗ[ℝ] E) (n : Nat) (rhs x : E) (tolerance : ℝ) (kd : Nat) (ht : 0 ≤ tolerance)
    (num : Nat) (x' : E) (h : gmres A P n rhs x 1 tolerance kd = .ok (num, x')) :
    ∃ m ≤ kd, (num = 1 → m = kd) ∧
      x' - x ∈ Submodule.span ℝ (Set.range fun k : Fin m => ((P ∘ₗ A) ^ (k : Nat)) (P (rhs - A x))) ∧
      ∀ z ∈ Submodule.span ℝ (Set.range fun k : Fin m => ((P ∘ₗ A) ^ (k : Nat)) (P (rhs - A x))),
        ‖P (rhs - A x')‖ ≤ ‖P (rhs - A (x + z))‖ := by
  rw [gmres] at h
  split at h
  · exact absurd h (by simp)
  · rw [restarts] at h
    split at h
    · rename_i hlt
      have hr0 : ‖P (rhs - A x)‖ ≠ 0 := by
        have := mul_nonneg ht (rhsNorm_pos rhs).le
        intro h0
        rw [h0] at hlt
        linarith
      cases hc : columns (fun v => P (A v)) n (tolerance * rhsNorm rhs) kd 0 (startArrays {} (P (rhs - A x))) with
      | throw => rw [hc] at h; exact absurd h (by simp [Res.bind])
      | ub => rw [hc] at h; exact absurd h (by simp [Res.bind])
      | ok res =>
        obtain ⟨a', o⟩ := res
        obtain ⟨m, hm, hnone, hsome, _, hup⟩ := cycle_spec A P n kd _ _ rhs x _ rfl hr0 a' o hc
        rw [hc, Res.bind_ok'] at h
        cases o with
        | none =>
          obtain rfl := hnone rfl
          dsimp only at h
          cases hu : update a' m x with
          | throw => rw [hu] at h; exact absurd h (by simp [Res.bind])
          | ub => rw [hu] at h; exact absurd h (by simp [Res.bind])
          | ok x1 =>
            rw [hu, Res.bind_ok', restarts] at h
            cases h
            obtain ⟨h1, _, h2⟩ := hup x' hu
            exact ⟨m, le_rfl, fun _ => rfl, h1, h2⟩
        | some i =>
          obtain ⟨rfl, _⟩ := hsome i rfl
          dsimp only at h
          cases hu : update a' (i + 1) x with
          | throw => rw [hu] at h; exact absurd h (by simp [Res.bind])
          | ub => rw [hu] at h; exact absurd h (by simp [Res.bind])
          | ok x1 =>
            rw [hu, Res.bind_ok'] at h
            cases h
            obtain ⟨h1, _, h2⟩ := hup x' hu
            exact ⟨i + 1, hm, fun h => absurd h (by omega), h1, h2⟩
    · rename_i hlt
      cases h
      refine ⟨0, by omega, fun h => absurd h (by omega), ?_, ?_⟩
      · rw [sub_self]; exact Submodule.zero_mem _
      · intro z hz
        have : z = 0 := by
          rw [Set.range_eq_empty, Submodule.span_empty] at hz
          exact (Submodule.mem_bot ℝ).mp hz
        rw [this, add_zero]

theorem restarts_ok (A P : E →ₗ[ℝ] E) (rhs : E) (n kd : Nat) (limit : ℝ) (hl : 0 < limit) (hkd : kd < n)
    (hB : Function.Injective fun v => P (A v)) (fuel num : Nat) (a : Arrays E) (x : E) :
    ∃ num' x', restarts A P rhs n kd limit fuel num a x (P (rhs - A x)) = .ok (num', x') := by
  induction fuel generalizing num a x with
  | zero => exact ⟨num, x, rfl⟩
  | succ fuel ih =>
    rw [restarts]
    split
    · rename_i hlt
      have hr0 : ‖P (rhs - A x)‖ ≠ 0 := by linarith
      obtain ⟨a', o, hc⟩ := columns_ok (fun v => (P ∘ₗ A) v) _ _ n limit hl kd 0 _ _ _
        (Inv.start (fun v => (P ∘ₗ A) v) a (P (rhs - A x)) hr0) (by simp only [startArrays, if_true, if_neg hr0]; simp) (Or.inr (by omega))
      obtain ⟨m, _, hnone, hsome, hok, _⟩ := cycle_spec A P n kd limit a rhs x _ rfl hr0 a' o hc
      obtain ⟨x1, hx1⟩ := hok hB
      have hc' : columns (fun v => P (A v)) n limit kd 0 (startArrays a (P (rhs - A x))) = .ok (a', o) := hc
      rw [hc', Res.bind_ok']
      cases o with
      | none =>
        obtain rfl := hnone rfl
        dsimp only
        rw [hx1, Res.bind_ok']
        exact ih _ _ x1
      | some i =>
        obtain ⟨rfl, _⟩ := hsome i rfl
        dsimp only
        rw [hx1, Res.bind_ok']
        exact ⟨_, _, rfl⟩
    · exact ⟨num, x, rfl⟩

/-- C74: for a regular preconditioned matrix, a positive tolerance and a Krylov dimension below the number of rows nothing is
divided by zero and no index is out of range. -/
theorem C74_defined (A P : E →ₗ[ℝ] E) (n : Nat) (rhs x : E) (maxNumRestarts : Nat) (tolerance : ℝ) (kd : Nat)
    (ht : 0 < tolerance) (hkd : kd < n) (hB : Function.Injective fun v => P (A v)) :
    ∃ num x', gmres A P n rhs x maxNumRestarts tolerance kd = .ok (num, x') := by
  rw [gmres, if_neg (by omega)]
  exact restarts_ok A P rhs n kd _ (mul_pos ht (rhsNorm_pos rhs)) hkd hB maxNumRestarts 0 _ x

/-- without a solution in the smaller spaces the columns run out of the vector `s` -/
theorem columns_overrun (B : E →ₗ[ℝ] E) (hB : Function.Injective B) (r : E) (hr : ‖r‖ ≠ 0) (n : Nat) (limit : ℝ) (hl : 0 < limit)
    (hno : ∀ z ∈ krylov B r (n - 1), limit ≤ ‖r - B z‖) (fuel m : Nat) (hm : m < n) (hf : n ≤ m + fuel) (a : Arrays E)
    (hess : Nat → Nat → ℝ) (W : Nat → E) (h : Inv (fun v => B v) ‖r‖ (‖r‖⁻¹ • r) m a hess W) (hV : a.V m ≠ none) :
    columns (fun v => B v) n limit fuel m a = .ub := by
  induction fuel generalizing m a hess W with
  | zero => omega
  | succ fuel ih =>
    have hc := column_spec (fun v => B v) _ _ n m a hess W h hV
    rcases Nat.lt_or_ge (m + 1) n with h1 | h1
    · obtain ⟨a1, hess1, W1, h2, h3⟩ := hc.2 h1
      have hbig : ¬ |a1.s (m + 1)| < limit := by
        intro hlt
        obtain ⟨x', hx'⟩ := h3.update_ok hB 0
        obtain ⟨h4, h5, _⟩ := h3.minimal hr 0 x' hx'
        have := hno (x' - 0) (krylov_mono B r (by omega) h4)
        rw [h5] at this
        linarith
      rw [columns, h2, Res.bind_ok', if_neg hbig]
      refine ih (m + 1) h1 (by omega) a1 hess1 W1 h3 ?_
      intro hnone
      rcases h3.last with h' | h'
      · rw [h'.1] at hnone; exact absurd hnone (by simp)
      · apply hbig
        rw [h'.2.2.2, abs_zero]; exact hl
    · rw [columns, hc.1 h1]; rfl

/-- C74, second half is false: a Krylov dimension that is not smaller than the number `n` of rows makes the solver write behind
the end of a vector of length `n`, unless the first `n - 1` dimensions contain a solution that is good enough. -/
theorem C74_index_counterexample (A P : E →ₗ[ℝ] E) (n : Nat) (hn : 0 < n) (rhs x : E) (maxNumRestarts : Nat) (tolerance : ℝ)
    (kd : Nat) (hmax : 0 < maxNumRestarts) (ht : 0 < tolerance) (hkd : n ≤ kd) (hB : Function.Injective fun v => P (A v))
    (hno : ∀ z ∈ Submodule.span ℝ (Set.range fun k : Fin (n - 1) => ((P ∘ₗ A) ^ (k : Nat)) (P (rhs - A x))),
      tolerance * (if ‖rhs‖ < 1 / 100000 then 1 else ‖rhs‖) < ‖P (rhs - A (x + z))‖) :
    gmres A P n rhs x maxNumRestarts tolerance kd = .ub := by
  have hlim : tolerance * rhsNorm rhs = tolerance * (if ‖rhs‖ < 1 / 100000 then 1 else ‖rhs‖) := by
    rw [rhsNorm]
  have hpos := mul_pos ht (rhsNorm_pos rhs)
  rw [← hlim] at hno
  have h0 := hno 0 (Submodule.zero_mem _)
  rw [add_zero] at h0
  have hr0 : ‖P (rhs - A x)‖ ≠ 0 := by linarith
  obtain ⟨fuel, rfl⟩ : ∃ f, maxNumRestarts = f + 1 := ⟨maxNumRestarts - 1, by omega⟩
  rw [gmres, if_neg (by omega), restarts, if_pos h0]
  have := columns_overrun (P ∘ₗ A) hB (P (rhs - A x)) hr0 n (tolerance * rhsNorm rhs) hpos (by
      intro z hz
      have h1 := hno z hz
      rw [residual_step A P rhs x (x + z), add_sub_cancel_left] at h1
      exact h1.le) kd 0 hn (by omega) _ _ _ (Inv.start (fun v => (P ∘ₗ A) v) {} (P (rhs - A x)) hr0)
      (by simp only [startArrays, if_true, if_neg hr0]; simp)
  have h2 : columns (fun v => P (A v)) n (tolerance * rhsNorm rhs) kd 0 (startArrays {} (P (rhs - A x))) = .ub := this
  rw [h2]
  rfl

/-- C74, first half is false without "preconditioned": the residual is measured after the preconditioner, the right-hand side
before it.  For a diagonal matrix with the large entry `c` and its diagonal preconditioner the initial guess zero is returned
as the solution, although its residual is the whole right-hand side. -/
theorem C74_scaling_counterexample (n : Nat) (hn : 0 < n) (rhs : E) (hrhs : 1 / 100000 ≤ ‖rhs‖) (maxNumRestarts : Nat)
    (tolerance : ℝ) (ht : 0 < tolerance) (ht1 : tolerance < 1) (kd : Nat) (c : ℝ) (hc : 1 / tolerance ≤ c) :
    gmres (c • LinearMap.id) (c⁻¹ • LinearMap.id) n rhs 0 maxNumRestarts tolerance kd = .ok (0, 0) ∧
      tolerance * ‖rhs‖ < ‖rhs - (c • LinearMap.id : E →ₗ[ℝ] E) 0‖ := by
  have hc0 : 0 < c := lt_of_lt_of_le (by positivity) hc
  have hrpos : 0 < ‖rhs‖ := lt_of_lt_of_le (by norm_num) hrhs
  constructor
  · rw [gmres, if_neg (by omega)]
    have hlim : ¬ tolerance * rhsNorm rhs < ‖(c⁻¹ • LinearMap.id : E →ₗ[ℝ] E) (rhs - (c • LinearMap.id : E →ₗ[ℝ] E) 0)‖ := by
      rw [rhsNorm, if_neg (not_lt.mpr hrhs), map_zero, sub_zero]
      simp only [LinearMap.smul_apply, LinearMap.id_apply, norm_smul, norm_inv, Real.norm_eq_abs, abs_of_pos hc0, not_lt]
      refine mul_le_mul_of_nonneg_right ?_ hrpos.le
      rw [inv_le_comm₀ hc0 ht, ← one_div]
      exact hc
    cases maxNumRestarts with
    | zero => rfl
    | succ k => rw [restarts, if_neg hlim]
  · rw [map_zero, sub_zero]
    nlinarith

/-- a case that meets the hypotheses of `C74_defined`, so that the other theorems speak about something: the identity -/
example : ∃ num x', gmres (LinearMap.id : ℝ →ₗ[ℝ] ℝ) LinearMap.id 2 (1 : ℝ) 0 1 (1 / 2) 1 = .ok (num, x') :=
  C74_defined _ _ 2 1 0 1 (1 / 2) 1 (by norm_num) (by omega) fun a b h => h

/-- a case that meets the hypotheses of `C74_converged_partial`, with a vector that is not the initial guess: the solution is
found in the first cycle -/
example : gmres (LinearMap.id : ℝ →ₗ[ℝ] ℝ) LinearMap.id 2 (1 : ℝ) 0 7 (1 / 2) 1 = .ok (0, 1) := by
  have hlim : rhsNorm (1 : ℝ) = 1 := by simp [rhsNorm]
  rw [gmres, if_neg (by omega), restarts, hlim, if_pos (by norm_num)]
  simp [columns, column, startArrays, gramStep, Res.foldlM_cons, Res.foldlM_nil, Res.bind_ok', List.range_succ, rotate, makeGivens,
    update, backSubst, backStep, addColumn]
  rw [if_neg (not_lt.mpr zero_le_one), if_neg one_ne_zero]
  simp [Res.bind]

/-- a case that meets the hypotheses of `C74_index_counterexample`: one equation, for any Krylov dimension of at least one -/
example : gmres (LinearMap.id : ℝ →ₗ[ℝ] ℝ) LinearMap.id 1 (1 : ℝ) 0 1 (1 / 2) 1 = .ub := by
  refine C74_index_counterexample _ _ 1 (by omega) 1 0 1 (1 / 2) 1 (by omega) (by norm_num) le_rfl (fun a b h => h) ?_
  intro z hz
  have : IsEmpty (Fin (1 - 1)) := Fin.isEmpty
  rw [Set.range_eq_empty, Submodule.span_empty] at hz
  rw [(Submodule.mem_bot ℝ).mp hz]
  norm_num

/-- a case that meets the hypotheses of `C74_scaling_counterexample`: `1e9 x = 1` with the tolerance `1e-6` -/
example : gmres ((1000000000 : ℝ) • LinearMap.id : ℝ →ₗ[ℝ] ℝ) ((1000000000 : ℝ)⁻¹ • LinearMap.id) 10 1 0 100 (1 / 1000000) 5 =
    .ok (0, 0) :=
  (C74_scaling_counterexample 10 (by omega) (1 : ℝ) (by norm_num) 100 (1 / 1000000) (by norm_num) (by norm_num) 5 1000000000
    (by norm_num)).1

end Gmres

end NuTo
