/-
C121: interpolated tables are monotone where their values are; the density of water has its anomaly at 4 degrees Celsius.
-/
import Verif.Model.Water
import Verif.Props.Tables
import Mathlib.Order.Monotone.Union
import Mathlib.Tactic.IntervalCases

namespace NuTo.Water

open Table Set

/-! ### Monotone tables -/

theorem linear_segment (t : List (ℝ × ℝ)) (ht : Increasing t) (i : Nat) (p q : ℝ × ℝ) (hp : t[i]? = some p)
    (hq : t[i + 1]? = some q) (x : ℝ) (hpx : p.1 ≤ x) (hxq : x ≤ q.1) :
    linear t x = .ok (p.2 + (q.2 - p.2) * ((x - p.1) / (q.1 - p.1))) := by
  have hi : i + 1 < t.length := (List.getElem?_eq_some_iff.1 hq).1
  have hlt : p.1 < q.1 := ht.lt hp hq (by omega)
  rcases hpx.eq_or_lt with h | hpx
  · rw [← h, C42_reproduces t ht (by omega) p (List.mem_of_getElem? hp)]
    simp
  rcases hxq.eq_or_lt with h | hxq
  · rw [h, C42_reproduces t ht (by omega) q (List.mem_of_getElem? hq), div_self (by linarith)]
    congr 1
    ring
  have hlen : 0 < t.length := by omega
  have ha : t.head? = some t[0] := by rw [List.head?_eq_getElem?, List.getElem?_eq_getElem hlen]
  have hb : t.getLast? = some t[t.length - 1] := by
    rw [List.getLast?_eq_getElem?, List.getElem?_eq_getElem (by omega)]
  have h0 : t[0]? = some t[0] := List.getElem?_eq_getElem hlen
  have h1 : t[t.length - 1]? = some t[t.length - 1] := List.getElem?_eq_getElem (by omega)
  obtain ⟨j, u, v, h3, h4, h5, h6, h7, h8, h9⟩ := C42_chord t ht (by omega) _ _ ha hb x
    ((ht.le h0 hp (by omega)).trans hpx.le) (hxq.le.trans (ht.le hq h1 (by omega)))
  have hji : j = i := by
    rcases Nat.lt_trichotomy j i with h | h | h
    · exact absurd (h6.trans (ht.le h4 hp (by omega))) (not_le.2 hpx)
    · exact h
    · exact absurd ((ht.le hq h3 (by omega)).trans h5) (not_le.2 hxq)
  subst hji
  rw [hp, Option.some.injEq] at h3
  rw [hq, Option.some.injEq] at h4
  subst h3 h4
  exact h8

/-- C121: between two points of a table between which the values increase, the interpolation increases strictly. -/
theorem C121_rising (t : List (ℝ × ℝ)) (ht : Increasing t) (i j : Nat) (hij : i ≤ j) (p q : ℝ × ℝ) (hp : t[i]? = some p)
    (hq : t[j]? = some q)
    (hv : ∀ k u v, i ≤ k → k < j → t[k]? = some u → t[k + 1]? = some v → u.2 < v.2) :
    StrictMonoOn (valueOf (linear t)) (Icc p.1 q.1) := by
  induction j, hij using Nat.le_induction generalizing q with
  | base =>
    rw [hp, Option.some.injEq] at hq
    subst hq
    simp
  | succ j hij ih =>
    have hj : j + 1 < t.length := (List.getElem?_eq_some_iff.1 hq).1
    have hm : t[j]? = some t[j] := List.getElem?_eq_getElem (by omega)
    have h1 := ih t[j] hm fun k u v h1 h2 => hv k u v h1 (by omega)
    have h2 : StrictMonoOn (valueOf (linear t)) (Icc t[j].1 q.1) := by
      intro x hx y hy hxy
      have hlt := hv j _ _ hij (by omega) hm hq
      have hlt' : t[j].1 < q.1 := ht.lt hm hq (by omega)
      simp only [valueOf, linear_segment t ht j _ _ hm hq x hx.1 hx.2, linear_segment t ht j _ _ hm hq y hy.1 hy.2]
      have : (x - t[j].1) / (q.1 - t[j].1) < (y - t[j].1) / (q.1 - t[j].1) :=
        div_lt_div_of_pos_right (by linarith) (by linarith)
      have := mul_lt_mul_of_pos_left this (sub_pos.2 hlt)
      linarith
    have ha : p.1 ≤ t[j].1 := ht.le hp hm hij
    have hb : t[j].1 ≤ q.1 := ht.le hm hq (by omega)
    have := h1.union h2 (isGreatest_Icc ha) (isLeast_Icc hb)
    rwa [Icc_union_Icc_eq_Icc ha hb] at this

/-- C121: between two points of a table between which the values decrease, the interpolation decreases strictly. -/
theorem C121_falling (t : List (ℝ × ℝ)) (ht : Increasing t) (i j : Nat) (hij : i ≤ j) (p q : ℝ × ℝ) (hp : t[i]? = some p)
    (hq : t[j]? = some q)
    (hv : ∀ k u v, i ≤ k → k < j → t[k]? = some u → t[k + 1]? = some v → v.2 < u.2) :
    StrictAntiOn (valueOf (linear t)) (Icc p.1 q.1) := by
  induction j, hij using Nat.le_induction generalizing q with
  | base =>
    rw [hp, Option.some.injEq] at hq
    subst hq
    simp
  | succ j hij ih =>
    have hj : j + 1 < t.length := (List.getElem?_eq_some_iff.1 hq).1
    have hm : t[j]? = some t[j] := List.getElem?_eq_getElem (by omega)
    have h1 := ih t[j] hm fun k u v h1 h2 => hv k u v h1 (by omega)
    have h2 : StrictAntiOn (valueOf (linear t)) (Icc t[j].1 q.1) := by
      intro x hx y hy hxy
      have hlt := hv j _ _ hij (by omega) hm hq
      have hlt' : t[j].1 < q.1 := ht.lt hm hq (by omega)
      simp only [valueOf, linear_segment t ht j _ _ hm hq x hx.1 hx.2, linear_segment t ht j _ _ hm hq y hy.1 hy.2]
      have : (x - t[j].1) / (q.1 - t[j].1) < (y - t[j].1) / (q.1 - t[j].1) :=
        div_lt_div_of_pos_right (by linarith) (by linarith)
      have := mul_lt_mul_of_pos_left this (sub_pos.2 hlt)
      linarith
    have ha : p.1 ≤ t[j].1 := ht.le hp hm hij
    have hb : t[j].1 ≤ q.1 := ht.le hm hq (by omega)
    have := h1.union h2 (isGreatest_Icc ha) (isLeast_Icc hb)
    rwa [Icc_union_Icc_eq_Icc ha hb] at this

/-! ### Water -/

theorem table_increasing : Increasing table := by
  simp only [Increasing, table, List.pairwise_cons, List.mem_cons, List.not_mem_nil, or_false, forall_eq_or_imp, forall_eq,
    List.Pairwise.nil, and_true]
  norm_num

/-- C121: the density is defined by its arguments alone: exactly one result is possible, the interpolation of the table. -/
theorem C121_result (T : ℝ) (r : Res ℝ) : Density T r ↔ r = linear table T := by
  have hd : table.Pairwise fun (a b : ℝ × ℝ) => a.1 ≠ b.1 := table_increasing.imp fun h => h.ne
  have hc : Constructs table 2 (.ok table) :=
    ⟨by simp [table], List.Perm.refl _, table_increasing.imp fun h => h.le⟩
  obtain ⟨_, h2, _, h4⟩ := C42_constructor table 2 hd
  constructor
  · rintro ⟨c, hc', rfl⟩
    cases c with
    | ok t => rw [h4 t table hc' hc]; rfl
    | throw => exact absurd ((h2 _ hc').1 rfl) (by simp [table])
    | ub => exact hc'.elim
  · rintro rfl
    exact ⟨_, hc, rfl⟩

theorem rising : StrictMonoOn (valueOf (linear table)) (Icc 243.15 277.15) := by
  refine C121_rising table table_increasing 0 4 (by omega) (243.15, 983.854) (277.15, 999.972) rfl rfl ?_
  intro k u v _ hk hu hv
  interval_cases k <;>
    (simp only [table, List.getElem?_cons_zero, List.getElem?_cons_succ, Option.some.injEq] at hu hv
     subst hu hv
     norm_num)

theorem falling : StrictAntiOn (valueOf (linear table)) (Icc 277.15 373.15) := by
  refine C121_falling table table_increasing 4 14 (by omega) (277.15, 999.972) (373.15, 958.4) rfl rfl ?_
  intro k u v h4 hk hu hv
  interval_cases k <;>
    (simp only [table, List.getElem?_cons_zero, List.getElem?_cons_succ, Option.some.injEq] at hu hv
     subst hu hv
     norm_num)

theorem defined (T : ℝ) (h1 : 243.15 ≤ T) (h2 : T ≤ 373.15) : ∃ r, linear table T = .ok r ∧ valueOf (linear table) T = r := by
  obtain ⟨i, p, q, _, _, _, _, _, h, _⟩ := C42_chord table table_increasing (by simp [table]) (243.15, 983.854)
    (373.15, 958.4) rfl rfl T h1 h2
  exact ⟨_, h, by rw [valueOf, h]⟩

theorem at_point (p : ℝ × ℝ) (hp : p ∈ table) : valueOf (linear table) p.1 = p.2 := by
  rw [valueOf, C42_reproduces table table_increasing (by simp [table]) p hp]

/-- C121: outside of the tabulated temperatures there is an exception. -/
theorem C121_outside (T : ℝ) (h : T < 243.15 ∨ 373.15 < T) (r : Res ℝ) (hr : Density T r) : r = .throw := by
  rw [(C121_result T r).1 hr]
  exact (C42_outside table (243.15, 983.854) (373.15, 958.4) rfl rfl T h).1

/-- C121: within them the density is a number between that at the boiling point and that at 4 degrees Celsius, and only there is
it largest; the tabulated values are reproduced. -/
theorem C121_bounds (T : ℝ) (h1 : 243.15 ≤ T) (h2 : T ≤ 373.15) :
    ∃ d, Density T (.ok d) ∧ 958.4 ≤ d ∧ d ≤ 999.972 ∧ (d = 999.972 ↔ T = 277.15) ∧ (d = 958.4 ↔ T = 373.15) ∧
      ∀ p ∈ table, p.1 = T → d = p.2 := by
  obtain ⟨d, hd, hv⟩ := defined T h1 h2
  have hM : valueOf (linear table) 277.15 = 999.972 := at_point (277.15, 999.972) (by simp [table])
  have hL : valueOf (linear table) 243.15 = 983.854 := at_point (243.15, 983.854) (by simp [table])
  have hR : valueOf (linear table) 373.15 = 958.4 := at_point (373.15, 958.4) (by simp [table])
  refine ⟨d, (C121_result T _).2 hd.symm, ?_⟩
  have hp : ∀ p ∈ table, p.1 = T → d = p.2 := by
    intro p hp h
    rw [← hv, ← h, at_point p hp]
  rcases lt_trichotomy T 277.15 with h | h | h
  · have hm := rising ⟨h1, h.le⟩ ⟨by norm_num, le_refl _⟩ h
    have hl := rising.monotoneOn ⟨le_refl _, by norm_num⟩ ⟨h1, h.le⟩ h1
    rw [hM, hv] at hm
    rw [hL, hv] at hl
    refine ⟨by linarith, hm.le, ⟨fun e => absurd e hm.ne, fun e => absurd e h.ne⟩, ⟨fun e => ?_, fun e => ?_⟩, hp⟩
    · rw [e] at hl; norm_num at hl
    · rw [e] at h; norm_num at h
  · have : d = 999.972 := by rw [← hv, h, hM]
    refine ⟨by rw [this]; norm_num, this.le, ⟨fun _ => h, fun _ => this⟩, ⟨fun e => ?_, fun e => ?_⟩, hp⟩
    · rw [this] at e; norm_num at e
    · rw [h] at e; norm_num at e
  · have hm := falling ⟨le_refl _, by norm_num⟩ ⟨h.le, h2⟩ h
    rw [hM, hv] at hm
    have hl := falling.antitoneOn ⟨h.le, h2⟩ ⟨by norm_num, le_refl _⟩ h2
    rw [hR, hv] at hl
    refine ⟨hl, hm.le, ⟨fun e => absurd e hm.ne, fun e => absurd e h.ne'⟩, ⟨fun e => ?_, fun e => ?_⟩, hp⟩
    · by_contra hne
      have := falling ⟨h.le, h2⟩ ⟨by norm_num, le_refl _⟩ (lt_of_le_of_ne h2 hne)
      rw [hR, hv] at this
      exact this.ne' e
    · rw [← hv, e, hR]

/-- C121: warming makes water denser below 4 degrees Celsius and less dense above. -/
theorem C121_anomaly (S T c d : ℝ) (hST : S < T) (hc : Density S (.ok c)) (hd : Density T (.ok d)) :
    (T ≤ 277.15 → c < d) ∧ (277.15 ≤ S → d < c) := by
  have hin : ∀ (T d : ℝ), Density T (.ok d) → 243.15 ≤ T ∧ T ≤ 373.15 ∧ valueOf (linear table) T = d := by
    intro T d hd
    have hb : ¬ (T < 243.15 ∨ 373.15 < T) := fun h => by
      have := C121_outside T h _ hd
      cases this
    push Not at hb
    refine ⟨hb.1, hb.2, ?_⟩
    rw [valueOf, ← (C121_result T _).1 hd]
  obtain ⟨h1, h2, rfl⟩ := hin S c hc
  obtain ⟨h3, h4, rfl⟩ := hin T d hd
  exact ⟨fun h => rising ⟨h1, by linarith⟩ ⟨h3, h⟩ hST, fun h => falling ⟨h, h2⟩ ⟨by linarith, h4⟩ hST⟩

/-! ### Example -/

/-- Room temperature, tabulated, and 270 K, not tabulated: hypotheses of C121_bounds. -/
example : Density 293.15 (.ok 998.2071) ∧ ∃ d, Density 270 (.ok d) := by
  constructor
  · obtain ⟨d, h, _, _, _, _, hp⟩ := C121_bounds 293.15 (by norm_num) (by norm_num)
    rwa [hp (293.15, 998.2071) (by simp [table]) rfl] at h
  · obtain ⟨d, h, _⟩ := C121_bounds 270 (by norm_num) (by norm_num)
    exact ⟨d, h⟩

end NuTo.Water
