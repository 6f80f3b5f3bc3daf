import Verif.Model.Simulate
import Verif.Props.CollisionRun
import Mathlib.Tactic.GCongr
import Mathlib.Tactic.Positivity

/-!
C81: how a simulation ends, and what holds for the particles then.
-/

namespace NuTo.Collision

theorem fetch_run {g : Grid ℝ} {s s1 : Sim} (h : s.Fetch g s1) :
    s1.run = s.run ∧ NextTime (s1.run.queued g s1.barrier) s1.globalTime := by
  cases h with
  | ready t h ht => exact ⟨rfl, h⟩
  | empty t rebuild wall h ht => exact ⟨rfl, ht⟩

theorem renew_run {g : Grid ℝ} {s s1 : Sim} (h : s.Renew g s1)
    (hs : NextTime (s.run.queued g s.barrier) s.globalTime) :
    s1.run = s.run ∧ NextTime (s1.run.queued g s1.barrier) s1.globalTime := by
  cases h with
  | keep wall h => exact ⟨rfl, hs⟩
  | reset wall t rebuild wall' h ht => exact ⟨rfl, ht⟩

theorem next_eq {q : Set ℝ} {t u : ℝ} (h : NextTime q t) (hu : IsLeast q u) : t = u := by
  cases h with
  | null h => rw [h] at hu; exact absurd hu.1 (Set.notMem_empty u)
  | least t h => exact h.unique hu

theorem perform_time {S S' : Run} {t : ℝ} {e : Partners} (h : S.perform t e = .ok S') : S'.time = t := by
  cases e with
  | wall k w =>
    simp only [Run.perform] at h
    split_ifs at h with hp
    · rw [← Res.ok.inj h]
    · cases hR : S.registration.transfer w k with
      | throw => rw [hR] at h; cases h
      | ub => rw [hR] at h; cases h
      | ok R => rw [hR, Res.bind_ok'] at h; rw [← Res.ok.inj h]
  | pair k l =>
    simp only [Run.perform] at h
    rw [← Res.ok.inj h]

theorem count_run {c : SimSettings} {s s' : Sim} {S : Run} (h : s.count c S = some s') :
    s'.run = S ∧ s'.globalTime = s.globalTime := by
  unfold Sim.count at h
  split_ifs at h with h1 h2
  · rw [← Option.some.inj h]; exact ⟨rfl, rfl⟩
  · rw [← Option.some.inj h]; exact ⟨rfl, rfl⟩

theorem fetch_counter {g : Grid ℝ} {s s1 : Sim} (h : s.Fetch g s1) :
    s1.noChangeCounter = s.noChangeCounter ∧ s1.noChangeGlobalTime = s.noChangeGlobalTime := by
  cases h <;> exact ⟨rfl, rfl⟩

theorem renew_counter {g : Grid ℝ} {s s1 : Sim} (h : s.Renew g s1) :
    s1.noChangeCounter = s.noChangeCounter ∧ s1.noChangeGlobalTime = s.noChangeGlobalTime := by
  cases h <;> exact ⟨rfl, rfl⟩

/-- The first event of the queue: no event of any sub box is earlier. -/
theorem quiet_of_least {g : Grid ℝ} {S : Run} (hS : S.Inv g) (h0 : 0 ≤ S.time) {b t : ℝ}
    (h : IsLeast (S.queued g b) t) : S.Quiet g t := by
  intro e t' hc hp
  have h1 := hS.upcoming e t' hc hp
  rcases le_or_gt t' b with h2 | h2
  · exact h.2 ⟨e, hc, hp, h0.trans h1, h2⟩
  · obtain ⟨-, -, -, -, h3⟩ := h.1
    linarith

/-- A round of the loop is a step of the simulation. -/
theorem round_step {g : Grid ℝ} (hg : g.Valid) {s s1 s2 : Sim} {S : Run} {e : Partners} {t : ℝ}
    (hI : s.run.Inv g) (h0 : 0 ≤ s.run.time) (h1 : s.Fetch g s1) (h2 : s1.Renew g s2)
    (hq : IsLeast (s2.run.queued g s2.barrier) t) (hc : s2.run.Considered g e)
    (hp : s2.run.predict e = .ok (some t)) (hr : s2.run.perform t e = .ok S) :
    Run.Step g s.run S ∧ S.Inv g ∧ 0 ≤ S.time ∧ s2.globalTime = S.time := by
  obtain ⟨f1, f2⟩ := fetch_run h1
  obtain ⟨r1, r2⟩ := renew_run h2 f2
  have hrun : s2.run = s.run := r1.trans f1
  have hgt := next_eq r2 hq
  rw [hrun] at hq hc hp hr
  have hstep := Run.Step.event s.run S e t hc hp (quiet_of_least hI h0 hq) hr
  have ht := perform_time hr
  have := hI.upcoming e t hc hp
  exact ⟨hstep, step_inv hg hI hstep, by rw [ht]; linarith, hgt.trans ht.symm⟩

theorem loop_result {g : Grid ℝ} (hg : g.Valid) {c : SimSettings} {s : Sim} {o : Outcome} (h : Loop g c s o)
    (hI : s.run.Inv g) (h0 : 0 ≤ s.run.time) (ht : s.globalTime = s.run.time) :
    ∀ S T w, o = .returned S T w → Run.Reach g s.run S ∧ S = S.sync T ∧ S.time = T ∧ 0 ≤ T ∧
      (c.timeMax ≤ T ∨ c.wallTimeMax ≤ w) := by
  induction h with
  | stop s wall wall' h hw =>
    intro S T w ho
    injection ho with e1 e2 e3
    rw [ht] at e1 e2 h
    have hstep := Run.Step.sync s.run s.run.time le_rfl hI.upcoming
    subst e1 e2 e3
    refine ⟨Run.Reach.step _ _ Run.Reach.refl hstep, ?_, rfl, h0, ?_⟩
    · simp only [Run.sync, Run.mk.injEq, and_true, true_and]
      funext k
      exact (move_move (s.run.particle k) _ s.run.time s.run.time rfl).symm
    · by_contra hcon
      push Not at hcon
      exact h ⟨by linarith [hcon.2], hcon.1⟩
  | undefined => intro S T w ho; cases ho
  | failed => intro S T w ho; cases ho
  | stuck => intro S T w ho; cases ho
  | round s s1 s2 s3 S e t wall o h h1 h2 hq hc hp hr hn ho ih =>
    intro S' T w hS'
    obtain ⟨a1, a2, a3, a4⟩ := round_step hg hI h0 h1 h2 hq hc hp hr
    obtain ⟨c1, c2⟩ := count_run hn
    rw [c1] at ih
    obtain ⟨b1, b2⟩ := ih a2 a3 (c2.trans a4) S' T w hS'
    refine ⟨?_, b2⟩
    clear ih b2 ho hS'
    induction b1 with
    | refl => exact Run.Reach.step _ _ Run.Reach.refl a1
    | step S1 S2 _ hs ih => exact Run.Reach.step _ _ ih hs

/-- A simulation that returns normally has reached the end time or has used up the wall time; the particles are in a
reachable state, all of them moved to the returned time. -/
theorem C81_result (g : Grid ℝ) (hg : g.Valid) (ps : List Sphere) (hps : Prepared g ps) (S0 S : Run)
    (h0 : Run.start g ps = .ok S0) (c : SimSettings) (T w : ℝ) (h : Simulate g c S0 (.returned S T w)) :
    Run.Reach g S0 S ∧ S.time = T ∧ 0 ≤ T ∧ (∀ k, (S.particle k).moveAndGrow T = S.particle k) ∧
      (c.timeMax ≤ T ∨ c.wallTimeMax ≤ w) := by
  obtain ⟨S1, e1, -, e3, -, hi⟩ := start_inv hg hps
  rw [h0] at e1
  rw [← Res.ok.inj e1] at e3 hi
  obtain ⟨rebuild, hl⟩ := h
  obtain ⟨r1, r2, r3, r4, r5⟩ := loop_result hg hl hi e3.ge e3.symm S T w rfl
  refine ⟨r1, r3, r4, fun k => ?_, r5⟩
  have := congrArg (fun R : Run => R.particle k) r2
  exact this.symm

/-- One round of the loop that performs an event without an exception -/
def Sim.Round (g : Grid ℝ) (c : SimSettings) (s s3 : Sim) : Prop :=
  ∃ s1 s2 S e t, s.Fetch g s1 ∧ s1.Renew g s2 ∧ IsLeast (s2.run.queued g s2.barrier) t ∧ s2.run.Considered g e ∧
    s2.run.predict e = .ok (some t) ∧ s2.run.perform t e = .ok S ∧ s2.count c S = some s3

theorem fetch_reset {g : Grid ℝ} {s s1 : Sim} (h : s.Fetch g s1) :
    s1.globalTimeOfBarrierReset = s.globalTimeOfBarrierReset ∨ s1.globalTimeOfBarrierReset = s1.globalTime := by
  cases h
  · exact Or.inl rfl
  · exact Or.inr rfl

theorem renew_reset {g : Grid ℝ} {s s1 : Sim} (h : s.Renew g s1) :
    (s1.globalTimeOfBarrierReset = s.globalTimeOfBarrierReset ∧ s1.globalTime = s.globalTime) ∨
      s1.globalTimeOfBarrierReset = s1.globalTime := by
  cases h
  · exact Or.inl ⟨rfl, rfl⟩
  · exact Or.inr rfl

theorem count_old {c : SimSettings} {s s' : Sim} {S : Run} (h : s.count c S = some s') :
    s'.oldGlobalTime = s.globalTime ∧ s'.globalTimeOfBarrierReset = s.globalTimeOfBarrierReset := by
  unfold Sim.count at h
  split_ifs at h with h1 h2
  · rw [← Option.some.inj h]; exact ⟨rfl, rfl⟩
  · rw [← Option.some.inj h]; exact ⟨rfl, rfl⟩

/-- After any number of rounds, a new time barrier is not before the last performed event: it is the time of this event
plus ten times (if the queue was empty) or 1.1 times (otherwise) the progress since the last barrier was set. -/
theorem C81_barrier (g : Grid ℝ) (hg : g.Valid) (ps : List Sphere) (hps : Prepared g ps) (S0 : Run)
    (h0 : Run.start g ps = .ok S0) (c : SimSettings) (rebuild : ℝ) (s : Sim)
    (h : Relation.ReflTransGen (Sim.Round g c) (Sim.initial c S0 rebuild) s) :
    s.oldGlobalTime = s.run.time ∧ s.globalTimeOfBarrierReset ≤ s.run.time ∧
      s.barrierEmpty - s.run.time = 10 * (s.run.time - s.globalTimeOfBarrierReset) ∧
      s.barrierReset - s.run.time = 11 / 10 * (s.run.time - s.globalTimeOfBarrierReset) ∧
      s.run.time ≤ s.barrierEmpty ∧ s.run.time ≤ s.barrierReset := by
  obtain ⟨S1, e1, -, e3, -, hi⟩ := start_inv hg hps
  rw [h0] at e1
  rw [← Res.ok.inj e1] at e3 hi
  have key : s.run.Inv g ∧ 0 ≤ s.run.time ∧ s.oldGlobalTime = s.run.time ∧ s.globalTimeOfBarrierReset ≤ s.run.time := by
    induction h with
    | refl => exact ⟨hi, e3.ge, e3.symm, e3.ge⟩
    | tail _ hr ih =>
      obtain ⟨i1, i2, i3, i4⟩ := ih
      obtain ⟨s1, s2, S, e, t, h1, h2, hq, hc, hp, hr, hn⟩ := hr
      obtain ⟨a1, a2, a3, a4⟩ := round_step hg i1 i2 h1 h2 hq hc hp hr
      obtain ⟨c1, c2⟩ := count_run hn
      obtain ⟨d1, d2⟩ := count_old hn
      obtain ⟨f1, f2⟩ := fetch_run h1
      obtain ⟨r1, -⟩ := renew_run h2 f2
      have hup : _ ≤ t := i1.upcoming e t (by rw [← f1, ← r1]; exact hc) (by rw [← f1, ← r1]; exact hp)
      have ht := perform_time hr
      rw [c1, d1, d2]
      refine ⟨a2, a3, a4, ?_⟩
      rcases renew_reset h2 with ⟨k1, k2⟩ | k1
      · rcases fetch_reset h1 with k3 | k3
        · rw [k1, k3, ht]; linarith
        · rw [k1, k3, ← k2, a4]
      · rw [k1, a4]
  obtain ⟨-, -, k1, k2⟩ := key
  refine ⟨k1, k2, ?_, ?_, ?_, ?_⟩ <;> simp only [Sim.barrierEmpty, Sim.barrierReset, k1] <;> linarith

/-- The end times are the first moments at which the particles have grown as far as asked for. -/
theorem C81_end_time (distance absolute shrinkage relative R T : ℝ) (ha : 0 < absolute) (hr : 0 < relative)
    (hs : shrinkage < 1) (hR : 0 < R) :
    (distanceTimeEnd distance absolute ≤ T ↔ distance ≤ 2 * (absolute * T)) ∧
    (volumeTimeEnd shrinkage relative ≤ T ↔ R ≤ (1 - shrinkage) * R + (1 - shrinkage) * R * relative * T) := by
  have h1 : 0 < 1 - shrinkage := by linarith
  constructor
  · unfold distanceTimeEnd
    rw [div_le_iff₀ ha]
    constructor <;> intro h <;> linarith
  · unfold volumeTimeEnd
    rw [div_le_iff₀ hr, sub_le_iff_le_add, div_le_iff₀ h1]
    constructor
    · intro h
      have := mul_le_mul_of_nonneg_right h hR.le
      nlinarith
    · intro h
      refine le_of_mul_le_mul_right ?_ hR
      nlinarith

/-- `n` performed events lead from one state to another one. -/
inductive Run.Events (g : Grid ℝ) : ℕ → Run → Run → Prop
  | zero (S : Run) : Run.Events g 0 S S
  | succ (n : ℕ) (S S' S'' : Run) (e : Partners) (t : ℝ) (h : Run.Events g n S S') (hc : S'.Considered g e)
      (hp : S'.predict e = .ok (some t)) (hr : S'.perform t e = .ok S'') : Run.Events g (n + 1) S S''

/-- No event of a simulation throws: an exception means that there were more than `rNumEventsMax` events, and no more
than a millionth of time has passed in them. -/
theorem C81_exception (g : Grid ℝ) (hg : g.Valid) (ps : List Sphere) (hps : Prepared g ps) (S0 : Run)
    (h0 : Run.start g ps = .ok S0) (c : SimSettings) (hm : 0 ≤ c.numEventsMax) (h : Simulate g c S0 .threw) :
    ∃ S S', Run.Reach g S0 S ∧ Run.Events g (c.numEventsMax.toNat + 1) S S' ∧ S'.time - S.time < 1 / 10 ^ 6 := by
  obtain ⟨S1, e1, -, e3, -, hi⟩ := start_inv hg hps
  rw [h0] at e1
  rw [← Res.ok.inj e1] at e3 hi
  obtain ⟨rebuild, hl⟩ := h
  have key : ∀ (s : Sim) (o : Outcome), Loop g c s o → s.run.Inv g → 0 ≤ s.run.time → Run.Reach g S0 s.run →
      (∃ n : ℕ, (n : ℤ) = s.noChangeCounter ∧ (n : ℤ) ≤ c.numEventsMax ∧
        ∃ S, Run.Reach g S0 S ∧ Run.Events g n S s.run ∧ S.time = s.noChangeGlobalTime) → o = .threw →
      ∃ S S', Run.Reach g S0 S ∧ Run.Events g (c.numEventsMax.toNat + 1) S S' ∧ S'.time - S.time < 1 / 10 ^ 6 := by
    intro s o hl
    induction hl with
    | stop => intro _ _ _ _ ho; cases ho
    | undefined => intro _ _ _ _ ho; cases ho
    | failed s s1 s2 e t wall h h1 h2 hq hc hp hr =>
      intro hI hs hR _ _
      exfalso
      obtain ⟨f1, f2⟩ := fetch_run h1
      obtain ⟨r1, r2⟩ := renew_run h2 f2
      have hrun : s2.run = s.run := r1.trans f1
      rw [hrun] at hc hp hr
      obtain ⟨r, q1, q2⟩ := C80_no_exception g hg ps hps S0 s.run h0 hR e hc
      rw [hp] at q1
      obtain ⟨-, S', hS'⟩ := q2 t (Res.ok.inj q1).symm
      rw [hr] at hS'
      cases hS'
    | stuck s s1 s2 S e t wall h h1 h2 hq hc hp hr hn =>
      intro hI hs hR hN _
      obtain ⟨a1, a2, a3, a4⟩ := round_step hg hI hs h1 h2 hq hc hp hr
      obtain ⟨f1, f2⟩ := fetch_run h1
      obtain ⟨r1, r2⟩ := renew_run h2 f2
      obtain ⟨n1, n2⟩ := fetch_counter h1
      obtain ⟨n3, n4⟩ := renew_counter h2
      have hrun : s2.run = s.run := r1.trans f1
      rw [hrun] at hc hp hr
      obtain ⟨n, hn1, hn2, S', hS1, hS2, hS3⟩ := hN
      unfold Sim.count at hn
      split_ifs at hn with m1 m2
      rw [n3, n1] at m2
      rw [n4, n2, a4, ← hS3] at m1
      have hnn : n = c.numEventsMax.toNat := by omega
      subst hnn
      exact ⟨S', S, hS1, Run.Events.succ _ _ _ _ e t hS2 hc hp hr, m1⟩
    | round s s1 s2 s3 S e t wall o h h1 h2 hq hc hp hr hn ho ih =>
      intro hI hs hR hN hT
      obtain ⟨a1, a2, a3, a4⟩ := round_step hg hI hs h1 h2 hq hc hp hr
      obtain ⟨c1, c2⟩ := count_run hn
      have hR' := Run.Reach.step _ _ hR a1
      obtain ⟨f1, f2⟩ := fetch_run h1
      obtain ⟨r1, r2⟩ := renew_run h2 f2
      obtain ⟨n1, n2⟩ := fetch_counter h1
      obtain ⟨n3, n4⟩ := renew_counter h2
      have hrun : s2.run = s.run := r1.trans f1
      rw [hrun] at hc hp hr
      obtain ⟨n, hn1, hn2, S', hS1, hS2, hS3⟩ := hN
      rw [c1] at ih
      refine ih a2 a3 hR' ?_ hT
      unfold Sim.count at hn
      split_ifs at hn with m1 m2
      · rw [← Option.some.inj hn]
        refine ⟨n + 1, ?_, ?_, S', hS1, Run.Events.succ _ _ _ _ e t hS2 hc hp hr, ?_⟩
        · simp only [n3, n1]; omega
        · rw [n3, n1] at m2; omega
        · simp only [n4, n2]; exact hS3
      · rw [← Option.some.inj hn]
        exact ⟨0, rfl, hm, S, hR', Run.Events.zero S, a4.symm⟩
  exact key _ _ hl hi e3.ge Run.Reach.refl ⟨0, rfl, hm, S0, Run.Reach.refl, Run.Events.zero S0, e3⟩ rfl

/-- The state in which a simulation returns: sizes, specimen, distances. -/
theorem returned_state {g : Grid ℝ} (hg : g.Valid) {ps : List Sphere} (hps : Prepared g ps) {S0 S : Run}
    (h0 : Run.start g ps = .ok S0) {c : SimSettings} {T w : ℝ} (h : Simulate g c S0 (.returned S T w)) :
    0 ≤ T ∧ S.n = ps.length ∧
      (∀ k, (hk : k < ps.length) → (S.particle k).radius = ps[k].radius + ps[k].growthRate * T ∧
        (S.particle k).radiusGrowth = ps[k].radius) ∧
      (∀ k, k < ps.length → ∀ i, g.lower i ≤ (S.particle k).position i - (S.particle k).radius ∧
        (S.particle k).position i + (S.particle k).radius ≤ g.upper i) ∧
      (∀ k l, k < ps.length → l < ps.length → k ≠ l → ((S.particle k).radius + (S.particle l).radius) ^ 2 ≤
        ∑ i, ((S.particle k).position i - (S.particle l).position i) ^ 2) := by
  obtain ⟨r1, r2, r3, r4, -⟩ := C81_result g hg ps hps S0 S h0 c T w h
  obtain ⟨g1, g2⟩ := C80_growth g hg ps hps S0 S h0 r1
  obtain ⟨S1, e1, -, -, e4, hi⟩ := start_inv hg hps
  rw [h0] at e1
  rw [← Res.ok.inj e1] at e4 hi
  have hq : S.Quiet g T := by
    rw [← r2]; exact (reach_inv hg hi r1).upcoming
  refine ⟨r3, g1, ?_, ?_, ?_⟩
  · intro k hk
    have := g2 k hk T
    rw [r4 k] at this
    refine ⟨this, ?_⟩
    rw [((reach_growth r1).2 k).1, e4 k hk]
    obtain ⟨p, v, r, gr, he, -, -⟩ := hps.fresh _ (List.getElem_mem hk)
    rw [he]; rfl
  · intro k hk i
    have := C80_inside g hg ps hps S0 S h0 r1 T r2.le hq k (g1 ▸ hk) i
    rwa [r4 k] at this
  · intro k l hk hl hkl
    have := C80_no_overlap g hg ps hps S0 S h0 r1 T r2.le hq k l (g1 ▸ hk) (g1 ▸ hl) hkl
    rwa [r4 k, r4 l] at this

/-- `MaximizeParticleDistance`: if the simulation was not cut off by the wall time, the exported particles (end positions
and initial radii) keep the wanted distance from each other and half of it from the sides of the specimen. -/
theorem C81_distance_partial (g : Grid ℝ) (hg : g.Valid) (absolute distance : ℝ) (ha : 0 < absolute) (hd : 0 ≤ distance)
    (rows : List ((Fin 3 → ℝ) × ℝ × (Fin 3 → ℝ))) (hps : Prepared g (createParticles 0 absolute rows)) (S0 S : Run)
    (h0 : Run.start g (createParticles 0 absolute rows) = .ok S0) (c : SimSettings)
    (hc : c.timeMax = distanceTimeEnd distance absolute) (T w : ℝ) (h : Simulate g c S0 (.returned S T w))
    (hw : w < c.wallTimeMax) :
    S.n = rows.length ∧
      (∀ k, (hk : k < rows.length) → (exportRow (S.particle k) true).2 = rows[k].2.1) ∧
      (∀ k < rows.length, ∀ i,
        g.lower i + distance / 2 ≤ (exportRow (S.particle k) true).1 i - (exportRow (S.particle k) true).2 ∧
        (exportRow (S.particle k) true).1 i + (exportRow (S.particle k) true).2 ≤ g.upper i - distance / 2) ∧
      ∀ k l, k < rows.length → l < rows.length → k ≠ l →
        (exportRow (S.particle k) true).2 + (exportRow (S.particle l) true).2 + distance ≤
          Real.sqrt (∑ i, ((exportRow (S.particle k) true).1 i - (exportRow (S.particle l) true).1 i) ^ 2) := by
  obtain ⟨s1, s2, s3, s4, s5⟩ := returned_state hg hps h0 h
  obtain ⟨-, -, -, -, r5⟩ := C81_result g hg _ hps S0 S h0 c T w h
  have hlen : (createParticles 0 absolute rows).length = rows.length := by simp [createParticles]
  have hT : c.timeMax ≤ T := by
    rcases r5 with h | h
    · exact h
    · exact absurd h (not_le.2 hw)
  have hgrow : distance / 2 ≤ absolute * T := by
    rw [hc, distanceTimeEnd, div_le_iff₀ ha] at hT
    linarith
  have hk : ∀ k, (hk : k < rows.length) → (S.particle k).radiusGrowth = rows[k].2.1 ∧ 0 < rows[k].2.1 ∧
      rows[k].2.1 + distance / 2 ≤ (S.particle k).radius := by
    intro k hk
    obtain ⟨q1, q2⟩ := s3 k (by rw [hlen]; exact hk)
    have hm := hps.fresh (createParticles 0 absolute rows)[k] (List.getElem_mem _)
    simp only [createParticles, List.getElem_map, Sphere.mk0, mul_zero, zero_add] at q1 q2 hm
    obtain ⟨p, v, r, gr, he, hr, -⟩ := hm
    have : rows[k].2.1 = r := congrArg Sphere.radius he
    exact ⟨q2, by rw [this]; exact hr, by rw [q1]; linarith⟩
  refine ⟨s2.trans hlen, ?_, ?_, ?_⟩
  · intro k h
    exact (hk k h).1
  · intro k h i
    have := s4 k (by rw [hlen]; exact h) i
    obtain ⟨q1, -, q2⟩ := hk k h
    simp only [exportRow, if_true]
    rw [q1]
    constructor <;> linarith [this.1, this.2]
  · intro k l h1 h2 hkl
    have := s5 k l (by rw [hlen]; exact h1) (by rw [hlen]; exact h2) hkl
    obtain ⟨q1, q3, q2⟩ := hk k h1
    obtain ⟨q4, q6, q5⟩ := hk l h2
    simp only [exportRow, if_true]
    rw [q1, q4]
    refine Real.le_sqrt_of_sq_le (le_trans ?_ this)
    refine pow_le_pow_left₀ ?_ ?_ 2 <;> linarith

/-- `MaximizeParticleVolumeFraction`: if the simulation was not cut off by the wall time, no particle is smaller than
before it was shrunk. -/
theorem C81_volume_partial (g : Grid ℝ) (hg : g.Valid) (relative shrinkage : ℝ) (hr : 0 < relative)
    (hs1 : shrinkage < 1) (rows : List ((Fin 3 → ℝ) × ℝ × (Fin 3 → ℝ)))
    (hps : Prepared g (createParticles relative 0 rows)) (S0 S : Run)
    (h0 : Run.start g (createParticles relative 0 rows) = .ok S0) (c : SimSettings)
    (hc : c.timeMax = volumeTimeEnd shrinkage relative) (T w : ℝ) (h : Simulate g c S0 (.returned S T w))
    (hw : w < c.wallTimeMax) (k : ℕ) (hk : k < rows.length) (R : ℝ) (hR : rows[k].2.1 = (1 - shrinkage) * R) :
    R ≤ (exportRow (S.particle k) false).2 := by
  obtain ⟨s1, s2, s3, s4, s5⟩ := returned_state hg hps h0 h
  obtain ⟨-, -, -, -, r5⟩ := C81_result g hg _ hps S0 S h0 c T w h
  have hlen : (createParticles relative 0 rows).length = rows.length := by simp [createParticles]
  have hT : c.timeMax ≤ T := by
    rcases r5 with h | h
    · exact h
    · exact absurd h (not_le.2 hw)
  have hs : 0 < 1 - shrinkage := by linarith
  obtain ⟨q1, -⟩ := s3 k (by rw [hlen]; exact hk)
  have hm := hps.fresh (createParticles relative 0 rows)[k] (List.getElem_mem _)
  simp only [createParticles, List.getElem_map, Sphere.mk0, add_zero] at q1 hm
  obtain ⟨p, v, r, gr, he, hr0, -⟩ := hm
  have hpos : 0 < rows[k].2.1 := by
    have : rows[k].2.1 = r := congrArg Sphere.radius he
    rw [this]; exact hr0
  simp only [exportRow, Bool.false_eq_true, if_false]
  rw [hc, volumeTimeEnd, div_le_iff₀ hr] at hT
  rw [q1]
  have h1 : R = rows[k].2.1 * (1 / (1 - shrinkage)) := by
    rw [hR]; field_simp
  rw [h1]
  have : rows[k].2.1 * (1 / (1 - shrinkage) - 1) ≤ rows[k].2.1 * (T * relative) :=
    mul_le_mul_of_nonneg_left hT hpos.le
  nlinarith

/-! ### A particle in the middle of a cube -/

/-- A cube of one sub box -/
noncomputable def cubeGrid (h : ℝ) : Grid ℝ := ⟨fun _ => 1, fun _ => 0, fun _ => 2 * h⟩

/-- A growing particle at rest in the middle of it -/
noncomputable def cubeParticle (h : ℝ) : Sphere := Sphere.mk0 (fun _ => h) 0 1 1

theorem cube_valid {h : ℝ} (hh : 1 < h) : (cubeGrid h).Valid :=
  ⟨fun _ => le_refl (1 : ℤ), fun _ => by simp only [cubeGrid]; linarith⟩

theorem cube_prepared {h : ℝ} (hh : 1 < h) : Prepared (cubeGrid h) [cubeParticle h] := by
  refine ⟨?_, ?_, ?_⟩
  · intro s hs
    rw [List.mem_singleton] at hs
    exact ⟨_, _, _, _, hs, by norm_num, by norm_num⟩
  · intro s hs
    rw [List.mem_singleton] at hs
    subst hs
    refine ⟨by norm_num [Sphere.ball, cubeParticle, Sphere.mk0], fun i => ?_⟩
    simp only [Sphere.ball, cubeParticle, Sphere.mk0, cubeGrid]
    constructor <;> linarith
  · intro k l hk hl hkl
    simp only [List.length_singleton] at hk hl
    omega

/-- All events of the particle: the collisions with the six sides, at the same time -/
theorem cube_events {h : ℝ} (hh : 1 < h) {S : Run} (h0 : Run.start (cubeGrid h) [cubeParticle h] = .ok S) :
    S.n = 1 ∧ S.time = 0 ∧ S.particle 0 = cubeParticle h ∧
      (∀ e t, S.Considered (cubeGrid h) e → S.predict e = .ok (some t) → t = h - 1) ∧
      ∃ e, S.Considered (cubeGrid h) e ∧ S.predict e = .ok (some (h - 1)) ∧ ∃ S', S.perform (h - 1) e = .ok S' := by
  obtain ⟨S1, h1, h2, h3, h4, hI⟩ := start_inv (cube_valid hh) (cube_prepared hh)
  rw [h0] at h1
  have h1 := Res.ok.inj h1
  subst h1
  have hp0 : S.particle 0 = cubeParticle h := h4 0 (by simp)
  have hn : S.n = 1 := h2
  have hmem : (cubeGrid h).Mem 0 := fun i => ⟨le_refl (0 : ℤ), one_pos⟩
  have hcell : ∀ c, (cubeGrid h).Mem c → c = 0 := by
    intro c hc
    funext i
    have := hc i
    simp only [cubeGrid] at this
    simp only [Pi.zero_apply]; omega
  have hphys : ∀ a up, ((cubeGrid h).face 0 a up).physical = true := by
    intro a up
    rw [face_physical (cube_valid hh) hmem]
    intro h
    have := congrFun (hcell _ h) a
    cases up <;> simp [neighbour] at this
  have hpred : ∀ a up, predictWall ((cubeGrid h).face 0 a up).toWall (cubeParticle h) = .ok (some (h - 1)) := by
    intro a up
    have hd := distances_eq ((cubeGrid h).face 0 a up).position _ (face_proper (cubeGrid h) 0 a up) (cubeParticle h)
    have hw : Wall.mk0 ((cubeGrid h).face 0 a up).position (fun i => (((cubeGrid h).face 0 a up).direction i : ℝ)) =
      ((cubeGrid h).face 0 a up).toWall := rfl
    rw [hw] at hd
    unfold predictWall
    rw [hd, Res.bind_ok', face_dot, dot_comm, face_dot, Pi.sub_apply]
    have hp : ((cubeGrid h).face 0 a up).position a = _ := face_position (cubeGrid h) 0 a up
    rw [hp]
    have e1 : (if up then -1 else (1 : ℝ)) * ((cubeParticle h).position a -
        (cubeGrid h).plane a (if up then (0 : Fin 3 → ℤ) a + 1 else (0 : Fin 3 → ℤ) a)) - (cubeParticle h).radius =
        h - 1 := by
      cases up <;> simp [cubeParticle, Sphere.mk0, Grid.plane, cubeGrid]
      ring
    have e2 : (if up then -1 else (1 : ℝ)) * (cubeParticle h).velocity a - (cubeParticle h).growthRate = -1 := by
      simp [cubeParticle, Sphere.mk0]
    rw [e1, e2]
    unfold wallTime
    rw [if_neg (by rintro ⟨-, h⟩; linarith), if_neg (by norm_num), if_pos (by rw [neg_div_neg_eq, div_one]; linarith)]
    simp [cubeParticle, Sphere.mk0]
    ring
  have hreg : (cubeGrid h).getBoxIndex 0 ∈ S.registration.boxes 0 := by
    refine hI.cover 0 (by omega) 0 hmem fun i => ?_
    rw [h3, hp0]
    simp [Sphere.lo, Sphere.hi, Sphere.moveAndGrow, cubeParticle, Sphere.mk0, Grid.plane, cubeGrid]
    constructor <;> linarith
  refine ⟨hn, h3, hp0, ?_, ?_⟩
  · intro e t' he hpe
    cases e with
    | wall k w =>
      obtain ⟨hk, b, hb, hw⟩ := he
      have hk0 : k = 0 := by omega
      subst hk0
      obtain ⟨c, hc, rfl⟩ := hI.grid 0 (by omega) b hb
      have hc0 := hcell c hc
      subst hc0
      obtain ⟨a, up, rfl⟩ := (mem_walls hc w).1 hw
      simp only [Run.predict, hphys, if_true] at hpe
      rw [hp0, hpred a up] at hpe
      exact (Option.some.inj (Res.ok.inj hpe)).symm
    | pair k l =>
      obtain ⟨hk, hl, hkl, -⟩ := he
      omega
  · have hc : S.Considered (cubeGrid h) (.wall 0 ((cubeGrid h).face 0 0 true)) :=
      ⟨by omega, _, hreg, (mem_walls hmem _).2 ⟨0, true, rfl⟩⟩
    have hp : S.predict (.wall 0 ((cubeGrid h).face 0 0 true)) = .ok (some (h - 1)) := by
      simp only [Run.predict, hphys, if_true]
      rw [hp0]; exact hpred 0 true
    obtain ⟨r, q1, q2⟩ := C80_no_exception _ (cube_valid hh) _ (cube_prepared hh) S S h0 Run.Reach.refl _ hc
    rw [hp] at q1
    exact ⟨_, hc, hp, (q2 _ (Res.ok.inj q1).symm).2⟩

/-- The wanted distance is not reached when the wall time is used up, and `Simulate` returns normally: nothing tells the
caller.  (Two particles at a distance of 1/2; the wanted distance is 1.) -/
theorem C81_wall_time_counterexample :
    ∃ (rows : List ((Fin 3 → ℝ) × ℝ × (Fin 3 → ℝ))) (S0 S : Run) (c : SimSettings) (T w : ℝ),
      Prepared realGrid (createParticles 0 (1 / 10) rows) ∧
      Run.start realGrid (createParticles 0 (1 / 10) rows) = .ok S0 ∧ 0 < c.wallTimeMax ∧
      c.timeMax = distanceTimeEnd 1 (1 / 10) ∧ Simulate realGrid c S0 (.returned S T w) ∧
      Real.sqrt (∑ i, ((exportRow (S.particle 0) true).1 i - (exportRow (S.particle 1) true).1 i) ^ 2) <
        (exportRow (S.particle 0) true).2 + (exportRow (S.particle 1) true).2 + 1 := by
  have he : createParticles 0 (1 / 10) [(fun _ => 1 / 2, 1 / 4, ![1, 0, 0]), (![3 / 2, 1 / 2, 1 / 2], 1 / 4, 0)] =
      exampleParticles := by
    simp [createParticles, exampleParticles]
  obtain ⟨S0, h1, h2, h3, h4, hI⟩ := start_inv realGrid_valid example_prepared
  refine ⟨[(fun _ => 1 / 2, 1 / 4, ![1, 0, 0]), (![3 / 2, 1 / 2, 1 / 2], 1 / 4, 0)], S0, S0.sync 0,
    ⟨1000, distanceTimeEnd 1 (1 / 10), 1, 10⟩, 0, 1, by rw [he]; exact example_prepared, by rw [he]; exact h1, one_pos,
    rfl, ⟨0, ?_⟩, ?_⟩
  · exact Loop.stop (Sim.initial _ S0 0) 1 1 (fun h => absurd h.1 (lt_irrefl _)) le_rfl
  · have p0 : S0.particle 0 = _ := h4 0 (by simp [exampleParticles])
    have p1 : S0.particle 1 = _ := h4 1 (by simp [exampleParticles])
    simp only [exportRow, Run.sync, p0, p1, if_true]
    rw [Real.sqrt_lt' (by norm_num [exampleParticles, Sphere.moveAndGrow, Sphere.mk0])]
    simp [exampleParticles, Sphere.moveAndGrow, Sphere.mk0, Fin.sum_univ_three]
    norm_num

/-- If nothing happens before the first time barrier (10 is the value `GeometryConcrete` starts with), the new barrier is
again 0 and the loop goes on to take the first event of an empty list, whatever the settings. -/
theorem C81_undefined_counterexample (S : Run) (h0 : Run.start (cubeGrid 100) [cubeParticle 100] = .ok S)
    (c : SimSettings) (hb : c.initialTimeBarrier = 10) (ht : 0 < c.timeMax) (hw : 0 < c.wallTimeMax) :
    Simulate (cubeGrid 100) c S .undefined ∧
      ∀ o, Simulate (cubeGrid 100) c S o → o = .undefined ∨ ∃ S' w, o = .returned S' 0 w ∧ c.wallTimeMax ≤ w := by
  obtain ⟨c1, c2, c3, c4, -⟩ := cube_events (by norm_num : (1 : ℝ) < 100) h0
  have hempty : ∀ b : ℝ, b < 99 → S.queued (cubeGrid 100) b = ∅ := by
    intro b hb
    ext t
    simp only [Run.queued, Set.mem_ofPred_eq, Set.mem_empty_iff_false, iff_false]
    rintro ⟨e, h1, h2, h3, h4⟩
    have := c4 e t h1 h2
    linarith
  have hnull : ∀ b t : ℝ, b < 99 → NextTime (S.queued (cubeGrid 100) b) t → t = -1 := by
    intro b t hb h
    rw [hempty b hb] at h
    cases h with
    | null => rfl
    | least _ h => exact absurd h.1 (Set.notMem_empty t)
  -- whatever the timer says, the list is empty
  have hlist : ∀ (rebuild : ℝ) (s1 s2 : Sim), (Sim.initial c S rebuild).Fetch (cubeGrid 100) s1 →
      s1.Renew (cubeGrid 100) s2 → s2.run.queued (cubeGrid 100) s2.barrier = ∅ := by
    intro rebuild s1 s2 h1 h2
    have hs1 : s1.run = S ∧ s1.barrier < 99 ∧ s1.barrierReset < 99 := by
      cases h1 with
      | ready t h ht =>
        exact absurd (hnull c.initialTimeBarrier t (by rw [hb]; norm_num) h) ht
      | empty t rebuild wall h h' =>
        have ht := hnull _ t (by simp [Sim.barrierEmpty, Sim.initial]) h'
        subst ht
        refine ⟨rfl, ?_, ?_⟩
        · simp [Sim.withBarrier, Sim.barrierEmpty, Sim.initial]
        · simp [Sim.withBarrier, Sim.barrierReset, Sim.initial]; norm_num
    cases h2 with
    | keep wall h => rw [hs1.1]; exact hempty _ hs1.2.1
    | reset wall t rebuild wall' h ht =>
      simp only [Sim.withBarrier]
      rw [hs1.1]; exact hempty _ hs1.2.2
  refine ⟨⟨0, ?_⟩, ?_⟩
  · have hf : (Sim.initial c S 0).Fetch (cubeGrid 100)
        ((Sim.initial c S 0).withBarrier (Sim.initial c S 0).barrierEmpty (-1) 0 0) :=
      Sim.Fetch.empty (-1) 0 0 (NextTime.null (hempty _ (by simp only [Sim.initial]; rw [hb]; norm_num)))
        (NextTime.null (hempty _ (by simp [Sim.barrierEmpty, Sim.initial])))
    have hr := Sim.Renew.keep (g := cubeGrid 100)
      (s := (Sim.initial c S 0).withBarrier (Sim.initial c S 0).barrierEmpty (-1) 0 0) 0
      (by simp [Sim.withBarrier])
    exact Loop.undefined _ _ _ 0 ⟨hw, ht⟩ hf hr (hlist 0 _ _ hf hr)
  · rintro o ⟨rebuild, hl⟩
    cases hl with
    | stop _ wall wall' h hw' =>
      refine Or.inr ⟨_, wall', rfl, ?_⟩
      by_contra hcon
      exact h ⟨by linarith, ht⟩
    | undefined => exact Or.inl rfl
    | failed _ s1 s2 e t wall h h1 h2 hq =>
      rw [hlist rebuild _ _ h1 h2] at hq
      exact absurd hq.1 (Set.notMem_empty t)
    | stuck _ s1 s2 S' e t wall h h1 h2 hq =>
      rw [hlist rebuild _ _ h1 h2] at hq
      exact absurd hq.1 (Set.notMem_empty t)
    | round _ s1 s2 s3 S' e t wall _ h h1 h2 hq =>
      rw [hlist rebuild _ _ h1 h2] at hq
      exact absurd hq.1 (Set.notMem_empty t)

/-- The hypotheses of the counterexample are met. -/
example : ∃ S, Run.start (cubeGrid 100) [cubeParticle 100] = .ok S := by
  obtain ⟨S, h, -⟩ := start_inv (cube_valid (by norm_num : (1 : ℝ) < 100)) (cube_prepared (by norm_num))
  exact ⟨S, h⟩

/-- The end time is looked at between events only: particles may get larger than wanted.  (The particle of radius 1 should
grow to 2 and grows to 10.) -/
theorem C81_overshoot_counterexample :
    ∃ (S0 S : Run) (c : SimSettings) (T w : ℝ), Run.start (cubeGrid 10) (createParticles 1 0 [(fun _ => 10, 1, 0)]) = .ok S0 ∧
      c.timeMax = volumeTimeEnd (1 / 2) 1 ∧ w < c.wallTimeMax ∧
      Simulate (cubeGrid 10) c S0 (.returned S T w) ∧ (exportRow (S.particle 0) false).2 = 10 := by
  have h10 : (1 : ℝ) < 10 := by norm_num
  obtain ⟨S, h1, -⟩ := start_inv (cube_valid h10) (cube_prepared h10)
  obtain ⟨c1, c2, c3, c4, e, c5, c6, S', c7⟩ := cube_events h10 h1
  have hcreate : createParticles 1 0 [(fun _ => 10, 1, 0)] = [cubeParticle 10] := by
    simp [createParticles, cubeParticle]
  obtain ⟨c, hc⟩ : ∃ c : SimSettings, c = ⟨1000, volumeTimeEnd (1 / 2) 1, 60, 10⟩ := ⟨_, rfl⟩
  have hmax : c.timeMax = 1 := by rw [hc]; norm_num [volumeTimeEnd]
  have hleast : IsLeast (S.queued (cubeGrid 10) 10) 9 := by
    refine ⟨⟨e, c5, by rw [c6]; norm_num, by norm_num, by norm_num⟩, ?_⟩
    rintro t ⟨e', d1, d2, -, -⟩
    rw [c4 e' t d1 d2]; norm_num
  have h9 : (10 : ℝ) - 1 = 9 := by norm_num
  rw [h9] at c6 c7
  have hf : (Sim.initial c S 0).Fetch (cubeGrid 10) { Sim.initial c S 0 with globalTime := 9 } :=
    Sim.Fetch.ready 9 (NextTime.least 9 (by rw [hc]; exact hleast)) (by norm_num)
  have hr : Sim.Renew (cubeGrid 10) { Sim.initial c S 0 with globalTime := 9 } { Sim.initial c S 0 with globalTime := 9 } :=
    Sim.Renew.keep 0 (by simp [Sim.initial])
  obtain ⟨s3, hs3, hg3⟩ : ∃ s3, ({ Sim.initial c S 0 with globalTime := 9 } : Sim).count c S' = some s3 ∧
      s3.globalTime = 9 := by
    obtain ⟨s9, hs9⟩ : ∃ s9 : Sim, s9 = { Sim.initial c S 0 with globalTime := 9 } := ⟨_, rfl⟩
    refine ⟨{ s9 with
      run := S', noChangeCounter := 0, noChangeGlobalTime := s9.globalTime, oldGlobalTime := s9.globalTime }, ?_, ?_⟩
    · rw [← hs9]
      unfold Sim.count
      rw [if_neg (by rw [hs9]; simp only [Sim.initial]; norm_num)]
    · rw [hs9]
  have hrun := (count_run hs3).1
  have hS' : Simulate (cubeGrid 10) c S (.returned (S'.sync 9) 9 0) := by
    refine ⟨0, Loop.round _ _ _ s3 S' e 9 0 _ ⟨by rw [hc]; norm_num, by rw [hmax]; simp [Sim.initial]⟩ hf hr
      (by rw [hc]; exact hleast) c5 c6 c7 hs3 ?_⟩
    have := Loop.stop (g := cubeGrid 10) (c := c) s3 0 0 (by rw [hg3, hmax]; norm_num) le_rfl
    rwa [hg3, hrun] at this
  refine ⟨S, S'.sync 9, c, 9, 0, by rw [hcreate]; exact h1, by rw [hc], by rw [hc]; norm_num, hS', ?_⟩
  obtain ⟨-, -, q, -, -⟩ := returned_state (cube_valid h10) (cube_prepared h10) h1 hS'
  obtain ⟨q1, -⟩ := q 0 (by simp)
  simp only [exportRow, Bool.false_eq_true, if_false]
  rw [q1]
  norm_num [cubeParticle, Sphere.mk0]

/-- The hypotheses of the theorems on the two simulations are met: this run is not cut off by the wall time. -/
example : ∃ (rows : List ((Fin 3 → ℝ) × ℝ × (Fin 3 → ℝ))) (S0 S : Run) (c : SimSettings) (T w : ℝ),
    Prepared (cubeGrid 10) (createParticles 1 0 rows) ∧ Run.start (cubeGrid 10) (createParticles 1 0 rows) = .ok S0 ∧
    c.timeMax = volumeTimeEnd (1 / 2) 1 ∧ w < c.wallTimeMax ∧ Simulate (cubeGrid 10) c S0 (.returned S T w) := by
  obtain ⟨S0, S, c, T, w, h1, h2, h3, h4, -⟩ := C81_overshoot_counterexample
  refine ⟨_, S0, S, c, T, w, ?_, h1, h2, h3, h4⟩
  have hcreate : createParticles 1 0 [(fun _ => 10, 1, 0)] = [cubeParticle 10] := by
    simp [createParticles, cubeParticle]
  rw [hcreate]
  exact cube_prepared (by norm_num)

end NuTo.Collision
