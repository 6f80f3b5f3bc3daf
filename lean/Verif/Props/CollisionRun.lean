import Verif.Model.CollisionRun
import Verif.Props.CollisionBoxes
import Verif.Props.SpherePrediction
import Mathlib.Data.List.GetD

/-!
C80: during a simulation no particle leaves the specimen and no two particles overlap.
-/

set_option linter.unusedSectionVars false

namespace NuTo.Collision

/-! ### Trajectories -/

/-- The lower end of the particle at a given time in direction `i` -/
def Sphere.lo (s : Sphere) (i : Fin 3) (τ : ℝ) : ℝ := (s.moveAndGrow τ).position i - (s.moveAndGrow τ).radius

/-- The upper end of the particle at a given time in direction `i` -/
def Sphere.hi (s : Sphere) (i : Fin 3) (τ : ℝ) : ℝ := (s.moveAndGrow τ).position i + (s.moveAndGrow τ).radius

theorem move_move (s : Sphere) (v : V3) (t τ : ℝ) (hv : v = s.velocity) :
    ({ s.moveAndGrow t with velocity := v } : Sphere).moveAndGrow τ = s.moveAndGrow τ := by
  subst hv
  simp only [Sphere.moveAndGrow, Sphere.mk.injEq, and_true]
  funext i
  simp only [Pi.add_apply, Pi.smul_apply, smul_eq_mul]
  ring

/-- The state at time `t` is not changed by a new velocity. -/
theorem move_here (s : Sphere) (v : V3) (t : ℝ) :
    (({ s.moveAndGrow t with velocity := v } : Sphere).moveAndGrow t).position = (s.moveAndGrow t).position ∧
    (({ s.moveAndGrow t with velocity := v } : Sphere).moveAndGrow t).radius = (s.moveAndGrow t).radius := by
  refine ⟨?_, rfl⟩
  funext i
  simp [Sphere.moveAndGrow]

theorem radius_pos {s : Sphere} (hs : s.Synced) (hr : 0 < s.radius) (hg : 0 ≤ s.growthRate) {τ : ℝ}
    (hτ : s.timeOfLastUpdate ≤ τ) : 0 < (s.moveAndGrow τ).radius := by
  simp only [Sphere.Synced] at hs
  simp only [Sphere.moveAndGrow]
  nlinarith

/-! ### Walls of sub boxes -/

theorem face_proper (g : Grid ℝ) (c : Fin 3 → ℤ) (a : Fin 3) (up : Bool) :
    ProperDirection fun i => ((g.face c a up).direction i : ℝ) := by
  refine ⟨?_, fun _ => ⟨a, ?_, ?_⟩⟩
  · intro h
    have := congrFun h a
    rw [face_direction, if_pos rfl] at this
    cases up <;> simp at this
  · simp only [face_direction]
    cases up <;> simp
  · intro j hj
    simp only [face_direction]
    rw [if_neg hj]; simp

theorem face_unit (g : Grid ℝ) (c : Fin 3 → ℤ) (a : Fin 3) (up : Bool) (i : Fin 3) :
    (g.face c a up).toWall.direction i = if i = a then (if up then -1 else 1) else 0 := by
  have hd : dot (fun i => ((g.face c a up).direction i : ℝ)) (fun i => ((g.face c a up).direction i : ℝ)) = 1 := by
    simp only [dot, face_direction]
    fin_cases a <;> cases up <;> simp
  simp only [BoxWall.toWall, Wall.mk0, normalize]
  rw [hd, if_pos one_pos, Real.sqrt_one, div_one, one_smul, face_direction]
  split_ifs <;> simp

theorem face_dot (g : Grid ℝ) (c : Fin 3 → ℤ) (a : Fin 3) (up : Bool) (v : V3) :
    dot (g.face c a up).toWall.direction v = (if up then -1 else 1) * v a := by
  simp only [dot, face_unit]
  fin_cases a <;> simp

theorem face_wall_position (g : Grid ℝ) (c : Fin 3 → ℤ) (a : Fin 3) (up : Bool) :
    (g.face c a up).toWall.position a = g.plane a (if up then c a + 1 else c a) := face_position g c a up

/-- The distance of the particle to the plane of a wall, from inside -/
theorem face_distance (g : Grid ℝ) (c : Fin 3 → ℤ) (a : Fin 3) (up : Bool) (s : Sphere) (τ : ℝ) :
    wallDistance (g.face c a up).toWall s τ = if up then g.plane a (c a + 1) - s.hi a τ else s.lo a τ - g.plane a (c a) := by
  unfold wallDistance
  rw [face_dot, Pi.sub_apply, face_wall_position]
  cases up
  · simp [Sphere.lo]; ring
  · simp [Sphere.hi]; ring

theorem virtualDistances_eq (p d : V3) (hd : ProperDirection d) (out : Bool) (s : Sphere) :
    virtualDistances (Wall.mk0 p d) out s =
      .ok (dot (Wall.mk0 p d).direction (s.position - p) + (if out then 1 else -1) * s.radius,
        dot s.velocity (Wall.mk0 p d).direction + (if out then 1 else -1) * s.growthRate) := by
  unfold virtualDistances
  by_cases h : (Wall.mk0 p d).isAxisAligned
  · rw [if_pos h]
    have h1 := distances_eq p d hd s
    unfold distances at h1
    rw [if_pos h] at h1
    generalize (Wall.mk0 p d).nonNullAxis = o at h1 ⊢
    cases o with
    | none => cases h1
    | some i =>
      have h2 := Res.ok.inj h1
      rw [Prod.mk.injEq] at h2
      obtain ⟨h3, h4⟩ := h2
      have h5 := sub_left_injective h3
      have h6 := sub_left_injective h4
      dsimp only
      rw [h5, h6]
  · rw [if_neg h]; rfl

theorem predictVirtual_face (g : Grid ℝ) (c : Fin 3 → ℤ) (a : Fin 3) (up out : Bool) (s : Sphere) :
    predictVirtual (g.face c a up).toWall out s =
      let sign : ℝ := if up then -1 else 1
      let x := sign * (s.position a - g.plane a (if up then c a + 1 else c a)) + (if out then 1 else -1) * s.radius
      let v := sign * s.velocity a + (if out then 1 else -1) * s.growthRate
      .ok ((if out then exitTime x v else entryTime x v s.radius).map (s.timeOfLastUpdate + ·)) := by
  unfold predictVirtual
  have h := virtualDistances_eq (g.face c a up).position _ (face_proper g c a up) out s
  have hw : Wall.mk0 (g.face c a up).position (fun i => ((g.face c a up).direction i : ℝ)) = (g.face c a up).toWall := rfl
  rw [hw] at h
  rw [h, Res.bind_ok', face_dot, dot_comm, face_dot, Pi.sub_apply]
  have hp : (g.face c a up).position a = _ := face_position g c a up
  rw [hp]

/-- Distances change linearly. -/
theorem face_distance_linear (g : Grid ℝ) (c : Fin 3 → ℤ) (a : Fin 3) (up : Bool) (s : Sphere) (hs : s.Synced) (τ : ℝ) :
    wallDistance (g.face c a up).toWall s τ =
      ((if up then -1 else 1) * (s.position a - g.plane a (if up then c a + 1 else c a)) - s.radius) +
      ((if up then -1 else 1) * s.velocity a - s.growthRate) * (τ - s.timeOfLastUpdate) := by
  rw [face_distance]
  simp only [Sphere.Synced] at hs
  cases up <;> simp [Sphere.hi, Sphere.lo, Sphere.moveAndGrow, hs] <;> ring

theorem entryTime_some {x v r : ℝ} (hx : 0 ≤ x) (hv : v < 0) : entryTime x v r = some (-x / v) := by
  unfold entryTime
  rw [if_neg (not_lt.2 hv.le)]
  have : ¬ (x < 0 ∧ -(1 / 10 ^ 12) * r < x) := fun h => absurd h.1 (not_lt.2 hx)
  simp only [this, if_false]
  rw [if_neg hv.ne, if_pos (div_nonneg_of_nonpos (by linarith) hv.le)]

/-- A particle that is on the inner side at time `t0`, beyond the wall at time `t` and not registered on the other side:
a transfer is predicted before `t`. -/
theorem entry_predicted (g : Grid ℝ) (c : Fin 3 → ℤ) (a : Fin 3) (up : Bool) (s : Sphere) (hs : s.Synced) {t0 t : ℝ}
    (h0 : s.timeOfLastUpdate ≤ t0) (ht : t0 ≤ t) (hd0 : 0 ≤ wallDistance (g.face c a up).toWall s t0)
    (hd : wallDistance (g.face c a up).toWall s t < 0) :
    ∃ t', predictVirtual (g.face c a up).toWall false s = .ok (some t') ∧ t' < t := by
  rw [face_distance_linear g c a up s hs] at hd hd0
  rw [predictVirtual_face]
  simp only [Bool.false_eq_true, if_false]
  generalize (if up then -1 else (1 : ℝ)) * (s.position a - g.plane a (if up then c a + 1 else c a)) = y at *
  generalize (if up then -1 else (1 : ℝ)) * s.velocity a = z at *
  have hv : z - s.growthRate < 0 := by
    by_contra hv
    rw [not_lt] at hv
    have : (z - s.growthRate) * (t0 - s.timeOfLastUpdate) ≤ (z - s.growthRate) * (t - s.timeOfLastUpdate) :=
      mul_le_mul_of_nonneg_left (by linarith) hv
    linarith
  have hx : 0 ≤ y - s.radius := by
    have : (z - s.growthRate) * (t0 - s.timeOfLastUpdate) ≤ 0 :=
      mul_nonpos_of_nonpos_of_nonneg hv.le (by linarith)
    linarith
  have e1 : y + -1 * s.radius = y - s.radius := by ring
  have e2 : z + -1 * s.growthRate = z - s.growthRate := by ring
  rw [e1, e2, entryTime_some hx hv]
  refine ⟨_, rfl, ?_⟩
  have : -(y - s.radius) / (z - s.growthRate) < t - s.timeOfLastUpdate := by
    rw [div_lt_iff_of_neg hv]
    linarith
  linarith

/-- At the predicted time of leaving, the particle is beyond the wall. -/
theorem exit_predicted (g : Grid ℝ) (c : Fin 3 → ℤ) (a : Fin 3) (up : Bool) (s : Sphere) (hs : s.Synced) {t : ℝ}
    (h : predictVirtual (g.face c a up).toWall true s = .ok (some t)) :
    if up then s.lo a t = g.plane a (c a + 1) else s.hi a t = g.plane a (c a) := by
  rw [predictVirtual_face] at h
  simp only [if_true] at h
  have h := Res.ok.inj h
  rw [Option.map_eq_some_iff] at h
  obtain ⟨t0, h0, rfl⟩ := h
  have h5 : ((if up then -1 else (1 : ℝ)) * s.velocity a + 1 * s.growthRate) * t0 =
      -((if up then -1 else (1 : ℝ)) * (s.position a - g.plane a (if up then c a + 1 else c a)) + 1 * s.radius) := by
    generalize (if up then -1 else (1 : ℝ)) * s.velocity a + 1 * s.growthRate = v at h0 ⊢
    generalize (if up then -1 else (1 : ℝ)) * (s.position a - g.plane a (if up then c a + 1 else c a)) +
      1 * s.radius = x at h0 ⊢
    unfold exitTime at h0
    split_ifs at h0 with h1 h2 h3
    rw [← Option.some.inj h0]
    field_simp
  simp only [Sphere.Synced] at hs
  cases up
  · simp only [Bool.false_eq_true, if_false] at h5 ⊢
    simp [Sphere.hi, Sphere.moveAndGrow]
    linarith
  · simp only [if_true] at h5 ⊢
    simp [Sphere.lo, Sphere.moveAndGrow]
    linarith

/-- Predictions do not lie before the last update of the particle. -/
theorem virtual_later (w : Wall) (out : Bool) (s : Sphere) {t : ℝ} (h : predictVirtual w out s = .ok (some t)) :
    s.timeOfLastUpdate ≤ t := by
  unfold predictVirtual at h
  cases hx : virtualDistances w out s with
  | throw => rw [hx] at h; cases h
  | ub => rw [hx] at h; cases h
  | ok x =>
    rw [hx, Res.bind_ok'] at h
    have h := Res.ok.inj h
    rw [Option.map_eq_some_iff] at h
    obtain ⟨t0, h0, rfl⟩ := h
    have : 0 ≤ t0 := by
      split_ifs at h0 with ho
      · unfold exitTime at h0
        split_ifs at h0 with h1 h2 h3
        rw [← Option.some.inj h0]; exact h3
      · unfold entryTime at h0
        simp only at h0
        by_cases hx : x.1 < 0 ∧ -(1 / 10 ^ 12) * s.radius < x.1
        · simp only [hx, and_self, if_true] at h0
          split_ifs at h0 with h1 h2 h3
          rw [← Option.some.inj h0]; exact h3
        · simp only [hx, if_false] at h0
          split_ifs at h0 with h1 h2 h3
          rw [← Option.some.inj h0]; exact h3
    linarith

theorem wall_later (w : Wall) (s : Sphere) {t : ℝ} (h : predictWall w s = .ok (some t)) : s.timeOfLastUpdate ≤ t := by
  unfold predictWall at h
  cases hx : distances w s with
  | throw => rw [hx] at h; cases h
  | ub => rw [hx] at h; cases h
  | ok x =>
    rw [hx, Res.bind_ok'] at h
    have h := Res.ok.inj h
    rw [Option.map_eq_some_iff] at h
    obtain ⟨t0, h0, rfl⟩ := h
    unfold wallTime at h0
    split_ifs at h0 with h1 h2 h3
    have := Option.some.inj h0
    linarith

/-! ### Pairs -/

/-- Up to the time found there is no root with a change of sign, grazing or not. -/
theorem firstRoot_safe {a b c t : ℝ} (hc : 0 ≤ c) (h : firstRoot a b c = some t) :
    0 ≤ t ∧ ∀ τ, 0 ≤ τ → τ ≤ t → 0 ≤ a * τ ^ 2 + b * τ + c := by
  rcases le_or_gt 0 (b * b - 4 * a * c) with hd | hd
  · obtain ⟨h1, h2, h3⟩ := firstRoot_some hc hd h
    refine ⟨h1, fun τ h0 hτ => ?_⟩
    rcases lt_or_eq_of_le hτ with h4 | h4
    · exact (h3 τ h0 h4).1
    · rw [h4, h2]
  · have hd' : -(1 / 10 ^ 12) ≤ b * b - 4 * a * c := by
      by_contra hc'
      rw [firstRoot] at h
      simp only at h
      rw [if_pos (not_le.1 hc')] at h
      cases h
    refine ⟨(firstRoot_window hc hd hd' h).1, fun τ _ _ => ?_⟩
    have hac : 0 < a * c := by nlinarith [mul_self_nonneg b]
    have ha : 0 < a := by
      by_contra hc'
      exact absurd (mul_nonpos_of_nonpos_of_nonneg (not_lt.1 hc') hc) (not_le.2 hac)
    have h4 : 4 * a * (a * τ ^ 2 + b * τ + c) = (2 * a * τ + b) * (2 * a * τ + b) - (b * b - 4 * a * c) := by ring
    have h5 : 0 < 4 * a * (a * τ ^ 2 + b * τ + c) := by rw [h4]; nlinarith [mul_self_nonneg (2 * a * τ + b)]
    exact (pos_of_mul_pos_right h5 (by linarith : 0 ≤ 4 * a)).le

theorem ordered_safe {s1 s2 : Sphere} (h1 : s1.Synced) (h2 : s2.Synced)
    (h : s2.timeOfLastUpdate ≤ s1.timeOfLastUpdate) (hr : 0 ≤ s1.radius) (hfree : 0 ≤ clearance s1 s2 (now s1 s2)) :
    ∃ r, predictOrdered s1 s2 = .ok r ∧
      (∀ t, r = some t → now s1 s2 ≤ t ∧ ∀ τ, now s1 s2 ≤ τ → τ ≤ t → 0 ≤ clearance s1 s2 τ) ∧
      (r = none → ∀ τ, now s1 s2 ≤ τ → 0 ≤ clearance s1 s2 τ) := by
  obtain ⟨r, r1, -, r3⟩ := ordered_ok h1 h2 h hr hfree
  refine ⟨r, r1, ?_, fun hn τ hτ => (r3 hn τ hτ).1⟩
  have hq := clearance_quadratic s1 s2 h1 h2
  have hnow : now s1 s2 = s1.timeOfLastUpdate := max_eq_left h
  have hc := hq 0
  simp only [predictOrdered] at r1
  simp only at hq hc
  generalize s1.position - (s2.position + (s1.timeOfLastUpdate - s2.timeOfLastUpdate) • s2.velocity) = dP at *
  generalize s1.radius + s2.radius + s2.growthRate * (s1.timeOfLastUpdate - s2.timeOfLastUpdate) = dR at *
  generalize s1.velocity - s2.velocity = dV at *
  generalize s1.growthRate + s2.growthRate = dG at *
  generalize dot dV dV - dG * dG = a at *
  generalize 2 * (dot dV dP - dR * dG) = b at *
  generalize dot dP dP - dR * dR = c at *
  rw [add_zero, ← hnow] at hc
  have hc' : clearance s1 s2 (now s1 s2) = c := by rw [hc]; ring
  rw [hc'] at hfree
  split_ifs at r1 with hthrow
  intro t ht
  rw [ht] at r1
  have r1 := Res.ok.inj r1
  rw [Option.map_eq_some_iff] at r1
  obtain ⟨t0, ht0, rfl⟩ := r1
  obtain ⟨e1, e2⟩ := firstRoot_safe hfree ht0
  rw [hnow]
  refine ⟨by linarith, fun τ hτ1 hτ2 => ?_⟩
  have := hq (τ - s1.timeOfLastUpdate)
  rw [add_sub_cancel] at this
  rw [this]
  exact e2 _ (by linarith) (by linarith)

theorem pair_safe {s o : Sphere} (hs : s.Synced) (ho : o.Synced) (hrs : 0 ≤ s.radius) (hro : 0 ≤ o.radius)
    (hfree : 0 ≤ clearance s o (now s o)) :
    ∃ r, predictSphere s o = .ok r ∧
      (∀ t, r = some t → now s o ≤ t ∧ ∀ τ, now s o ≤ τ → τ ≤ t → 0 ≤ clearance s o τ) ∧
      (r = none → ∀ τ, now s o ≤ τ → 0 ≤ clearance s o τ) := by
  unfold predictSphere
  split_ifs with h
  · exact ordered_safe hs ho (le_of_lt h) hrs hfree
  · rw [clearance_comm s o, now_comm s o] at hfree
    have := ordered_safe ho hs (not_lt.1 h) hro hfree
    have ec : clearance s o = clearance o s := funext (clearance_comm s o)
    rw [ec, now_comm s o]
    exact this

/-! ### The invariant -/

/-- The inner part of the particle's cube and that of sub box `c` have a point in common at time `τ`. -/
def Grid.Touched (g : Grid ℝ) (s : Sphere) (τ : ℝ) (c : Fin 3 → ℤ) : Prop :=
  ∀ i, s.lo i τ < g.plane i (c i + 1) ∧ g.plane i (c i) < s.hi i τ

structure Run.Inv (g : Grid ℝ) (S : Run) : Prop where
  synced : ∀ k < S.n, (S.particle k).Synced
  growth : ∀ k < S.n, 0 ≤ (S.particle k).growthRate
  radius : ∀ k < S.n, 0 < (S.particle k).radius
  past : ∀ k < S.n, (S.particle k).timeOfLastUpdate ≤ S.time
  inside : ∀ k < S.n, ∀ i, g.lower i ≤ (S.particle k).lo i S.time ∧ (S.particle k).hi i S.time ≤ g.upper i
  cover : ∀ k < S.n, ∀ c, g.Mem c → g.Touched (S.particle k) S.time c → g.getBoxIndex c ∈ S.registration.boxes k
  free : ∀ k < S.n, ∀ l < S.n, k ≠ l → ∀ τ, now (S.particle k) (S.particle l) ≤ τ → τ ≤ S.time →
    0 ≤ clearance (S.particle k) (S.particle l) τ
  grid : ∀ k < S.n, ∀ b ∈ S.registration.boxes k, ∃ c, g.Mem c ∧ b = g.getBoxIndex c
  agree : ∀ k b, k ∈ S.registration.spheres b ↔ b ∈ S.registration.boxes k
  upcoming : S.Quiet g S.time

/-- `c` moved by `j` in direction `a` -/
def shift (c : Fin 3 → ℤ) (a : Fin 3) (up : Bool) (j : ℕ) : Fin 3 → ℤ :=
  fun i => c i + if i = a then (if up then (j : ℤ) else -(j : ℤ)) else 0

theorem shift_zero (c : Fin 3 → ℤ) (a : Fin 3) (up : Bool) : shift c a up 0 = c := by
  funext i; simp [shift]

theorem shift_succ (c : Fin 3 → ℤ) (a : Fin 3) (up : Bool) (j : ℕ) :
    neighbour (shift c a up j) a up = shift c a up (j + 1) := by
  funext i
  simp only [neighbour, shift]
  by_cases e : i = a
  · cases up <;> simp [e] <;> ring
  · simp [e]

theorem shift_apply (c : Fin 3 → ℤ) (a : Fin 3) (up : Bool) (j : ℕ) :
    shift c a up j a = c a + if up then (j : ℤ) else -(j : ℤ) := by simp [shift]

/-- The particle is registered in all sub boxes it moves through. -/
theorem chain {g : Grid ℝ} (hg : g.Valid) {S : Run} (hS : S.Inv g) {t : ℝ} (ht : S.time ≤ t) (hq : S.Quiet g t)
    {k : ℕ} (hk : k < S.n) (c : Fin 3 → ℤ) (hc : g.Mem c) (hreg : g.getBoxIndex c ∈ S.registration.boxes k)
    (a : Fin 3) (up : Bool) (h0 : 0 ≤ wallDistance (g.face c a up).toWall (S.particle k) S.time) (j : ℕ)
    (hj : g.Mem (shift c a up j))
    (hb : ∀ m < j, wallDistance (g.face (shift c a up m) a up).toWall (S.particle k) t < 0) :
    g.getBoxIndex (shift c a up j) ∈ S.registration.boxes k := by
  induction j with
  | zero => rwa [shift_zero]
  | succ j ih =>
    have hca := hc a
    have hjm : g.Mem (shift c a up j) := by
      intro i
      have h1 := hj i
      have h2 := hc i
      simp only [shift] at h1 ⊢
      by_cases e : i = a
      · simp only [e, if_true] at h1 h2 ⊢
        cases up <;> simp at h1 ⊢ <;> omega
      · simp only [e, if_false] at h1 ⊢; exact h1
    have hreg' := ih hjm fun m hm => hb m (by omega)
    by_contra hn
    have hvirt : (g.face (shift c a up j) a up).physical = false := by
      rw [← Bool.not_eq_true, face_physical hg hjm, shift_succ]
      exact not_not.2 hj
    have hd0 : 0 ≤ wallDistance (g.face (shift c a up j) a up).toWall (S.particle k) S.time := by
      rw [face_distance] at h0 ⊢
      rw [shift_apply]
      cases up
      · simp only [Bool.false_eq_true, if_false] at h0 ⊢
        have : g.plane a (c a + -(j : ℤ)) ≤ g.plane a (c a) := (plane_le hg a).2 (by omega)
        linarith
      · simp only [if_true] at h0 ⊢
        have : g.plane a (c a + 1) ≤ g.plane a (c a + (j : ℤ) + 1) := (plane_le hg a).2 (by omega)
        linarith
    obtain ⟨t', h1, h2⟩ := entry_predicted g (shift c a up j) a up (S.particle k) (hS.synced k hk) (hS.past k hk) ht
      hd0 (hb j (by omega))
    have hout : S.registration.inOutsideBox (g.face (shift c a up j) a up) k = false := by
      rw [Registration.inOutsideBox, decide_eq_false_iff_not, face_outside, shift_succ]
      exact hn
    have := hq (.wall k (g.face (shift c a up j) a up)) t' ⟨hk, _, hreg', (mem_walls hjm _).2 ⟨a, up, rfl⟩⟩ (by
      simp only [Run.predict, hvirt, Bool.false_eq_true, if_false]
      rw [hout]
      exact h1)
    linarith

/-- First and last slab the particle is in -/
theorem slabs {g : Grid ℝ} (hg : g.Valid) {S : Run} (hS : S.Inv g) {k : ℕ} (hk : k < S.n) (i : Fin 3) :
    ∃ f l : ℤ, 0 ≤ f ∧ f ≤ l ∧ l < g.divisions i ∧
      g.plane i f ≤ (S.particle k).lo i S.time ∧ (S.particle k).lo i S.time < g.plane i (f + 1) ∧
      g.plane i l < (S.particle k).hi i S.time ∧ (S.particle k).hi i S.time ≤ g.plane i (l + 1) := by
  have hr := radius_pos (hS.synced k hk) (hS.radius k hk) (hS.growth k hk) (hS.past k hk)
  obtain ⟨h1, h2⟩ := hS.inside k hk i
  have hlt : (S.particle k).lo i S.time < (S.particle k).hi i S.time := by
    unfold Sphere.lo Sphere.hi; linarith
  generalize (S.particle k).lo i S.time = u at *
  generalize (S.particle k).hi i S.time = v at *
  have hp := subLength_pos hg i
  obtain ⟨f, hf⟩ : ∃ f, f = ⌊(u - g.lower i) / g.subLength i⌋ := ⟨_, rfl⟩
  obtain ⟨l, hl⟩ : ∃ l, l = ⌈(v - g.lower i) / g.subLength i⌉ := ⟨_, rfl⟩
  have hf1 : g.plane i f ≤ u := (le_floor_plane hg i f u).1 hf.le
  have hf2 : u < g.plane i (f + 1) := (floor_plane_le hg i f u).1 hf.ge
  have hl1 : v ≤ g.plane i l := by
    have := Int.le_ceil ((v - g.lower i) / g.subLength i)
    rw [← hl, Grid.subLength, div_le_iff₀ hp] at this
    unfold Grid.plane; linarith
  have hl2 : g.plane i (l - 1) < v := by
    have := Int.ceil_lt_add_one ((v - g.lower i) / g.subLength i)
    rw [← hl, Grid.subLength, ← sub_lt_iff_lt_add, lt_div_iff₀ hp] at this
    unfold Grid.plane; push_cast; linarith
  refine ⟨f, l - 1, ?_, ?_, ?_, hf1, hf2, hl2, ?_⟩
  · rw [hf, le_floor_plane hg, plane_zero]; exact h1
  · have : f < l := (plane_lt hg i).1 (by linarith)
    omega
  · rw [← plane_lt hg i, plane_last hg]; linarith
  · rw [sub_add_cancel]; exact hl1

theorem update_eq_shift (c : Fin 3 → ℤ) (a : Fin 3) (up : Bool) (j : ℕ) (x : ℤ)
    (h : x = c a + if up then (j : ℤ) else -(j : ℤ)) : Function.update c a x = shift c a up j := by
  funext i
  by_cases e : i = a
  · subst e; rw [Function.update_self, shift_apply, h]
  · rw [Function.update_of_ne e]; simp [shift, e]

/-- One coordinate of the numbers of the sub box is changed to one the particle reaches. -/
theorem reach_axis {g : Grid ℝ} (hg : g.Valid) {S : Run} (hS : S.Inv g) {t : ℝ} (ht : S.time ≤ t) (hq : S.Quiet g t)
    {k : ℕ} (hk : k < S.n) (q : Fin 3 → ℤ) (hqm : g.Mem q) (hreg : g.getBoxIndex q ∈ S.registration.boxes k)
    (a : Fin 3) (b : ℤ) (hb : 0 ≤ b ∧ b < g.divisions a)
    (htop : q a < b → (S.particle k).hi a S.time ≤ g.plane a (q a + 1) ∧ g.plane a b < (S.particle k).hi a t)
    (hbot : b < q a → g.plane a (q a) ≤ (S.particle k).lo a S.time ∧ (S.particle k).lo a t < g.plane a (b + 1)) :
    g.Mem (Function.update q a b) ∧ g.getBoxIndex (Function.update q a b) ∈ S.registration.boxes k := by
  have hm : g.Mem (Function.update q a b) := by
    intro i
    by_cases e : i = a
    · subst e; rw [Function.update_self]; exact hb
    · rw [Function.update_of_ne e]; exact hqm i
  refine ⟨hm, ?_⟩
  rcases lt_trichotomy (q a) b with h | h | h
  · obtain ⟨h1, h2⟩ := htop h
    have e := update_eq_shift q a true (b - q a).toNat b (by simp; omega)
    rw [e] at hm ⊢
    refine chain hg hS ht hq hk q hqm hreg a true ?_ _ hm ?_
    · rw [face_distance]; simp only [if_true]; linarith
    · intro m hm
      rw [face_distance, shift_apply]
      simp only [if_true]
      have : g.plane a (q a + (m : ℤ) + 1) ≤ g.plane a b := (plane_le hg a).2 (by omega)
      linarith
  · rw [← h, Function.update_eq_self]; exact hreg
  · obtain ⟨h1, h2⟩ := hbot h
    have e := update_eq_shift q a false (q a - b).toNat b (by simp; omega)
    rw [e] at hm ⊢
    refine chain hg hS ht hq hk q hqm hreg a false ?_ _ hm ?_
    · rw [face_distance]; simp only [Bool.false_eq_true, if_false]; linarith
    · intro m hm
      rw [face_distance, shift_apply]
      simp only [Bool.false_eq_true, if_false]
      have : g.plane a (b + 1) ≤ g.plane a (q a + -(m : ℤ)) := (plane_le hg a).2 (by omega)
      linarith

/-- Until the next event the particle stays registered in all sub boxes it is in. -/
theorem cover_later {g : Grid ℝ} (hg : g.Valid) {S : Run} (hS : S.Inv g) {t : ℝ} (ht : S.time ≤ t) (hq : S.Quiet g t)
    {k : ℕ} (hk : k < S.n) (b : Fin 3 → ℤ) (hb : g.Mem b) (htouch : g.Touched (S.particle k) t b) :
    g.getBoxIndex b ∈ S.registration.boxes k := by
  choose f l h0 hfl hl h1 h2 h3 h4 using slabs hg hS hk
  obtain ⟨q, hqd⟩ : ∃ q : Fin 3 → ℤ, q = fun i => max (f i) (min (b i) (l i)) := ⟨_, rfl⟩
  have hfq : ∀ i, f i ≤ q i ∧ q i ≤ l i := by
    intro i
    have := hfl i
    simp only [hqd]; omega
  have hqm : g.Mem q := by
    intro i
    have := hfq i; have := h0 i; have := hl i
    omega
  have hreg : g.getBoxIndex q ∈ S.registration.boxes k := by
    refine hS.cover k hk q hqm fun i => ⟨?_, ?_⟩
    · have : g.plane i (f i + 1) ≤ g.plane i (q i + 1) := (plane_le hg i).2 (by have := hfq i; omega)
      have := h2 i; linarith
    · have : g.plane i (q i) ≤ g.plane i (l i) := (plane_le hg i).2 (by have := hfq i; omega)
      have := h3 i; linarith
  have htop : ∀ i, q i < b i → (S.particle k).hi i S.time ≤ g.plane i (q i + 1) ∧
      g.plane i (b i) < (S.particle k).hi i t := by
    intro i hi
    have : q i = l i := by have := hfl i; simp only [hqd] at hi ⊢; omega
    rw [this]
    exact ⟨h4 i, (htouch i).2⟩
  have hbot : ∀ i, b i < q i → g.plane i (q i) ≤ (S.particle k).lo i S.time ∧
      (S.particle k).lo i t < g.plane i (b i + 1) := by
    intro i hi
    have : q i = f i := by have := hfl i; simp only [hqd] at hi ⊢; omega
    rw [this]
    exact ⟨h1 i, (htouch i).1⟩
  have s0 := reach_axis hg hS ht hq hk q hqm hreg 0 (b 0) (hb 0) (htop 0) (hbot 0)
  have s1 := reach_axis hg hS ht hq hk _ s0.1 s0.2 1 (b 1) (hb 1) (by simpa using htop 1) (by simpa using hbot 1)
  have s2 := reach_axis hg hS ht hq hk _ s1.1 s1.2 2 (b 2) (hb 2) (by simpa using htop 2) (by simpa using hbot 2)
  have e : Function.update (Function.update (Function.update q 0 (b 0)) 1 (b 1)) 2 (b 2) = b := by
    funext i
    fin_cases i <;> simp [Function.update]
  rw [e] at s2
  exact s2.2

/-- Until the next event the particle stays inside the specimen. -/
theorem inside_later {g : Grid ℝ} (hg : g.Valid) {S : Run} (hS : S.Inv g) {t : ℝ} (ht : S.time ≤ t) (hq : S.Quiet g t)
    {k : ℕ} (hk : k < S.n) (a : Fin 3) :
    g.lower a ≤ (S.particle k).lo a t ∧ (S.particle k).hi a t ≤ g.upper a := by
  choose f l h0 hfl hl h1 h2 h3 h4 using slabs hg hS hk
  have hda := hg.divisions a
  have hin := hS.inside k hk a
  -- a sub box at the side of the specimen in which the particle is registered would stop it
  have stop : ∀ (q : Fin 3 → ℤ) (up : Bool), g.Mem q → g.getBoxIndex q ∈ S.registration.boxes k →
      ¬ g.Mem (neighbour q a up) → 0 ≤ wallDistance (g.face q a up).toWall (S.particle k) S.time →
      0 ≤ wallDistance (g.face q a up).toWall (S.particle k) t := by
    intro q up hqm hreg hn hd0
    by_contra hneg
    rw [not_le] at hneg
    have hlin := face_distance_linear g q a up (S.particle k) (hS.synced k hk)
    have hlast : 0 ≤ wallDistance (g.face q a up).toWall (S.particle k) (S.particle k).timeOfLastUpdate := by
      rw [hlin] at hneg hd0 ⊢
      generalize (if up then -1 else (1 : ℝ)) * ((S.particle k).position a - g.plane a (if up then q a + 1 else q a)) -
        (S.particle k).radius = y at *
      generalize (if up then -1 else (1 : ℝ)) * (S.particle k).velocity a - (S.particle k).growthRate = z at *
      have hz : z < 0 := by
        by_contra hz
        rw [not_lt] at hz
        have : z * (S.time - (S.particle k).timeOfLastUpdate) ≤ z * (t - (S.particle k).timeOfLastUpdate) :=
          mul_le_mul_of_nonneg_left (by linarith) hz
        linarith
      have : z * (S.time - (S.particle k).timeOfLastUpdate) ≤ 0 :=
        mul_nonpos_of_nonpos_of_nonneg hz.le (by have := hS.past k hk; linarith)
      rw [sub_self, mul_zero]; linarith
    obtain ⟨r, r1, r2, r3⟩ := C53_wall_partial (g.face q a up).position _ (face_proper g q a up) (S.particle k) (hS.synced k hk) hlast
    have hw : Wall.mk0 (g.face q a up).position (fun i => ((g.face q a up).direction i : ℝ)) =
      (g.face q a up).toWall := rfl
    rw [hw] at r1 r2 r3
    have hpast := hS.past k hk
    cases r with
    | none =>
      have := (r3 rfl t (by linarith)).1
      linarith
    | some t' =>
      obtain ⟨-, e1, e2⟩ := r2 t' rfl
      have hle := hq (.wall k (g.face q a up)) t' ⟨hk, _, hreg, (mem_walls hqm _).2 ⟨a, up, rfl⟩⟩ (by
        simp only [Run.predict, (face_physical hg hqm a up).2 hn, if_true]
        exact r1)
      rcases lt_or_eq_of_le hle with h | h
      · have := e2 t (by linarith) h
        linarith
      · rw [← h] at e1; linarith
  constructor
  · by_contra hneg
    rw [not_le] at hneg
    have hqm : g.Mem f := fun i => ⟨h0 i, by have := hfl i; have := hl i; omega⟩
    have hreg : g.getBoxIndex f ∈ S.registration.boxes k := by
      refine hS.cover k hk f hqm fun i => ⟨h2 i, ?_⟩
      have : g.plane i (f i) ≤ g.plane i (l i) := (plane_le hg i).2 (hfl i)
      have := h3 i; linarith
    obtain ⟨hm, hr⟩ := reach_axis hg hS ht hq hk f hqm hreg a 0 ⟨le_refl _, by omega⟩
      (fun h => absurd h (by have := h0 a; omega))
      (fun _ => ⟨h1 a, by
        have : g.plane a 0 < g.plane a (0 + 1) := (plane_lt hg a).2 (by omega)
        rw [plane_zero] at this; linarith⟩)
    have := stop _ false hm hr (by
      rw [neighbour_mem hm]; simp) (by
      rw [face_distance]; simp [plane_zero]; exact hin.1)
    rw [face_distance] at this
    simp [plane_zero] at this
    linarith
  · by_contra hneg
    rw [not_le] at hneg
    have hqm : g.Mem l := fun i => ⟨by have := hfl i; have := h0 i; omega, hl i⟩
    have hreg : g.getBoxIndex l ∈ S.registration.boxes k := by
      refine hS.cover k hk l hqm fun i => ⟨?_, h3 i⟩
      have : g.plane i (f i + 1) ≤ g.plane i (l i + 1) := (plane_le hg i).2 (by have := hfl i; omega)
      have := h2 i; linarith
    obtain ⟨hm, hr⟩ := reach_axis hg hS ht hq hk l hqm hreg a (g.divisions a - 1) ⟨by omega, by omega⟩
      (fun _ => ⟨h4 a, by
        have : g.plane a (g.divisions a - 1) < g.plane a (g.divisions a) := (plane_lt hg a).2 (by omega)
        rw [plane_last hg] at this; linarith⟩)
      (fun h => absurd h (by have := hl a; omega))
    have e : g.plane a (g.divisions a - 1 + 1) = g.upper a := by rw [sub_add_cancel, plane_last hg]
    have := stop _ true hm hr (by
      rw [neighbour_mem hm]; simp) (by
      rw [face_distance]; simp only [if_true, Function.update_self]; rw [e]; linarith [hin.2])
    rw [face_distance] at this
    simp only [if_true, Function.update_self] at this
    rw [e] at this
    linarith

/-- Particles with a common inner part have a common sub box. -/
theorem share {g : Grid ℝ} (hg : g.Valid) (s o : Sphere) (t : ℝ)
    (hs : ∀ i, g.lower i ≤ s.lo i t ∧ s.hi i t ≤ g.upper i)
    (hrs : 0 < (s.moveAndGrow t).radius) (hro : 0 < (o.moveAndGrow t).radius) (h : clearance s o t < 0) :
    ∃ c, g.Mem c ∧ g.Touched s t c ∧ g.Touched o t c := by
  have hax : ∀ i, |(s.moveAndGrow t).position i - (o.moveAndGrow t).position i| <
      (s.moveAndGrow t).radius + (o.moveAndGrow t).radius := by
    intro i
    refine abs_lt_of_sq_lt_sq ?_ (by linarith)
    unfold clearance dot at h
    simp only [Pi.sub_apply] at h
    fin_cases i <;> simp only [Fin.zero_eta, Fin.mk_one, Fin.reduceFinMk] <;>
      nlinarith [mul_self_nonneg ((s.moveAndGrow t).position 0 - (o.moveAndGrow t).position 0),
        mul_self_nonneg ((s.moveAndGrow t).position 1 - (o.moveAndGrow t).position 1),
        mul_self_nonneg ((s.moveAndGrow t).position 2 - (o.moveAndGrow t).position 2)]
  -- a coordinate inside both particles
  have hx : ∀ i, ∃ x, s.lo i t ≤ x ∧ x < s.hi i t ∧ o.lo i t ≤ x ∧ x < o.hi i t := by
    intro i
    have := abs_lt.1 (hax i)
    refine ⟨max (s.lo i t) (o.lo i t), le_max_left _ _, max_lt ?_ ?_, le_max_right _ _, max_lt ?_ ?_⟩ <;>
      unfold Sphere.lo Sphere.hi <;> linarith
  choose x hx1 hx2 hx3 hx4 using hx
  have hp : ∀ i, g.plane i ⌊(x i - g.lower i) / g.subLength i⌋ ≤ x i := fun i => (le_floor_plane hg i _ _).1 le_rfl
  have hp' : ∀ i, x i < g.plane i (⌊(x i - g.lower i) / g.subLength i⌋ + 1) :=
    fun i => (floor_plane_le hg i _ _).1 le_rfl
  refine ⟨fun i => ⌊(x i - g.lower i) / g.subLength i⌋, fun i => ⟨?_, ?_⟩, fun i => ⟨?_, ?_⟩, fun i => ⟨?_, ?_⟩⟩
  · change 0 ≤ ⌊(x i - g.lower i) / g.subLength i⌋
    rw [le_floor_plane hg, plane_zero]
    have := (hs i).1; have := hx1 i; linarith
  · rw [← plane_lt hg i, plane_last hg]
    have := hp i; have := hx2 i; have := (hs i).2; linarith
  · have := hx1 i; have := hp' i; linarith
  · have := hx2 i; have := hp i; linarith
  · have := hx3 i; have := hp' i; linarith
  · have := hx4 i; have := hp i; linarith

/-- Until the next event no particles overlap. -/
theorem free_later {g : Grid ℝ} (hg : g.Valid) {S : Run} (hS : S.Inv g) {t : ℝ} (ht : S.time ≤ t) (hq : S.Quiet g t)
    {k l : ℕ} (hk : k < S.n) (hl : l < S.n) (hkl : k ≠ l) :
    0 ≤ clearance (S.particle k) (S.particle l) t := by
  by_contra hneg
  rw [not_le] at hneg
  have hrk := radius_pos (hS.synced k hk) (hS.radius k hk) (hS.growth k hk) ((hS.past k hk).trans ht)
  have hrl := radius_pos (hS.synced l hl) (hS.radius l hl) (hS.growth l hl) ((hS.past l hl).trans ht)
  obtain ⟨c, hc, h1, h2⟩ := share hg (S.particle k) (S.particle l) t (fun i => inside_later hg hS ht hq hk i) hrk hrl hneg
  have b1 := cover_later hg hS ht hq hk c hc h1
  have b2 := cover_later hg hS ht hq hl c hc h2
  have hnow : now (S.particle k) (S.particle l) ≤ S.time := max_le (hS.past k hk) (hS.past l hl)
  obtain ⟨r, r1, r2, r3⟩ := pair_safe (hS.synced k hk) (hS.synced l hl) (hS.radius k hk).le (hS.radius l hl).le
    (hS.free k hk l hl hkl _ le_rfl hnow)
  cases r with
  | none =>
    have := r3 rfl t (by linarith)
    linarith
  | some t' =>
    have hle := hq (.pair k l) t' ⟨hk, hl, hkl, _, b1, (hS.agree l _).2 b2⟩ r1
    have := (r2 t' rfl).2 t (by linarith) hle
    linarith

/-! ### Events -/

/-- A new state, in which some particles were moved to time `t` and got another velocity -/
theorem preserve {g : Grid ℝ} (hg : g.Valid) {S S' : Run} (hS : S.Inv g) {t : ℝ} (ht : S.time ≤ t) (hq : S.Quiet g t)
    (hn : S'.n = S.n) (htime : S'.time = t) (M : ℕ → Prop)
    (hM : ∀ k < S.n, M k → ∃ v, S'.particle k = { (S.particle k).moveAndGrow t with velocity := v })
    (hU : ∀ k < S.n, ¬ M k → S'.particle k = S.particle k ∧ S'.registration.boxes k = S.registration.boxes k)
    (hgrid : ∀ k < S.n, ∀ b ∈ S'.registration.boxes k, ∃ c, g.Mem c ∧ b = g.getBoxIndex c)
    (hagree : ∀ k b, k ∈ S'.registration.spheres b ↔ b ∈ S'.registration.boxes k)
    (hcover : ∀ k < S.n, M k → ∀ c, g.Mem c → g.Touched (S.particle k) t c →
      g.getBoxIndex c ∈ S'.registration.boxes k) : S'.Inv g := by
  -- the state at time t
  have hat : ∀ k < S.n, ((S'.particle k).moveAndGrow t).position = ((S.particle k).moveAndGrow t).position ∧
      ((S'.particle k).moveAndGrow t).radius = ((S.particle k).moveAndGrow t).radius := by
    intro k hk
    by_cases h : M k
    · obtain ⟨v, hv⟩ := hM k hk h
      rw [hv]; exact move_here _ _ _
    · rw [(hU k hk h).1]; exact ⟨rfl, rfl⟩
  have hlo : ∀ k < S.n, ∀ i, (S'.particle k).lo i t = (S.particle k).lo i t := fun k hk i => by
    simp only [Sphere.lo, (hat k hk).1, (hat k hk).2]
  have hhi : ∀ k < S.n, ∀ i, (S'.particle k).hi i t = (S.particle k).hi i t := fun k hk i => by
    simp only [Sphere.hi, (hat k hk).1, (hat k hk).2]
  have hcl : ∀ k < S.n, ∀ l < S.n, clearance (S'.particle k) (S'.particle l) t =
      clearance (S.particle k) (S.particle l) t := fun k hk l hl => by
    simp only [clearance, (hat k hk).1, (hat k hk).2, (hat l hl).1, (hat l hl).2]
  have hlast : ∀ k < S.n, M k → (S'.particle k).timeOfLastUpdate = t := by
    intro k hk h
    obtain ⟨v, hv⟩ := hM k hk h
    rw [hv]; rfl
  have hsyn : ∀ k < S.n, (S'.particle k).Synced := by
    intro k hk
    by_cases h : M k
    · obtain ⟨v, hv⟩ := hM k hk h
      rw [hv]; rfl
    · rw [(hU k hk h).1]; exact hS.synced k hk
  have hrad : ∀ k < S.n, 0 < (S'.particle k).radius := by
    intro k hk
    by_cases h : M k
    · obtain ⟨v, hv⟩ := hM k hk h
      rw [hv]
      exact radius_pos (hS.synced k hk) (hS.radius k hk) (hS.growth k hk) ((hS.past k hk).trans ht)
    · rw [(hU k hk h).1]; exact hS.radius k hk
  have hpast : ∀ k < S.n, (S'.particle k).timeOfLastUpdate ≤ t := by
    intro k hk
    by_cases h : M k
    · exact (hlast k hk h).le
    · rw [(hU k hk h).1]; exact (hS.past k hk).trans ht
  have hfree : ∀ k < S.n, ∀ l < S.n, k ≠ l → ∀ τ, now (S'.particle k) (S'.particle l) ≤ τ → τ ≤ t →
      0 ≤ clearance (S'.particle k) (S'.particle l) τ := by
    intro k hk l hl hkl τ h1 h2
    by_cases hm : M k ∨ M l
    · have : τ = t := by
        refine le_antisymm h2 (le_trans ?_ h1)
        rcases hm with h | h
        · rw [← hlast k hk h]; exact le_max_left _ _
        · rw [← hlast l hl h]; exact le_max_right _ _
      rw [this, hcl k hk l hl]
      exact free_later hg hS ht hq hk hl hkl
    · push Not at hm
      rw [(hU k hk hm.1).1, (hU l hl hm.2).1] at h1 ⊢
      rcases le_total τ S.time with h | h
      · exact hS.free k hk l hl hkl τ h1 h
      · exact free_later hg hS h (fun e t' hc hp => h2.trans (hq e t' hc hp)) hk hl hkl
  refine ⟨?_, ?_, ?_, ?_, ?_, ?_, ?_, ?_, hagree, ?_⟩
  · intro k hk; exact hsyn k (hn ▸ hk)
  · intro k hk
    rw [hn] at hk
    by_cases h : M k
    · obtain ⟨v, hv⟩ := hM k hk h
      rw [hv]; exact hS.growth k hk
    · rw [(hU k hk h).1]; exact hS.growth k hk
  · intro k hk; exact hrad k (hn ▸ hk)
  · intro k hk; rw [htime]; exact hpast k (hn ▸ hk)
  · intro k hk i
    rw [hn] at hk
    rw [htime, hlo k hk, hhi k hk]
    exact inside_later hg hS ht hq hk i
  · intro k hk c hc htouch
    rw [hn] at hk
    have ht' : g.Touched (S.particle k) t c := by
      intro i
      have := htouch i
      rwa [htime, hlo k hk, hhi k hk] at this
    by_cases h : M k
    · exact hcover k hk h c hc ht'
    · rw [(hU k hk h).2]
      exact cover_later hg hS ht hq hk c hc ht'
  · rw [hn, htime]; exact hfree
  · rw [hn]; exact hgrid
  · rw [htime]
    intro e t' hc hp
    cases e with
    | wall k w =>
      obtain ⟨hk, b, hb, hw⟩ := hc
      rw [hn] at hk
      by_cases h : M k
      · rw [← hlast k hk h]
        simp only [Run.predict] at hp
        split_ifs at hp with hph
        · exact wall_later _ _ hp
        · exact virtual_later _ _ _ hp
      · obtain ⟨u1, u2⟩ := hU k hk h
        rw [u2] at hb
        refine hq (.wall k w) t' ⟨hk, b, hb, hw⟩ ?_
        simp only [Run.predict, Registration.inOutsideBox, u1, u2] at hp ⊢
        exact hp
    | pair k l =>
      obtain ⟨hk, hl, hkl, b, hb, hw⟩ := hc
      rw [hn] at hk hl
      by_cases hm : M k ∨ M l
      · have hnow : t = now (S'.particle k) (S'.particle l) := by
          refine le_antisymm ?_ (max_le (hpast k hk) (hpast l hl))
          rcases hm with h | h
          · rw [← hlast k hk h]; exact le_max_left _ _
          · rw [← hlast l hl h]; exact le_max_right _ _
        obtain ⟨r, r1, r2, -⟩ := pair_safe (hsyn k hk) (hsyn l hl) (hrad k hk).le (hrad l hl).le
          (hfree k hk l hl hkl _ le_rfl hnow.ge)
        simp only [Run.predict] at hp
        rw [hp] at r1
        rw [hnow]
        exact (r2 t' (Res.ok.inj r1).symm).1
      · push Not at hm
        obtain ⟨u1, u2⟩ := hU k hk hm.1
        obtain ⟨u3, u4⟩ := hU l hl hm.2
        refine hq (.pair k l) t' ⟨hk, hl, hkl, b, u2 ▸ hb, ?_⟩ ?_
        · rw [hS.agree, ← u4, ← hagree]; exact hw
        · simp only [Run.predict, u1, u3] at hp ⊢; exact hp

/-- A transfer through a wall inside the specimen is carried out. -/
theorem transfer_ok {g : Grid ℝ} (hg : g.Valid) {S : Run} (hS : S.Inv g) {k : ℕ} (hk : k < S.n) {c : Fin 3 → ℤ}
    (hc : g.Mem c) (hreg : g.getBoxIndex c ∈ S.registration.boxes k) (a : Fin 3) (up : Bool)
    (hv : (g.face c a up).physical = false) :
    ∃ R, S.registration.transfer (g.face c a up) k = .ok R ∧
      (∀ l, l ≠ k → R.boxes l = S.registration.boxes l) ∧
      (∀ b ∈ R.boxes k, ∃ d, g.Mem d ∧ b = g.getBoxIndex d) ∧
      (∀ l b, l ∈ R.spheres b ↔ b ∈ R.boxes l) ∧
      (∀ b ∈ S.registration.boxes k, b ∈ R.boxes k ∨
        (b = g.getBoxIndex c ∧ S.registration.inOutsideBox (g.face c a up) k = true)) := by
  have hm : g.Mem (neighbour c a up) := by
    by_contra h
    rw [(face_physical hg hc a up).2 h] at hv
    exact Bool.noConfusion hv
  have hne : (g.face c a up).outside ≠ (g.face c a up).inside := by
    rw [face_outside, face_inside]
    intro h
    have := congrFun (getBoxIndex_inj hm hc h) a
    simp only [neighbour, if_true] at this
    cases up <;> simp at this
  unfold Registration.transfer
  by_cases ho : S.registration.inOutsideBox (g.face c a up) k = true
  · rw [if_pos ho]
    have hin : (g.face c a up).outside ∈ S.registration.boxes k := by
      simpa [Registration.inOutsideBox] using ho
    unfold Registration.remove
    rw [if_neg]
    · refine ⟨_, rfl, ?_, ?_, ?_, ?_⟩
      · intro l hl
        simp only
        rw [Function.update_of_ne hl]
      · intro b hb
        simp only [Function.update_self, List.mem_filter] at hb
        exact hS.grid k hk b hb.1
      · intro l b
        have := hS.agree l b
        by_cases hb : b = (g.face c a up).inside <;> by_cases hl : l = k
        · subst hb; subst hl; simp
        · subst hb; simp only [Function.update_self]
          rw [Function.update_of_ne hl, ← this, List.mem_filter]
          simp [hl]
        · subst hl; simp only [Function.update_self]
          rw [Function.update_of_ne hb, this, List.mem_filter]
          simp [hb]
        · simp only
          rw [Function.update_of_ne hb, Function.update_of_ne hl]; exact this
      · intro b hb
        by_cases he : b = g.getBoxIndex c
        · exact Or.inr ⟨he, ho⟩
        · left
          simp only [Function.update_self, List.mem_filter]
          exact ⟨hb, by rw [face_inside]; simpa using he⟩
    · intro h
      have : (g.face c a up).outside ∈ (S.registration.boxes k).filter (· ≠ (g.face c a up).inside) :=
        List.mem_filter.2 ⟨hin, by simpa using hne⟩
      rw [h] at this
      exact absurd this (List.not_mem_nil)
  · rw [if_neg ho]
    refine ⟨_, rfl, ?_, ?_, ?_, ?_⟩
    · intro l hl
      simp only [Registration.add]
      rw [Function.update_of_ne hl]
    · intro b hb
      simp only [Registration.add, Function.update_self, List.mem_append, List.mem_singleton] at hb
      rcases hb with hb | hb
      · exact hS.grid k hk b hb
      · exact ⟨_, hm, hb⟩
    · intro l b
      have := hS.agree l b
      simp only [Registration.add]
      by_cases hb : b = (g.face c a up).outside <;> by_cases hl : l = k
      · subst hb; subst hl; simp
      · subst hb; simp only [Function.update_self]
        rw [Function.update_of_ne hl, ← this]
        simp [hl]
      · subst hl; simp only [Function.update_self]
        rw [Function.update_of_ne hb, this]
        simp [hb]
      · rw [Function.update_of_ne hb, Function.update_of_ne hl]; exact this
    · intro b hb
      left
      simp only [Registration.add, Function.update_self]
      exact List.mem_append_left _ hb

theorem step_inv {g : Grid ℝ} (hg : g.Valid) {S S' : Run} (hS : S.Inv g) (h : Run.Step g S S') : S'.Inv g := by
  cases h with
  | sync t ht hq =>
    refine preserve hg hS ht hq rfl rfl (fun _ => True) (fun k _ _ => ⟨(S.particle k).velocity, rfl⟩)
      (fun k _ h => absurd trivial h) hS.grid hS.agree ?_
    intro k hk _ c hc htouch
    exact cover_later hg hS ht hq hk c hc htouch
  | event _ e t hc hp hq hr =>
    have ht := hS.upcoming e t hc hp
    cases e with
    | wall k w =>
      obtain ⟨hk, b, hb, hw⟩ := hc
      simp only [Run.perform] at hr
      split_ifs at hr with hph
      · have hr := Res.ok.inj hr
        subst hr
        refine preserve hg hS ht hq rfl rfl (fun l => l = k) ?_ ?_ hS.grid hS.agree ?_
        · rintro l - rfl
          simp only [Function.update_self]
          exact ⟨_, rfl⟩
        · intro l _ hl
          simp only
          rw [Function.update_of_ne hl]
          exact ⟨rfl, trivial⟩
        · rintro l hl - c hc htouch
          exact cover_later hg hS ht hq hl c hc htouch
      · obtain ⟨c, hc, rfl⟩ := hS.grid k hk b hb
        obtain ⟨a, up, rfl⟩ := (mem_walls hc w).1 hw
        have hv : (g.face c a up).physical = false := by simpa using hph
        obtain ⟨R, t1, t2, t3, t4, t5⟩ := transfer_ok hg hS hk hc hb a up hv
        rw [t1, Res.bind_ok'] at hr
        have hr := Res.ok.inj hr
        subst hr
        refine preserve hg hS ht hq rfl rfl (fun l => l = k) ?_ ?_ ?_ t4 ?_
        · rintro l - rfl
          simp only [Function.update_self]
          exact ⟨(S.particle l).velocity, rfl⟩
        · intro l _ hl
          simp only
          rw [Function.update_of_ne hl]
          exact ⟨rfl, t2 l hl⟩
        · intro l hl d hd
          by_cases hlk : l = k
          · subst hlk; exact t3 d hd
          · simp only at hd
            rw [t2 l hlk] at hd
            exact hS.grid l hl d hd
        · rintro l hl rfl d hd htouch
          have hold := cover_later hg hS ht hq hl d hd htouch
          rcases t5 _ hold with h | ⟨h1, h2⟩
          · exact h
          · exfalso
            have hdc := getBoxIndex_inj hd hc h1
            subst hdc
            simp only [Run.predict, hv, Bool.false_eq_true, if_false, h2] at hp
            have hex := exit_predicted g d a up (S.particle l) (hS.synced l hl) hp
            have := htouch a
            cases up
            · simp only [Bool.false_eq_true, if_false] at hex
              linarith
            · simp only [if_true] at hex
              linarith
    | pair k l =>
      obtain ⟨hk, hl, hkl, -⟩ := hc
      simp only [Run.perform] at hr
      have hr := Res.ok.inj hr
      subst hr
      refine preserve hg hS ht hq rfl rfl (fun m => m = k ∨ m = l) ?_ ?_ hS.grid hS.agree ?_
      · rintro m - hm
        by_cases h : m = l
        · subst h
          simp only [Function.update_self]
          exact ⟨_, rfl⟩
        · have hmk : m = k := by tauto
          subst hmk
          simp only
          rw [Function.update_of_ne h, Function.update_self]
          exact ⟨_, rfl⟩
      · intro m _ hm
        push Not at hm
        simp only
        rw [Function.update_of_ne hm.2, Function.update_of_ne hm.1]
        exact ⟨rfl, trivial⟩
      · rintro m hm - c hc htouch
        exact cover_later hg hS ht hq hm c hc htouch

/-! ### The start -/

/-- Particles as `ParticleHandler` makes them: of positive size, not shrinking, inside the specimen (not touching its
upper sides) and without overlap -/
structure Prepared (g : Grid ℝ) (ps : List Sphere) : Prop where
  fresh : ∀ s ∈ ps, ∃ p v r gr, s = Sphere.mk0 p v r gr ∧ 0 < r ∧ 0 ≤ gr
  holds : ∀ s ∈ ps, g.Holds s.ball
  apart : ∀ k l (hk : k < ps.length) (hl : l < ps.length), k ≠ l →
    (ps[k].radius + ps[l].radius) ^ 2 ≤ ∑ i, (ps[k].position i - ps[l].position i) ^ 2

theorem start_inv {g : Grid ℝ} (hg : g.Valid) {ps : List Sphere} (hps : Prepared g ps) :
    ∃ S, Run.start g ps = .ok S ∧ S.n = ps.length ∧ S.time = 0 ∧
      (∀ k, (hk : k < ps.length) → S.particle k = ps[k]) ∧ S.Inv g := by
  have hholds : ∀ p ∈ ps.map Sphere.ball, g.Holds p := by
    intro p hp
    obtain ⟨s, hs, rfl⟩ := List.mem_map.1 hp
    exact hps.holds s hs
  obtain ⟨R, h1, h2, h3, h4, -, -⟩ := C79_register_partial g hg _ hholds
  unfold Run.start
  rw [h1, Res.bind_ok']
  have hpk : ∀ k, (hk : k < ps.length) → ps.getD k (Sphere.mk0 0 0 0 0) = ps[k] := fun k hk =>
    List.getD_eq_getElem _ _ hk
  refine ⟨_, rfl, rfl, rfl, hpk, ?_⟩
  have hlen : (ps.map Sphere.ball).length = ps.length := List.length_map _
  -- facts about one particle
  have hone : ∀ k, (hk : k < ps.length) → ps[k].Synced ∧ 0 ≤ ps[k].growthRate ∧ 0 < ps[k].radius ∧
      ps[k].timeOfLastUpdate = 0 ∧ ∀ i, ps[k].lo i 0 = ps[k].position i - ps[k].radius ∧
        ps[k].hi i 0 = ps[k].position i + ps[k].radius := by
    intro k hk
    obtain ⟨p, v, r, gr, he, hr, hgr⟩ := hps.fresh _ (List.getElem_mem hk)
    rw [he]
    refine ⟨C53_synced_new _ _ _ _, hgr, hr, rfl, fun i => ?_⟩
    simp [Sphere.lo, Sphere.hi, Sphere.moveAndGrow, Sphere.mk0]
  have hfree : ∀ k, (hk : k < ps.length) → ∀ l, (hl : l < ps.length) → k ≠ l → 0 ≤ clearance ps[k] ps[l] 0 := by
    intro k hk l hl hkl
    have := hps.apart k l hk hl hkl
    obtain ⟨p, v, r, gr, he, hr, hgr⟩ := hps.fresh _ (List.getElem_mem hk)
    obtain ⟨p', v', r', gr', he', hr', hgr'⟩ := hps.fresh _ (List.getElem_mem hl)
    rw [he, he'] at this ⊢
    simp only [Sphere.mk0, Fin.sum_univ_three] at this
    simp [clearance, Sphere.mk0, Sphere.moveAndGrow, dot]
    nlinarith
  refine ⟨?_, ?_, ?_, ?_, ?_, ?_, ?_, ?_, h4, ?_⟩
  · intro k hk; simp only; rw [hpk k hk]; exact (hone k hk).1
  · intro k hk; simp only; rw [hpk k hk]; exact (hone k hk).2.1
  · intro k hk; simp only; rw [hpk k hk]; exact (hone k hk).2.2.1
  · intro k hk; simp only; rw [hpk k hk, (hone k hk).2.2.2.1]
  · intro k hk i
    simp only
    rw [hpk k hk, ((hone k hk).2.2.2.2 i).1, ((hone k hk).2.2.2.2 i).2]
    have := (hps.holds _ (List.getElem_mem hk)).2 i
    exact ⟨this.1, this.2.le⟩
  · intro k hk c hc htouch
    simp only at hk htouch ⊢
    rw [hpk k hk] at htouch
    rw [h3 k (by rw [hlen]; exact hk)]
    refine ⟨c, hc, rfl, fun i => max (g.plane i (c i)) (ps[k].position i - ps[k].radius), fun i => ?_⟩
    have hi := htouch i
    rw [((hone k hk).2.2.2.2 i).1, ((hone k hk).2.2.2.2 i).2] at hi
    have hr := (hone k hk).2.2.1
    simp only [List.getElem_map, Sphere.ball]
    refine ⟨?_, le_max_left _ _, max_lt ((plane_lt hg i).2 (by omega)) hi.1⟩
    rw [abs_le]
    constructor
    · have := le_max_right (g.plane i (c i)) (ps[k].position i - ps[k].radius); linarith
    · have : max (g.plane i (c i)) (ps[k].position i - ps[k].radius) ≤ ps[k].position i + ps[k].radius :=
        max_le hi.2.le (by linarith)
      linarith
  · intro k hk l hl hkl τ hτ1 hτ2
    simp only at hk hl hτ1 hτ2 ⊢
    rw [hpk k hk, hpk l hl] at hτ1 ⊢
    have : now ps[k] ps[l] = 0 := by rw [now, (hone k hk).2.2.2.1, (hone l hl).2.2.2.1, max_self]
    rw [this] at hτ1
    rw [le_antisymm hτ2 hτ1]
    exact hfree k hk l hl hkl
  · intro k hk b hb
    simp only at hk hb
    rw [h3 k (by rw [hlen]; exact hk)] at hb
    obtain ⟨c, hc, he, -⟩ := hb
    exact ⟨c, hc, he⟩
  · intro e t' hc hp
    simp only
    cases e with
    | wall k w =>
      obtain ⟨hk, -⟩ := hc
      simp only [Run.predict] at hk hp
      rw [hpk k hk] at hp
      rw [← (hone k hk).2.2.2.1]
      split_ifs at hp with hph
      · exact wall_later _ _ hp
      · exact virtual_later _ _ _ hp
    | pair k l =>
      obtain ⟨hk, hl, hkl, -⟩ := hc
      simp only [Run.predict] at hk hl hp
      rw [hpk k hk, hpk l hl] at hp
      have hnow : now ps[k] ps[l] = 0 := by rw [now, (hone k hk).2.2.2.1, (hone l hl).2.2.2.1, max_self]
      obtain ⟨r, r1, r2, -⟩ := pair_safe (hone k hk).1 (hone l hl).1 (hone k hk).2.2.1.le (hone l hl).2.2.1.le
        (by rw [hnow]; exact hfree k hk l hl hkl)
      rw [hp] at r1
      have := (r2 t' (Res.ok.inj r1).symm).1
      rw [hnow] at this
      exact this

theorem reach_inv {g : Grid ℝ} (hg : g.Valid) {S S' : Run} (hS : S.Inv g) (h : Run.Reach g S S') : S'.Inv g := by
  induction h with
  | refl => exact hS
  | step T T' _ hs ih => exact step_inv hg ih hs

/-! ### The properties -/

/-- The simulation starts for every prepared set of particles. -/
theorem C80_start (g : Grid ℝ) (hg : g.Valid) (ps : List Sphere) (hps : Prepared g ps) :
    ∃ S, Run.start g ps = .ok S ∧ S.n = ps.length ∧ S.time = 0 ∧ ∀ k, (hk : k < ps.length) → S.particle k = ps[k] := by
  obtain ⟨S, h1, h2, h3, h4, -⟩ := start_inv hg hps
  exact ⟨S, h1, h2, h3, h4⟩

/-- At every moment of every simulation (between the last performed event and the next one) all particles lie inside the
specimen. -/
theorem C80_inside (g : Grid ℝ) (hg : g.Valid) (ps : List Sphere) (hps : Prepared g ps) (S0 S : Run)
    (h0 : Run.start g ps = .ok S0) (hS : Run.Reach g S0 S) (τ : ℝ) (hτ : S.time ≤ τ) (hq : S.Quiet g τ) (k : ℕ)
    (hk : k < S.n) (i : Fin 3) :
    g.lower i ≤ ((S.particle k).moveAndGrow τ).position i - ((S.particle k).moveAndGrow τ).radius ∧
      ((S.particle k).moveAndGrow τ).position i + ((S.particle k).moveAndGrow τ).radius ≤ g.upper i := by
  obtain ⟨S1, h1, -, -, -, hi⟩ := start_inv hg hps
  rw [h0] at h1
  rw [← Res.ok.inj h1] at hi
  exact inside_later hg (reach_inv hg hi hS) hτ hq hk i

/-- At every moment of every simulation no two particles overlap. -/
theorem C80_no_overlap (g : Grid ℝ) (hg : g.Valid) (ps : List Sphere) (hps : Prepared g ps) (S0 S : Run)
    (h0 : Run.start g ps = .ok S0) (hS : Run.Reach g S0 S) (τ : ℝ) (hτ : S.time ≤ τ) (hq : S.Quiet g τ) (k l : ℕ)
    (hk : k < S.n) (hl : l < S.n) (hkl : k ≠ l) :
    (((S.particle k).moveAndGrow τ).radius + ((S.particle l).moveAndGrow τ).radius) ^ 2 ≤
      ∑ i, (((S.particle k).moveAndGrow τ).position i - ((S.particle l).moveAndGrow τ).position i) ^ 2 := by
  obtain ⟨S1, h1, -, -, -, hi⟩ := start_inv hg hps
  rw [h0] at h1
  rw [← Res.ok.inj h1] at hi
  have := free_later hg (reach_inv hg hi hS) hτ hq hk hl hkl
  unfold clearance dot at this
  simp only [Pi.sub_apply] at this
  rw [Fin.sum_univ_three]
  nlinarith

/-- At every moment a particle is registered in every sub box with which it shares an inner point. -/
theorem C80_registered (g : Grid ℝ) (hg : g.Valid) (ps : List Sphere) (hps : Prepared g ps) (S0 S : Run)
    (h0 : Run.start g ps = .ok S0) (hS : Run.Reach g S0 S) (τ : ℝ) (hτ : S.time ≤ τ) (hq : S.Quiet g τ) (k : ℕ)
    (hk : k < S.n) (c : Fin 3 → ℤ) (hc : g.Mem c) (x : Fin 3 → ℝ)
    (hx : ∀ i, g.plane i (c i) < x i ∧ x i < g.plane i (c i + 1))
    (hxk : ∑ i, (x i - ((S.particle k).moveAndGrow τ).position i) ^ 2 < ((S.particle k).moveAndGrow τ).radius ^ 2) :
    g.getBoxIndex c ∈ S.registration.boxes k ∧ k ∈ S.registration.spheres (g.getBoxIndex c) := by
  obtain ⟨S1, h1, -, -, -, hi⟩ := start_inv hg hps
  rw [h0] at h1
  rw [← Res.ok.inj h1] at hi
  have hI := reach_inv hg hi hS
  have hr := radius_pos (hI.synced k hk) (hI.radius k hk) (hI.growth k hk) ((hI.past k hk).trans hτ)
  have hb : g.getBoxIndex c ∈ S.registration.boxes k := by
    refine cover_later hg hI hτ hq hk c hc fun i => ?_
    have h2 : |x i - ((S.particle k).moveAndGrow τ).position i| < ((S.particle k).moveAndGrow τ).radius := by
      refine abs_lt_of_sq_lt_sq (lt_of_le_of_lt ?_ hxk) hr.le
      exact Finset.single_le_sum (f := fun i => (x i - ((S.particle k).moveAndGrow τ).position i) ^ 2)
        (fun j _ => sq_nonneg _) (Finset.mem_univ i)
    rw [abs_lt] at h2
    have := hx i
    unfold Sphere.lo Sphere.hi
    constructor <;> linarith
  exact ⟨hb, (hI.agree k _).2 hb⟩

/-- No prediction and no event fails in a state with the invariant. -/
theorem no_exception {g : Grid ℝ} (hg : g.Valid) {S : Run} (hI : S.Inv g) (e : Partners) (he : S.Considered g e) :
    ∃ r, S.predict e = .ok r ∧ ∀ t, r = some t → S.time ≤ t ∧ ∃ S', S.perform t e = .ok S' := by
  have key : ∃ r, S.predict e = .ok r := by
    cases e with
    | wall k w =>
      obtain ⟨hk, b, hb, hw⟩ := he
      obtain ⟨c, hc, rfl⟩ := hI.grid k hk b hb
      obtain ⟨a, up, rfl⟩ := (mem_walls hc w).1 hw
      simp only [Run.predict]
      split_ifs with hph
      · have := distances_eq (g.face c a up).position _ (face_proper g c a up) (S.particle k)
        unfold predictWall
        have hw : Wall.mk0 (g.face c a up).position (fun i => ((g.face c a up).direction i : ℝ)) =
          (g.face c a up).toWall := rfl
        rw [hw] at this
        rw [this, Res.bind_ok']
        exact ⟨_, rfl⟩
      · rw [predictVirtual_face]
        exact ⟨_, rfl⟩
    | pair k l =>
      obtain ⟨hk, hl, hkl, -⟩ := he
      obtain ⟨r, r1, -⟩ := pair_safe (hI.synced k hk) (hI.synced l hl) (hI.radius k hk).le (hI.radius l hl).le
        (hI.free k hk l hl hkl _ le_rfl (max_le (hI.past k hk) (hI.past l hl)))
      exact ⟨r, r1⟩
  obtain ⟨r, hr⟩ := key
  refine ⟨r, hr, ?_⟩
  rintro t rfl
  refine ⟨hI.upcoming e t he hr, ?_⟩
  cases e with
  | wall k w =>
    obtain ⟨hk, b, hb, hw⟩ := he
    obtain ⟨c, hc, rfl⟩ := hI.grid k hk b hb
    obtain ⟨a, up, rfl⟩ := (mem_walls hc w).1 hw
    simp only [Run.perform]
    split_ifs with hph
    · exact ⟨_, rfl⟩
    · obtain ⟨R, t1, -⟩ := transfer_ok hg hI hk hc hb a up (by simpa using hph)
      rw [t1, Res.bind_ok']
      exact ⟨_, rfl⟩
  | pair k l => exact ⟨_, rfl⟩

/-- No prediction and no event ends with an exception or leaves the defined behaviour. -/
theorem C80_no_exception (g : Grid ℝ) (hg : g.Valid) (ps : List Sphere) (hps : Prepared g ps) (S0 S : Run)
    (h0 : Run.start g ps = .ok S0) (hS : Run.Reach g S0 S) (e : Partners) (he : S.Considered g e) :
    ∃ r, S.predict e = .ok r ∧ ∀ t, r = some t → S.time ≤ t ∧ ∃ S', S.perform t e = .ok S' := by
  obtain ⟨S1, h1, -, -, -, hi⟩ := start_inv hg hps
  rw [h0] at h1
  rw [← Res.ok.inj h1] at hi
  exact no_exception hg (reach_inv hg hi hS) e he

theorem step_growth {g : Grid ℝ} {S S' : Run} (h : Run.Step g S S') :
    S'.n = S.n ∧ ∀ k, (S'.particle k).radiusGrowth = (S.particle k).radiusGrowth ∧
      (S'.particle k).growthRate = (S.particle k).growthRate ∧
      (S'.particle k).timeOfGrowthReset = (S.particle k).timeOfGrowthReset := by
  cases h with
  | sync t ht hq => exact ⟨rfl, fun k => ⟨rfl, rfl, rfl⟩⟩
  | event _ e t hc hp hq hr =>
    cases e with
    | wall k w =>
      simp only [Run.perform] at hr
      split_ifs at hr with hph
      · have hr := Res.ok.inj hr
        subst hr
        refine ⟨rfl, fun l => ?_⟩
        by_cases hl : l = k
        · subst hl; simp only [Function.update_self]; exact ⟨rfl, rfl, rfl⟩
        · simp only; rw [Function.update_of_ne hl]; exact ⟨rfl, rfl, rfl⟩
      · cases hR : S.registration.transfer w k with
        | throw => rw [hR] at hr; cases hr
        | ub => rw [hR] at hr; cases hr
        | ok R =>
          rw [hR, Res.bind_ok'] at hr
          have hr := Res.ok.inj hr
          subst hr
          refine ⟨rfl, fun l => ?_⟩
          by_cases hl : l = k
          · subst hl; simp only [Function.update_self]; exact ⟨rfl, rfl, rfl⟩
          · simp only; rw [Function.update_of_ne hl]; exact ⟨rfl, rfl, rfl⟩
    | pair k l =>
      simp only [Run.perform] at hr
      have hr := Res.ok.inj hr
      subst hr
      refine ⟨rfl, fun m => ?_⟩
      by_cases hl : m = l
      · subst hl; simp only [Function.update_self]; exact ⟨rfl, rfl, rfl⟩
      · simp only
        rw [Function.update_of_ne hl]
        by_cases hk : m = k
        · subst hk; simp only [Function.update_self]; exact ⟨rfl, rfl, rfl⟩
        · rw [Function.update_of_ne hk]; exact ⟨rfl, rfl, rfl⟩

theorem reach_growth {g : Grid ℝ} {S S' : Run} (h : Run.Reach g S S') :
    S'.n = S.n ∧ ∀ k, (S'.particle k).radiusGrowth = (S.particle k).radiusGrowth ∧
      (S'.particle k).growthRate = (S.particle k).growthRate ∧
      (S'.particle k).timeOfGrowthReset = (S.particle k).timeOfGrowthReset := by
  induction h with
  | refl => exact ⟨rfl, fun k => ⟨rfl, rfl, rfl⟩⟩
  | step T T' _ hs ih =>
    obtain ⟨h1, h2⟩ := step_growth hs
    refine ⟨h1.trans ih.1, fun k => ?_⟩
    obtain ⟨a, b, c⟩ := h2 k
    obtain ⟨a', b', c'⟩ := ih.2 k
    exact ⟨a.trans a', b.trans b', c.trans c'⟩

/-- All particles are kept, and each has grown by its rate times the time. -/
theorem C80_growth (g : Grid ℝ) (hg : g.Valid) (ps : List Sphere) (hps : Prepared g ps) (S0 S : Run)
    (h0 : Run.start g ps = .ok S0) (hS : Run.Reach g S0 S) :
    S.n = ps.length ∧ ∀ k, (hk : k < ps.length) → ∀ τ,
      ((S.particle k).moveAndGrow τ).radius = ps[k].radius + ps[k].growthRate * τ := by
  obtain ⟨S1, h1, h2, -, h4, -⟩ := start_inv hg hps
  rw [h0] at h1
  rw [← Res.ok.inj h1] at h2 h4
  obtain ⟨e1, e2⟩ := reach_growth hS
  refine ⟨e1.trans h2, fun k hk τ => ?_⟩
  obtain ⟨a, b, c⟩ := e2 k
  rw [h4 k hk] at a b c
  obtain ⟨p, v, r, gr, he, -, -⟩ := hps.fresh _ (List.getElem_mem hk)
  simp only [Sphere.moveAndGrow, a, b, c]
  rw [he]
  simp [Sphere.mk0]

/-! ### What a virtual wall predicts -/

/-- Distance of the farthest (`sign = 1`) or the nearest (`sign = -1`) point of the particle from the wall at a time -/
noncomputable def reach (p d : V3) (s : Sphere) (sign τ : ℝ) : ℝ :=
  dot (Wall.mk0 p d).direction ((s.moveAndGrow τ).position - p) + sign * (s.moveAndGrow τ).radius

theorem reach_linear (p d : V3) (s : Sphere) (hs : s.Synced) (sign τ : ℝ) :
    reach p d s sign τ = (dot (Wall.mk0 p d).direction (s.position - p) + sign * s.radius) +
      (dot s.velocity (Wall.mk0 p d).direction + sign * s.growthRate) * (τ - s.timeOfLastUpdate) := by
  simp only [Sphere.Synced] at hs
  simp only [reach, Sphere.moveAndGrow, hs, dot, Pi.sub_apply, Pi.add_apply, Pi.smul_apply, smul_eq_mul]
  ring

theorem crossing_time {x v l t : ℝ} (hv : v < 0) : (x + v * (t - l) = 0 ↔ t = l + -x / v) := by
  have : v ≠ 0 := hv.ne
  constructor
  · intro h; field_simp; linarith
  · rintro rfl; field_simp; ring

/-- The end of the registration in a box is predicted exactly for the moment at which the particle has left it. -/
theorem C80_leave (p d : V3) (hd : ProperDirection d) (s : Sphere) (hs : s.Synced) (t : ℝ) :
    predictVirtual (Wall.mk0 p d) true s = .ok (some t) ↔
      s.timeOfLastUpdate ≤ t ∧ reach p d s 1 t = 0 ∧ ∀ τ, t < τ → reach p d s 1 τ < 0 := by
  unfold predictVirtual
  rw [virtualDistances_eq p d hd, Res.bind_ok']
  simp only [reach_linear p d s hs, if_true]
  generalize dot (Wall.mk0 p d).direction (s.position - p) + 1 * s.radius = x
  generalize dot s.velocity (Wall.mk0 p d).direction + 1 * s.growthRate = v
  unfold exitTime
  rcases lt_or_ge v 0 with hv | hv
  · rw [if_neg (not_lt.2 hv.le), if_neg hv.ne, crossing_time hv]
    constructor
    · intro h
      split_ifs at h with h0
      · have : t = s.timeOfLastUpdate + -x / v := by simpa using h.symm
        refine ⟨by linarith, this, fun τ hτ => ?_⟩
        have e := (crossing_time (x := x) (l := s.timeOfLastUpdate) hv).2 this
        nlinarith
      · simp at h
    · rintro ⟨h1, h2, -⟩
      rw [if_pos (by linarith), h2]
      rfl
  · have : ((if 0 < v then none else if v = 0 then none else if 0 ≤ -x / v then some (-x / v) else none) : Option ℝ) = none := by
      rcases hv.lt_or_eq with h | h
      · rw [if_pos h]
      · rw [if_neg (by linarith), if_pos h.symm]
    rw [this]
    constructor
    · intro h; simp at h
    · rintro ⟨-, h2, h3⟩
      have := h3 (t + 1) (by linarith)
      nlinarith

/-- The entry into the box behind the wall is predicted exactly for the moment at which the particle touches it on its way
there; at once, if the particle already is behind by less than `1e-12` radii; never, if it is behind by more. -/
theorem C80_enter (p d : V3) (hd : ProperDirection d) (s : Sphere) (hs : s.Synced) (hr : 0 ≤ s.radius) :
    (0 ≤ reach p d s (-1) s.timeOfLastUpdate → ∀ t, predictVirtual (Wall.mk0 p d) false s = .ok (some t) ↔
      s.timeOfLastUpdate ≤ t ∧ reach p d s (-1) t = 0 ∧ ∀ τ, t < τ → reach p d s (-1) τ < 0) ∧
    (reach p d s (-1) s.timeOfLastUpdate < 0 → -(1 / 10 ^ 12) * s.radius < reach p d s (-1) s.timeOfLastUpdate →
      reach p d s (-1) (s.timeOfLastUpdate + 1) < reach p d s (-1) s.timeOfLastUpdate →
      predictVirtual (Wall.mk0 p d) false s = .ok (some s.timeOfLastUpdate)) ∧
    (reach p d s (-1) s.timeOfLastUpdate < 0 → reach p d s (-1) s.timeOfLastUpdate ≤ -(1 / 10 ^ 12) * s.radius →
      predictVirtual (Wall.mk0 p d) false s = .ok none) := by
  unfold predictVirtual
  rw [virtualDistances_eq p d hd, Res.bind_ok']
  simp only [reach_linear p d s hs, Bool.false_eq_true, if_false]
  generalize dot (Wall.mk0 p d).direction (s.position - p) + -1 * s.radius = x
  generalize dot s.velocity (Wall.mk0 p d).direction + -1 * s.growthRate = v
  simp only [sub_self, mul_zero, add_zero]
  refine ⟨fun hx t => ?_, fun h1 h2 h3 => ?_, fun h1 h2 => ?_⟩
  · rcases lt_or_ge v 0 with hv | hv
    · rw [entryTime_some hx hv, crossing_time hv]
      have h0 : 0 ≤ -x / v := div_nonneg_of_nonpos (by linarith) hv.le
      constructor
      · intro h
        have : t = s.timeOfLastUpdate + -x / v := by simpa using h.symm
        refine ⟨by linarith, this, fun τ hτ => ?_⟩
        have e := (crossing_time (x := x) (l := s.timeOfLastUpdate) hv).2 this
        nlinarith
      · rintro ⟨-, h2, -⟩
        rw [h2]; rfl
    · have : entryTime x v s.radius = none := by
        unfold entryTime
        rcases hv.lt_or_eq with h | h
        · rw [if_pos h]
        · rw [if_neg (by linarith)]
          simp only [← h, if_true]
      rw [this]
      constructor
      · intro h; simp at h
      · rintro ⟨-, h2, h3⟩
        have := h3 (t + 1) (by linarith)
        nlinarith
  · have hv : v < 0 := by linarith
    have : entryTime x v s.radius = some 0 := by
      unfold entryTime
      rw [if_neg (not_lt.2 hv.le)]
      simp only [if_pos (And.intro h1 h2), if_neg hv.ne, neg_zero, zero_div, le_refl, if_true]
    rw [this]
    simp
  · have : entryTime x v s.radius = none := by
      unfold entryTime
      by_cases h : 0 < v
      · rw [if_pos h]
      · rw [if_neg h]
        have hn : ¬ (x < 0 ∧ -(1 / 10 ^ 12) * s.radius < x) := fun h => absurd h.2 (not_lt.2 h2)
        simp only [if_neg hn]
        by_cases hv : v = 0
        · rw [if_pos hv]
        · rw [if_neg hv]
          have hv' : v < 0 := lt_of_le_of_ne (not_lt.1 h) hv
          rw [if_neg (not_le.2 (div_neg_of_pos_of_neg (by linarith) hv'))]
    rw [this]
    rfl

/-! ### An example -/

noncomputable def realGrid : Grid ℝ := ⟨fun _ => 2, fun _ => 0, fun _ => 2⟩

theorem realGrid_valid : realGrid.Valid :=
  ⟨fun _ => le_of_lt (by decide : (1 : ℤ) < 2), fun _ => by norm_num [realGrid]⟩

/-- Two particles in a cube, one of them moving and growing towards the other one -/
noncomputable def exampleParticles : List Sphere :=
  [Sphere.mk0 (fun _ => 1 / 2) ![1, 0, 0] (1 / 4) (1 / 10), Sphere.mk0 ![3 / 2, 1 / 2, 1 / 2] 0 (1 / 4) (1 / 10)]

theorem example_prepared : Prepared realGrid exampleParticles := by
  refine ⟨?_, ?_, ?_⟩
  · intro s hs
    simp only [exampleParticles, List.mem_cons, List.not_mem_nil, or_false] at hs
    rcases hs with rfl | rfl
    · exact ⟨_, _, _, _, rfl, by norm_num, by norm_num⟩
    · exact ⟨_, _, _, _, rfl, by norm_num, by norm_num⟩
  · intro s hs
    simp only [exampleParticles, List.mem_cons, List.not_mem_nil, or_false] at hs
    rcases hs with rfl | rfl
    · refine ⟨by norm_num [Sphere.mk0, Sphere.ball], fun i => ?_⟩
      norm_num [Sphere.mk0, Sphere.ball, realGrid]
    · refine ⟨by norm_num [Sphere.mk0, Sphere.ball], fun i => ?_⟩
      fin_cases i <;> norm_num [Sphere.mk0, Sphere.ball, realGrid]
  · intro k l hk hl hkl
    simp only [exampleParticles, List.length_cons, List.length_nil] at hk hl
    have hk' : k = 0 ∨ k = 1 := by omega
    have hl' : l = 0 ∨ l = 1 := by omega
    rcases hk' with rfl | rfl <;> rcases hl' with rfl | rfl <;>
      simp [exampleParticles, Sphere.mk0, Fin.sum_univ_three] at hkl ⊢ <;> norm_num

/-- The simulation of the example starts, and a round of it can be made. -/
example : ∃ S0 S, Run.start realGrid exampleParticles = .ok S0 ∧ Run.Reach realGrid S0 S ∧ S.Quiet realGrid S.time ∧
    S.n = 2 := by
  obtain ⟨S0, h1, h2, -, -, hI⟩ := start_inv realGrid_valid example_prepared
  have hstep := Run.Step.sync S0 S0.time le_rfl hI.upcoming
  exact ⟨S0, _, h1, Run.Reach.step _ _ Run.Reach.refl hstep, (step_inv realGrid_valid hI hstep).upcoming, h2⟩

/-- One particle moving towards a side of a cube -/
noncomputable def oneGrid : Grid ℝ := ⟨fun _ => 1, fun _ => 0, fun _ => 2⟩

noncomputable def oneParticle : Sphere := Sphere.mk0 (fun _ => 1) ![1, 0, 0] (1 / 4) 0

theorem oneGrid_valid : oneGrid.Valid :=
  ⟨fun _ => le_refl (1 : ℤ), fun _ => by norm_num [oneGrid]⟩

theorem one_prepared : Prepared oneGrid [oneParticle] := by
  refine ⟨?_, ?_, ?_⟩
  · intro s hs
    rw [List.mem_singleton] at hs
    exact ⟨_, _, _, _, hs, by norm_num, le_rfl⟩
  · intro s hs
    rw [List.mem_singleton] at hs
    subst hs
    refine ⟨by norm_num [Sphere.ball, oneParticle, Sphere.mk0], fun i => ?_⟩
    norm_num [Sphere.mk0, Sphere.ball, oneGrid, oneParticle]
  · intro k l hk hl hkl
    simp only [List.length_singleton] at hk hl
    omega

theorem one_distance (a : Fin 3) (up : Bool) (τ : ℝ) :
    wallDistance (oneGrid.face 0 a up).toWall oneParticle τ = 3 / 4 + ((if up then -1 else 1) * ![1, 0, 0] a) * τ := by
  rw [face_distance_linear oneGrid 0 a up oneParticle (C53_synced_new _ _ _ _)]
  cases up <;> simp [oneParticle, Sphere.mk0, Grid.plane, oneGrid] <;> norm_num

/-- The first event is the collision with the side; it is performed. -/
example : ∃ S0 S, Run.start oneGrid [oneParticle] = .ok S0 ∧ Run.Reach oneGrid S0 S ∧ S.time = 3 / 4 := by
  obtain ⟨S0, h1, h2, h3, h4, hI⟩ := start_inv oneGrid_valid one_prepared
  have hp0 : S0.particle 0 = oneParticle := h4 0 (by simp)
  have hn : S0.n = 1 := h2
  have hmem : oneGrid.Mem 0 := fun i => ⟨le_refl (0 : ℤ), one_pos⟩
  have hcell : ∀ c, oneGrid.Mem c → c = 0 := by
    intro c hc
    funext i
    have := hc i
    simp only [oneGrid] at this
    simp only [Pi.zero_apply]; omega
  have hphys : ∀ a up, (oneGrid.face 0 a up).physical = true := by
    intro a up
    rw [face_physical oneGrid_valid hmem]
    intro h
    have := congrFun (hcell _ h) a
    cases up <;> simp [neighbour] at this
  have hpred : ∀ a up, ∃ r, predictWall (oneGrid.face 0 a up).toWall oneParticle = .ok r ∧
      (∀ t, r = some t → 0 ≤ t ∧ wallDistance (oneGrid.face 0 a up).toWall oneParticle t = 0) ∧
      (r = none → ∀ τ, 0 ≤ τ → 0 ≤ wallDistance (oneGrid.face 0 a up).toWall oneParticle τ) := by
    intro a up
    have hl : oneParticle.timeOfLastUpdate = 0 := rfl
    obtain ⟨r, r1, r2, r3⟩ := C53_wall_partial (oneGrid.face 0 a up).position _ (face_proper oneGrid 0 a up) oneParticle
      (C53_synced_new _ _ _ _) (by
        rw [hl]
        have := one_distance a up 0
        rw [mul_zero, add_zero] at this
        exact this.ge.trans' (by norm_num))
    rw [hl] at r2 r3
    exact ⟨r, r1, fun t ht => ⟨(r2 t ht).1, (r2 t ht).2.1⟩, fun hn τ hτ => (r3 hn τ hτ).1⟩
  have hreg : oneGrid.getBoxIndex 0 ∈ S0.registration.boxes 0 := by
    refine hI.cover 0 (by omega) 0 hmem fun i => ?_
    rw [h3, hp0]
    simp [Sphere.lo, Sphere.hi, Sphere.moveAndGrow, oneParticle, Sphere.mk0, Grid.plane, oneGrid]
    norm_num
  have hc : S0.Considered oneGrid (.wall 0 (oneGrid.face 0 0 true)) :=
    ⟨by omega, _, hreg, (mem_walls hmem _).2 ⟨0, true, rfl⟩⟩
  obtain ⟨r, r1, r2, r3⟩ := hpred 0 true
  have hp : S0.predict (.wall 0 (oneGrid.face 0 0 true)) = .ok r := by
    simp only [Run.predict, hphys, if_true]
    rw [hp0]; exact r1
  have hr : r = some (3 / 4) := by
    cases r with
    | none =>
      have := r3 rfl 2 (by norm_num)
      rw [one_distance] at this
      simp at this
      norm_num at this
    | some t =>
      have := (r2 t rfl).2
      rw [one_distance] at this
      simp at this
      congr 1
      linarith
  subst hr
  have hq : S0.Quiet oneGrid (3 / 4) := by
    intro e t' he hpe
    cases e with
    | wall k w =>
      obtain ⟨hk, b, hb, hw⟩ := he
      have hk0 : k = 0 := by omega
      subst hk0
      obtain ⟨c, hc, rfl⟩ := hI.grid 0 (by omega) b hb
      have hc0 := hcell c hc
      subst hc0
      obtain ⟨a, up, rfl⟩ := (mem_walls hc w).1 hw
      simp only [Run.predict, hphys, if_true] at hpe
      rw [hp0] at hpe
      obtain ⟨r, e1, e2, -⟩ := hpred a up
      rw [hpe] at e1
      obtain ⟨e3, e4⟩ := e2 t' (Res.ok.inj e1).symm
      rw [one_distance] at e4
      fin_cases a <;> cases up <;> simp at e4 <;> linarith
    | pair k l =>
      obtain ⟨hk, hl, hkl, -⟩ := he
      omega
  obtain ⟨r', hr1, hr2⟩ := C80_no_exception oneGrid oneGrid_valid _ one_prepared S0 S0 h1 Run.Reach.refl _ hc
  rw [hp] at hr1
  obtain ⟨-, S', hS'⟩ := hr2 (3 / 4) (Res.ok.inj hr1).symm
  refine ⟨S0, S', h1, Run.Reach.step _ _ Run.Reach.refl (Run.Step.event S0 S' _ _ hc hp hq hS'), ?_⟩
  simp only [Run.perform, hphys, if_true] at hS'
  rw [← Res.ok.inj hS']

end NuTo.Collision
