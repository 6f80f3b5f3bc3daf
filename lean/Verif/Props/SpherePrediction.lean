import Verif.Props.SphereCollision

/-!
C53: predicted collision times.
-/

namespace NuTo.Collision

/-! ### The quadratic equation -/

theorem root_negative_slope {a b c : ℝ} (hb : b < 0) (hc : 0 ≤ c) (hd : 0 ≤ b * b - 4 * a * c) :
    0 ≤ 2 * c / (-b + Real.sqrt (b * b - 4 * a * c)) ∧
    a * (2 * c / (-b + Real.sqrt (b * b - 4 * a * c))) ^ 2 + b * (2 * c / (-b + Real.sqrt (b * b - 4 * a * c))) + c = 0 ∧
    ∀ t, t < 2 * c / (-b + Real.sqrt (b * b - 4 * a * c)) → 0 ≤ t → 0 < a * t ^ 2 + b * t + c := by
  have hs := Real.mul_self_sqrt hd
  have hs0 := Real.sqrt_nonneg (b * b - 4 * a * c)
  generalize Real.sqrt (b * b - 4 * a * c) = s at hs hs0 ⊢
  have hq : 0 < -b + s := by linarith
  obtain ⟨T, hT⟩ : ∃ T, T = 2 * c / (-b + s) := ⟨_, rfl⟩
  rw [← hT]
  have hTq : T * (-b + s) = 2 * c := by rw [hT]; field_simp
  have hT0 : 0 ≤ T := by rw [hT]; positivity
  have h2 : 2 * a * T = -(b + s) := by
    have : (2 * a * T + (b + s)) * (-b + s) = 0 := by linear_combination 2 * a * hTq + hs
    rcases mul_eq_zero.1 this with h | h
    · linarith
    · exact absurd h hq.ne'
  have hf : a * T ^ 2 + b * T + c = 0 := by linear_combination T / 2 * h2 - hTq / 2
  refine ⟨hT0, hf, fun t ht ht0 => ?_⟩
  have h3 : a * t ^ 2 + b * t + c = (T - t) * -(a * (t + T) + b) := by linear_combination hf
  rw [h3]
  refine mul_pos (by linarith) ?_
  rcases le_or_gt a 0 with ha | ha
  · have : a * (t + T) ≤ 0 := mul_nonpos_of_nonpos_of_nonneg ha (by linarith)
    linarith
  · have : a * t < a * T := mul_lt_mul_of_pos_left ht ha
    linarith

theorem root_concave {a b c : ℝ} (ha : a < 0) (hb : 0 ≤ b) (hc : 0 ≤ c) :
    0 ≤ b * b - 4 * a * c ∧ 0 ≤ (-b - Real.sqrt (b * b - 4 * a * c)) / (2 * a) ∧
    a * ((-b - Real.sqrt (b * b - 4 * a * c)) / (2 * a)) ^ 2 + b * ((-b - Real.sqrt (b * b - 4 * a * c)) / (2 * a)) +
      c = 0 ∧
    ∀ t, t < (-b - Real.sqrt (b * b - 4 * a * c)) / (2 * a) → 0 ≤ t →
      0 ≤ a * t ^ 2 + b * t + c ∧ (0 < c → 0 < a * t ^ 2 + b * t + c) := by
  have hac : 0 ≤ -a * c := mul_nonneg (by linarith) hc
  have hd : 0 ≤ b * b - 4 * a * c := by nlinarith [mul_self_nonneg b]
  have hs := Real.mul_self_sqrt hd
  have hs0 := Real.sqrt_nonneg (b * b - 4 * a * c)
  have hsb : b ≤ Real.sqrt (b * b - 4 * a * c) := Real.le_sqrt_of_sq_le (by nlinarith)
  have hsb' : 0 < c → b < Real.sqrt (b * b - 4 * a * c) := fun hc' =>
    Real.lt_sqrt_of_sq_lt (by nlinarith [mul_pos (neg_pos.2 ha) hc'])
  generalize Real.sqrt (b * b - 4 * a * c) = s at hs hs0 hsb hsb' ⊢
  obtain ⟨T, hT⟩ : ∃ T, T = (-b - s) / (2 * a) := ⟨_, rfl⟩
  rw [← hT]
  have h2 : 2 * a * T = -b - s := by
    have : a ≠ 0 := ha.ne
    rw [hT]; field_simp
  have hT0 : 0 ≤ T := by
    rw [hT]
    exact div_nonneg_of_nonpos (by linarith) (by linarith)
  have hf : a * T ^ 2 + b * T + c = 0 := by
    have : 4 * a * (a * T ^ 2 + b * T + c) = 0 := by linear_combination (2 * a * T - b - s + 2 * b) * h2 + hs
    rcases mul_eq_zero.1 this with h | h
    · exact absurd h (by linarith : 4 * a < 0).ne
    · exact h
  have key : ∀ t, a * t ^ 2 + b * t + c = (T - t) * (-(a * t) + (s - b) / 2) := by
    intro t
    linear_combination hf + (t - T) / 2 * h2
  refine ⟨hd, hT0, hf, fun t ht ht0 => ?_⟩
  have h4 : 0 ≤ -(a * t) := by nlinarith
  rw [key]
  constructor
  · exact mul_nonneg (by linarith) (by linarith)
  · intro hc'
    exact mul_pos (by linarith) (by linarith [hsb' hc'])

/-- What `PredictCollision` finds for `f t = a t² + b t + c` with `f 0 ≥ 0`. -/
theorem firstRoot_some {a b c t : ℝ} (hc : 0 ≤ c) (hd : 0 ≤ b * b - 4 * a * c) (h : firstRoot a b c = some t) :
    0 ≤ t ∧ a * t ^ 2 + b * t + c = 0 ∧
      ∀ τ, 0 ≤ τ → τ < t → 0 ≤ a * τ ^ 2 + b * τ + c ∧ (0 < c → 0 < a * τ ^ 2 + b * τ + c) := by
  simp only [firstRoot] at h
  rw [if_neg (by linarith : ¬ b * b - 4 * a * c < -(1 / 10 ^ 12)), max_eq_left hd] at h
  split_ifs at h with h1 h2
  · rw [← Option.some.inj h]
    obtain ⟨r1, r2, r3⟩ := root_negative_slope h1 hc hd
    exact ⟨r1, r2, fun τ h0 hτ => ⟨(r3 τ hτ h0).le, fun _ => r3 τ hτ h0⟩⟩
  · rw [← Option.some.inj h]
    obtain ⟨-, r1, r2, r3⟩ := root_concave h2 (not_lt.1 h1) hc
    exact ⟨r1, r2, fun τ h0 hτ => r3 τ hτ h0⟩

theorem firstRoot_none {a b c : ℝ} (hc : 0 ≤ c) (h : firstRoot a b c = none) :
    ∀ τ, 0 ≤ τ → 0 ≤ a * τ ^ 2 + b * τ + c ∧ (0 < c → 0 < a * τ ^ 2 + b * τ + c) := by
  intro τ hτ
  simp only [firstRoot] at h
  split_ifs at h with h1 h2 h3
  · have hD : b * b - 4 * a * c < 0 := lt_trans h1 (by norm_num)
    have hac : 0 < a * c := by nlinarith [mul_self_nonneg b]
    have ha : 0 < a := by
      by_contra hc'
      exact absurd (mul_nonpos_of_nonpos_of_nonneg (not_lt.1 hc') hc) (not_le.2 hac)
    have h4 : 4 * a * (a * τ ^ 2 + b * τ + c) = (2 * a * τ + b) * (2 * a * τ + b) - (b * b - 4 * a * c) := by ring
    have h5 : 0 < 4 * a * (a * τ ^ 2 + b * τ + c) := by rw [h4]; nlinarith [mul_self_nonneg (2 * a * τ + b)]
    have h6 := pos_of_mul_pos_right h5 (by linarith : 0 ≤ 4 * a)
    exact ⟨h6.le, fun _ => h6⟩
  · rw [not_lt] at h2 h3
    have h4 : 0 ≤ a * τ ^ 2 := by positivity
    have h5 : 0 ≤ b * τ := by positivity
    exact ⟨by linarith, fun _ => by linarith⟩

/-- In the window of tolerated negative discriminants a time is found although `f` has no root. -/
theorem firstRoot_window {a b c : ℝ} (hc : 0 ≤ c) (hd : b * b - 4 * a * c < 0)
    (hd' : -(1 / 10 ^ 12) ≤ b * b - 4 * a * c) {t : ℝ} (h : firstRoot a b c = some t) :
    0 ≤ t ∧ 0 < a * t ^ 2 + b * t + c ∧ b * b * (a * t ^ 2 + b * t + c) ≤ c / 10 ^ 12 := by
  have hac : 0 < a * c := by nlinarith [mul_self_nonneg b]
  have ha : 0 < a := by
    by_contra hc'
    exact absurd (mul_nonpos_of_nonpos_of_nonneg (not_lt.1 hc') hc) (not_le.2 hac)
  have hc0 : 0 < c := pos_of_mul_pos_right hac ha.le
  simp only [firstRoot] at h
  rw [if_neg (not_lt.2 hd'), max_eq_right hd.le, Real.sqrt_zero, add_zero] at h
  split_ifs at h with h1 h2
  · rw [← Option.some.inj h]
    have hb : b ≠ 0 := h1.ne
    have e : b * b * (a * (2 * c / -b) ^ 2 + b * (2 * c / -b) + c) = c * -(b * b - 4 * a * c) := by
      field_simp
      ring
    refine ⟨by apply div_nonneg <;> linarith, ?_, ?_⟩
    · have : 0 < b * b * (a * (2 * c / -b) ^ 2 + b * (2 * c / -b) + c) := by
        rw [e]
        exact mul_pos hc0 (by linarith)
      exact pos_of_mul_pos_right this (mul_self_nonneg b)
    · rw [e, div_eq_mul_one_div]
      exact mul_le_mul_of_nonneg_left (by linarith) hc
  · exact absurd h2 (not_lt.2 ha.le)

/-! ### Spheres -/

/-- The radius agrees with the growth since the last reset. -/
def Sphere.Synced (s : Sphere) : Prop :=
  s.radius = s.radiusGrowth + s.growthRate * (s.timeOfLastUpdate - s.timeOfGrowthReset)

theorem C53_synced_new (p v : V3) (r g : ℝ) : (Sphere.mk0 p v r g).Synced := by
  simp [Sphere.Synced, Sphere.mk0]

theorem C53_synced_move (s : Sphere) (t : ℝ) : (s.moveAndGrow t).Synced := rfl

/-- Changing the growth rate keeps the radius if it is done at the time of the last update. -/
theorem C53_synced_growth_partial (s : Sphere) (hs : s.Synced) (f : ℝ) :
    (s.setGrowthRate f s.timeOfLastUpdate).Synced ∧ (s.setGrowthRate f s.timeOfLastUpdate).radius = s.radius := by
  refine ⟨?_, rfl⟩
  simp only [Sphere.Synced, Sphere.setGrowthRate] at hs ⊢
  rw [hs]
  ring

/-- From the time of the change on the sphere grows at `f` times the former rate, starting from the radius it has then; its path does not
change. -/
theorem C53_growth (s : Sphere) (f t u : ℝ) :
    ((s.setGrowthRate f t).moveAndGrow u).radius = (s.moveAndGrow t).radius + f * ((s.moveAndGrow u).radius - (s.moveAndGrow t).radius) ∧
      ((s.setGrowthRate f t).moveAndGrow u).position = (s.moveAndGrow u).position ∧
      ((s.setGrowthRate f t).moveAndGrow u).velocity = s.velocity := by
  refine ⟨?_, rfl, rfl⟩
  simp only [Sphere.moveAndGrow, Sphere.setGrowthRate]
  ring

/-- At another time it does not: the next prediction uses a radius that is not the one the sphere has. -/
theorem C53_synced_growth_counterexample : ∃ (s : Sphere) (f t : ℝ), s.Synced ∧ s.timeOfLastUpdate ≤ t ∧
    ¬ (s.setGrowthRate f t).Synced := by
  refine ⟨Sphere.mk0 0 0 1 1, 2, 1, C53_synced_new _ _ _ _, by simp [Sphere.mk0], ?_⟩
  norm_num [Sphere.Synced, Sphere.setGrowthRate, Sphere.mk0]

theorem C53_synced_perform (s1 s2 : Sphere) (h1 : s1.Synced) (h2 : s2.Synced) :
    (performSphere s1 s2).1.Synced ∧ (performSphere s1 s2).2.Synced := ⟨h1, h2⟩

/-- Squared distance of the centres minus squared sum of the radii at a given time. -/
def clearance (s1 s2 : Sphere) (time : ℝ) : ℝ :=
  dot ((s1.moveAndGrow time).position - (s2.moveAndGrow time).position)
      ((s1.moveAndGrow time).position - (s2.moveAndGrow time).position) -
    ((s1.moveAndGrow time).radius + (s2.moveAndGrow time).radius) ^ 2

theorem clearance_comm (s1 s2 : Sphere) (t : ℝ) : clearance s1 s2 t = clearance s2 s1 t := by
  simp only [clearance, dot, Pi.sub_apply]
  ring

/-- `a`, `b`, `c` of `PredictCollision` describe the clearance. -/
theorem clearance_quadratic (s1 s2 : Sphere) (h1 : s1.Synced) (h2 : s2.Synced) (τ : ℝ) :
    clearance s1 s2 (s1.timeOfLastUpdate + τ) =
      let dt := s1.timeOfLastUpdate - s2.timeOfLastUpdate
      let dP := s1.position - (s2.position + dt • s2.velocity)
      let dV := s1.velocity - s2.velocity
      let dR := s1.radius + s2.radius + s2.growthRate * dt
      let dG := s1.growthRate + s2.growthRate
      (dot dV dV - dG * dG) * τ ^ 2 + 2 * (dot dV dP - dR * dG) * τ + (dot dP dP - dR * dR) := by
  simp only [Sphere.Synced] at h1 h2
  simp only [clearance, Sphere.moveAndGrow, dot, Pi.sub_apply, Pi.add_apply, Pi.smul_apply, smul_eq_mul, h1, h2]
  ring

/-- The later of the two update times. -/
noncomputable def now (s1 s2 : Sphere) : ℝ := max s1.timeOfLastUpdate s2.timeOfLastUpdate

/-- The discriminant `PredictCollision` computes is not a small negative number. -/
def NotGrazing (s1 s2 : Sphere) : Prop :=
  let dV := s1.velocity - s2.velocity
  let dP := (s1.moveAndGrow (now s1 s2)).position - (s2.moveAndGrow (now s1 s2)).position
  let dR := (s1.moveAndGrow (now s1 s2)).radius + (s2.moveAndGrow (now s1 s2)).radius
  let dG := s1.growthRate + s2.growthRate
  let a := dot dV dV - dG * dG
  let b := 2 * (dot dV dP - dR * dG)
  b * b - 4 * a * (dot dP dP - dR * dR) < -(1 / 10 ^ 12) ∨ 0 ≤ b * b - 4 * a * (dot dP dP - dR * dR)

theorem ordered_coeff (s1 s2 : Sphere) (h1 : s1.Synced) (h2 : s2.Synced) (h : s2.timeOfLastUpdate ≤ s1.timeOfLastUpdate) :
    s1.position - (s2.position + (s1.timeOfLastUpdate - s2.timeOfLastUpdate) • s2.velocity) =
      (s1.moveAndGrow (now s1 s2)).position - (s2.moveAndGrow (now s1 s2)).position ∧
    s1.radius + s2.radius + s2.growthRate * (s1.timeOfLastUpdate - s2.timeOfLastUpdate) =
      (s1.moveAndGrow (now s1 s2)).radius + (s2.moveAndGrow (now s1 s2)).radius := by
  simp only [Sphere.Synced] at h1 h2
  rw [now, max_eq_left h]
  simp only [Sphere.moveAndGrow, sub_self, zero_smul, add_zero, true_and, h1, h2]
  ring

theorem now_comm (s1 s2 : Sphere) : now s1 s2 = now s2 s1 := max_comm _ _

theorem NotGrazing.symm {s1 s2 : Sphere} (h : NotGrazing s1 s2) : NotGrazing s2 s1 := by
  simp only [NotGrazing] at h ⊢
  rw [now_comm s2 s1]
  generalize (s1.moveAndGrow (now s1 s2)) = m1 at h ⊢
  generalize (s2.moveAndGrow (now s1 s2)) = m2 at h ⊢
  have e1 : dot (s2.velocity - s1.velocity) (s2.velocity - s1.velocity) =
      dot (s1.velocity - s2.velocity) (s1.velocity - s2.velocity) := by simp only [dot, Pi.sub_apply]; ring
  have e2 : dot (s2.velocity - s1.velocity) (m2.position - m1.position) =
      dot (s1.velocity - s2.velocity) (m1.position - m2.position) := by simp only [dot, Pi.sub_apply]; ring
  have e3 : dot (m2.position - m1.position) (m2.position - m1.position) =
      dot (m1.position - m2.position) (m1.position - m2.position) := by simp only [dot, Pi.sub_apply]; ring
  rw [e1, e2, e3, add_comm s2.growthRate, add_comm m2.radius]
  exact h

theorem ordered_ok {s1 s2 : Sphere} (h1 : s1.Synced) (h2 : s2.Synced)
    (h : s2.timeOfLastUpdate ≤ s1.timeOfLastUpdate) (hr : 0 ≤ s1.radius) (hfree : 0 ≤ clearance s1 s2 (now s1 s2)) :
    ∃ r, predictOrdered s1 s2 = .ok r ∧
      (∀ t, r = some t → NotGrazing s1 s2 → now s1 s2 ≤ t ∧ clearance s1 s2 t = 0 ∧
        ∀ τ, now s1 s2 ≤ τ → τ < t →
          0 ≤ clearance s1 s2 τ ∧ (0 < clearance s1 s2 (now s1 s2) → 0 < clearance s1 s2 τ)) ∧
      (r = none → ∀ τ, now s1 s2 ≤ τ →
        0 ≤ clearance s1 s2 τ ∧ (0 < clearance s1 s2 (now s1 s2) → 0 < clearance s1 s2 τ)) := by
  have hq := clearance_quadratic s1 s2 h1 h2
  obtain ⟨e1, e2⟩ := ordered_coeff s1 s2 h1 h2 h
  have hnow : now s1 s2 = s1.timeOfLastUpdate := max_eq_left h
  have hc := hq 0
  simp only [predictOrdered, NotGrazing]
  simp only [e1, e2] at hq hc ⊢
  rw [add_zero, ← hnow] at hc
  generalize hP : (s1.moveAndGrow (now s1 s2)).position - (s2.moveAndGrow (now s1 s2)).position = dP at *
  generalize hR : (s1.moveAndGrow (now s1 s2)).radius + (s2.moveAndGrow (now s1 s2)).radius = dR at *
  generalize s1.velocity - s2.velocity = dV at *
  generalize s1.growthRate + s2.growthRate = dG at *
  generalize dot dV dV - dG * dG = a at *
  generalize 2 * (dot dV dP - dR * dG) = b at *
  generalize dot dP dP - dR * dR = c at *
  have hc' : clearance s1 s2 (now s1 s2) = c := by rw [hc]; ring
  have hshift : ∀ τ, clearance s1 s2 τ = a * (τ - now s1 s2) ^ 2 + b * (τ - now s1 s2) + c := by
    intro τ
    rw [← hq (τ - now s1 s2), hnow]
    congr 1
    ring
  rw [hc'] at hfree ⊢
  rw [if_neg (by
    rw [not_lt]
    have : -(2 / 10 ^ 10) * s1.radius ≤ 0 := by
      have : 0 ≤ 2 / 10 ^ 10 * s1.radius := by positivity
      linarith
    linarith)]
  refine ⟨_, rfl, ?_, ?_⟩
  · intro t ht hgraze
    rw [Option.map_eq_some_iff] at ht
    obtain ⟨t0, ht0, rfl⟩ := ht
    have hd : 0 ≤ b * b - 4 * a * c := by
      rcases hgraze with hg | hg
      · exfalso
        simp only [firstRoot] at ht0
        rw [if_pos hg] at ht0
        cases ht0
      · exact hg
    obtain ⟨r1, r2, r3⟩ := firstRoot_some hfree hd ht0
    rw [← hnow]
    refine ⟨by linarith, ?_, ?_⟩
    · rw [hshift, add_sub_cancel_left]
      exact r2
    · intro τ hτ1 hτ2
      rw [hshift]
      exact r3 _ (by linarith) (by linarith)
  · intro hn τ hτ
    rw [Option.map_eq_none_iff] at hn
    rw [hshift]
    exact firstRoot_none hfree hn _ (by linarith)

/-- For two spheres that do not overlap the predicted time is the first time of contact; if no time is returned, they
never overlap.  (Missing: grazing passes, see the counterexample.) -/
theorem C53_sphere_partial (s o : Sphere) (hs : s.Synced) (ho : o.Synced) (hrs : 0 ≤ s.radius) (hro : 0 ≤ o.radius)
    (hfree : 0 ≤ clearance s o (now s o)) (hgraze : NotGrazing s o) :
    ∃ r, predictSphere s o = .ok r ∧
      (∀ t, r = some t → now s o ≤ t ∧ clearance s o t = 0 ∧
        ∀ τ, now s o ≤ τ → τ < t → 0 ≤ clearance s o τ ∧ (0 < clearance s o (now s o) → 0 < clearance s o τ)) ∧
      (r = none → ∀ τ, now s o ≤ τ →
        0 ≤ clearance s o τ ∧ (0 < clearance s o (now s o) → 0 < clearance s o τ)) := by
  unfold predictSphere
  split_ifs with h
  · obtain ⟨r, r1, r2, r3⟩ := ordered_ok hs ho (le_of_lt h) hrs hfree
    exact ⟨r, r1, fun t ht => r2 t ht hgraze, r3⟩
  · rw [clearance_comm s o, now_comm s o] at hfree
    obtain ⟨r, r1, r2, r3⟩ := ordered_ok ho hs (not_lt.1 h) hro hfree
    have ec : clearance s o = clearance o s := funext (clearance_comm s o)
    rw [ec, now_comm s o]
    exact ⟨r, r1, fun t ht => r2 t ht hgraze.symm, r3⟩

/-- No prediction is refused, and no event at all means no overlap: here grazing passes need not be excluded. -/
theorem C53_sphere_none (s o : Sphere) (hs : s.Synced) (ho : o.Synced) (hrs : 0 ≤ s.radius) (hro : 0 ≤ o.radius)
    (hfree : 0 ≤ clearance s o (now s o)) :
    predictSphere s o ≠ .throw ∧ (predictSphere s o = .ok none → ∀ τ, now s o ≤ τ →
        0 ≤ clearance s o τ ∧ (0 < clearance s o (now s o) → 0 < clearance s o τ)) := by
  unfold predictSphere
  split_ifs with h
  · obtain ⟨r, r1, -, r3⟩ := ordered_ok hs ho (le_of_lt h) hrs hfree
    rw [r1]
    exact ⟨by simp, fun hr => r3 (Res.ok.inj hr)⟩
  · rw [clearance_comm s o, now_comm s o] at hfree
    obtain ⟨r, r1, -, r3⟩ := ordered_ok ho hs (not_lt.1 h) hro hfree
    have ec : clearance s o = clearance o s := funext (clearance_comm s o)
    rw [r1, ec, now_comm s o]
    exact ⟨by simp, fun hr => r3 (Res.ok.inj hr)⟩

theorem predict_new (p1 p2 v1 v2 : V3) (r1 r2 g1 g2 a b c : ℝ)
    (ha : dot (v2 - v1) (v2 - v1) - (g2 + g1) * (g2 + g1) = a)
    (hb : 2 * (dot (v2 - v1) (p2 - p1) - (r2 + r1) * (g2 + g1)) = b)
    (hc : dot (p2 - p1) (p2 - p1) - (r2 + r1) * (r2 + r1) = c) (hfree : -(2 / 10 ^ 10) * r2 ≤ c) :
    predictSphere (Sphere.mk0 p1 v1 r1 g1) (Sphere.mk0 p2 v2 r2 g2) = .ok (firstRoot a b c) := by
  simp only [predictSphere, Sphere.mk0, gt_iff_lt, lt_irrefl, if_false, predictOrdered, sub_self, zero_smul, add_zero,
    mul_zero, ha, hb, hc]
  rw [if_neg (not_lt.2 hfree)]
  simp

/-- A sphere passing another one at a small distance: a collision is predicted although they never touch. -/
theorem C53_grazing_counterexample : ∃ (s o : Sphere) (t : ℝ), s.Synced ∧ o.Synced ∧ 0 < s.radius ∧ 0 < o.radius ∧
    predictSphere s o = .ok (some t) ∧ ∀ τ, 0 < clearance s o τ := by
  refine ⟨Sphere.mk0 ![-1, 2 + 1 / 10 ^ 14, 0] ![1, 0, 0] 1 0, Sphere.mk0 0 0 1 0, ?_⟩
  have hcl : ∀ τ, clearance (Sphere.mk0 ![-1, 2 + 1 / 10 ^ 14, 0] ![1, 0, 0] 1 0) (Sphere.mk0 0 0 1 0) τ =
      (τ - 1) ^ 2 + ((2 + 1 / 10 ^ 14) ^ 2 - 4) := by
    intro τ
    simp [clearance, Sphere.mk0, Sphere.moveAndGrow, dot]
    ring
  obtain ⟨t, ht⟩ : ∃ t, predictSphere (Sphere.mk0 ![-1, 2 + 1 / 10 ^ 14, 0] ![1, 0, 0] 1 0) (Sphere.mk0 0 0 1 0) =
      .ok (some t) := by
    rw [predict_new _ _ _ _ _ _ _ _ 1 (-2) (1 + (2 + 1 / 10 ^ 14) ^ 2 - 4) (by simp [dot]) (by simp [dot])
      (by simp [dot]; ring) (by norm_num)]
    simp only [firstRoot]
    rw [if_neg (by norm_num), if_pos (by norm_num)]
    exact ⟨_, rfl⟩
  refine ⟨t, C53_synced_new _ _ _ _, C53_synced_new _ _ _ _, by simp [Sphere.mk0], by simp [Sphere.mk0], ht, ?_⟩
  intro τ
  rw [hcl]
  have := sq_nonneg (τ - 1)
  have h2 : (0 : ℝ) < (2 + 1 / 10 ^ 14) ^ 2 - 4 := by norm_num
  linarith

/-- A head-on collision: the spheres of radius 1 at distance 10 with speeds 1 and 3 meet after 2 units of time. -/
example : predictSphere (Sphere.mk0 ![10, 0, 0] ![-3, 0, 0] 1 0) (Sphere.mk0 0 ![1, 0, 0] 1 0) = .ok (some 2) := by
  rw [predict_new _ _ _ _ _ _ _ _ 16 (-80) 96 (by simp [dot]; norm_num) (by simp [dot]; norm_num)
    (by simp [dot]; norm_num) (by norm_num)]
  simp only [firstRoot]
  rw [if_neg (by norm_num), if_pos (by norm_num), max_eq_left (by norm_num),
    show ((-80 : ℝ) * -80 - 4 * 16 * 96) = 16 * 16 by norm_num, Real.sqrt_mul_self (by norm_num)]
  norm_num

/-- Right after the collision of two touching spheres no further collision of the two is predicted. -/
theorem C52_no_second_collision (s1 s2 : Sphere) (hp : s1.position ≠ s2.position) (h1 : 0 < s1.radius)
    (h2 : 0 < s2.radius) (hg1 : 0 ≤ s1.growthRate) (hg2 : 0 ≤ s2.growthRate)
    (ht : s1.timeOfLastUpdate = s2.timeOfLastUpdate)
    (htouch : dot (s1.position - s2.position) (s1.position - s2.position) = (s1.radius + s2.radius) ^ 2) :
    predictSphere (performSphere s1 s2).1 (performSphere s1 s2).2 = .ok none := by
  have hpos := dot_self_pos (sub_ne_zero.2 hp)
  have hn : dot (lineOfCentres s1 s2) (lineOfCentres s1 s2) = 1 := normalize_unit hpos
  have hw := C52_separate s1 s2 hp h1 h2
  have hR : Real.sqrt (dot (s1.position - s2.position) (s1.position - s2.position)) = s1.radius + s2.radius := by
    rw [htouch, Real.sqrt_sq (by linarith)]
  have hdP : s1.position - s2.position = (s1.radius + s2.radius) • lineOfCentres s1 s2 := by
    rw [← hR]
    exact (normalize_mul hpos).symm
  have hcs := dot_sq_le hn ((performSphere s1 s2).1.velocity - (performSphere s1 s2).2.velocity)
  obtain ⟨e1, e2⟩ := C52_only_velocity s1 s2
  generalize (performSphere s1 s2).1.velocity = v1 at *
  generalize (performSphere s1 s2).2.velocity = v2 at *
  rw [e1, e2]
  simp only [predictSphere]
  rw [if_neg (by rw [ht]; exact lt_irrefl _)]
  simp only [predictOrdered, ht, sub_self, zero_smul, add_zero, mul_zero]
  have hw2 : 2 * (s1.growthRate + s2.growthRate) ≤ dot (lineOfCentres s1 s2) (v1 - v2) := by
    rw [hw]
    linarith [le_max_right (dot (lineOfCentres s1 s2) (s2.velocity - s1.velocity)) 0]
  have c0 : dot (s2.position - s1.position) (s2.position - s1.position) -
      (s2.radius + s1.radius) * (s2.radius + s1.radius) = 0 := by
    have : dot (s2.position - s1.position) (s2.position - s1.position) =
        dot (s1.position - s2.position) (s1.position - s2.position) := by
      simp only [dot, Pi.sub_apply]; ring
    rw [this, htouch]; ring
  have hb : 0 ≤ 2 * (dot (v2 - v1) (s2.position - s1.position) -
      (s2.radius + s1.radius) * (s2.growthRate + s1.growthRate)) := by
    have e3 : dot (v2 - v1) (s2.position - s1.position) =
        (s1.radius + s2.radius) * dot (lineOfCentres s1 s2) (v1 - v2) := by
      have : dot (v2 - v1) (s2.position - s1.position) = dot (v1 - v2) (s1.position - s2.position) := by
        simp only [dot, Pi.sub_apply]; ring
      rw [this, hdP, dot_smul, dot_comm]
    rw [e3]
    have : (s1.radius + s2.radius) * (s1.growthRate + s2.growthRate) ≤
        (s1.radius + s2.radius) * dot (lineOfCentres s1 s2) (v1 - v2) :=
      mul_le_mul_of_nonneg_left (by linarith) (by linarith)
    linarith
  have ha : 0 ≤ dot (v2 - v1) (v2 - v1) - (s2.growthRate + s1.growthRate) * (s2.growthRate + s1.growthRate) := by
    have e4 : dot (v2 - v1) (v2 - v1) = dot (v1 - v2) (v1 - v2) := by simp only [dot, Pi.sub_apply]; ring
    rw [e4]
    nlinarith
  rw [c0]
  rw [if_neg (by
    rw [not_lt]
    have : 0 ≤ 2 / 10 ^ 10 * s2.radius := by positivity
    linarith)]
  simp only [firstRoot]
  rw [if_neg (by
    rw [not_lt, mul_zero, sub_zero]
    have := mul_self_nonneg (2 * (dot (v2 - v1) (s2.position - s1.position) -
      (s2.radius + s1.radius) * (s2.growthRate + s1.growthRate)))
    linarith [(by positivity : (0 : ℝ) ≤ 1 / 10 ^ 12)]), if_neg (not_lt.2 hb), if_neg (not_lt.2 ha)]
  rfl

example : dot ((![3, 4, 0] : V3) - 0) (![3, 4, 0] - 0) = ((2 : ℝ) + 3) ^ 2 := by simp [dot]; norm_num

/-- Prediction and collision together: at the predicted time the spheres touch, the collision is performed there, and
no collision of the pair follows. -/
theorem C53_event (s o : Sphere) (hs : s.Synced) (ho : o.Synced) (hrs : 0 < s.radius) (hro : 0 < o.radius)
    (hgs : 0 ≤ s.growthRate) (hgo : 0 ≤ o.growthRate) (hfree : 0 ≤ clearance s o (now s o)) (hgraze : NotGrazing s o)
    (t : ℝ) (h : predictSphere s o = .ok (some t)) :
    predictSphere (performEvent t s o).1 (performEvent t s o).2 = .ok none := by
  obtain ⟨r, r1, r2, -⟩ := C53_sphere_partial s o hs ho hrs.le hro.le hfree hgraze
  rw [h] at r1
  obtain ⟨h1, h2, -⟩ := r2 t (Res.ok.inj r1).symm
  have hts : s.timeOfLastUpdate ≤ t := (le_max_left _ _).trans h1
  have hto : o.timeOfLastUpdate ≤ t := (le_max_right _ _).trans h1
  have hr1 : 0 < (s.moveAndGrow t).radius := by
    simp only [Sphere.Synced] at hs
    simp only [Sphere.moveAndGrow]
    nlinarith
  have hr2 : 0 < (o.moveAndGrow t).radius := by
    simp only [Sphere.Synced] at ho
    simp only [Sphere.moveAndGrow]
    nlinarith
  have htouch : dot ((s.moveAndGrow t).position - (o.moveAndGrow t).position)
      ((s.moveAndGrow t).position - (o.moveAndGrow t).position) =
      ((s.moveAndGrow t).radius + (o.moveAndGrow t).radius) ^ 2 := by
    unfold clearance at h2
    linarith
  have hp : (s.moveAndGrow t).position ≠ (o.moveAndGrow t).position := by
    intro he
    rw [he, sub_self] at htouch
    have : dot (0 : V3) 0 = 0 := by simp [dot]
    rw [this] at htouch
    have : 0 < ((s.moveAndGrow t).radius + (o.moveAndGrow t).radius) ^ 2 := by positivity
    linarith
  have := C52_no_second_collision (s.moveAndGrow t) (o.moveAndGrow t) hp hr1 hr2 hgs hgo rfl htouch
  rw [performEvent, C52_symmetric _ _ hr1 hr2]
  exact this

/-! ### Plane walls -/

/-- Distance of the surface of the sphere to the wall at a given time. -/
noncomputable def wallDistance (w : Wall) (s : Sphere) (time : ℝ) : ℝ :=
  dot w.direction ((s.moveAndGrow time).position - w.position) - (s.moveAndGrow time).radius

theorem wallTime_some {x v t : ℝ} (hx : 0 ≤ x) (h : wallTime x v = some t) :
    0 ≤ t ∧ x + v * t = 0 ∧ ∀ τ, 0 ≤ τ → τ < t → 0 < x + v * τ := by
  unfold wallTime at h
  split_ifs at h with h1 h2 h3
  have ht := Option.some.inj h
  have hxt : x + v * t = 0 := by
    rw [← ht]
    field_simp
    ring
  rw [← ht] at *
  refine ⟨h3, hxt, fun τ h4 h5 => ?_⟩
  have hv : v < 0 := by
    by_contra hv
    have hv' : 0 < v := lt_of_le_of_ne (not_lt.1 hv) (Ne.symm h2)
    have : -x / v ≤ 0 := div_nonpos_of_nonpos_of_nonneg (by linarith) hv'.le
    linarith
  nlinarith

theorem wallTime_none {x v : ℝ} (hx : 0 ≤ x) (h : wallTime x v = none) :
    ∀ τ, 0 ≤ τ → 0 ≤ x + v * τ ∧ (0 < x → 0 < x + v * τ) := by
  have hv : 0 ≤ v := by
    by_contra hv
    rw [not_le] at hv
    unfold wallTime at h
    rw [if_neg (fun hc => absurd hc.2 (not_le.2 hv)), if_neg hv.ne,
      if_pos (div_nonneg_of_nonpos (by linarith) hv.le)] at h
    cases h
  intro τ hτ
  have := mul_nonneg hv hτ
  exact ⟨by linarith, fun _ => by linarith⟩

/-- The wall's alignment flag is right: it is set for directions along an axis only. -/
def ProperDirection (d : V3) : Prop :=
  d ≠ 0 ∧ (|d 0 + d 1 + d 2| = 1 → ∃ i, (d i = 1 ∨ d i = -1) ∧ ∀ j, j ≠ i → d j = 0)

theorem distances_eq (p d : V3) (hd : ProperDirection d) (s : Sphere) :
    distances (Wall.mk0 p d) s =
      .ok (dot (Wall.mk0 p d).direction (s.position - p) - s.radius,
        dot s.velocity (Wall.mk0 p d).direction - s.growthRate) := by
  unfold distances
  split_ifs with h
  · obtain ⟨i, hi, hj⟩ := hd.2 h
    have hunit : dot d d = 1 := by
      unfold dot
      fin_cases i <;> simp only [Fin.zero_eta, Fin.mk_one, Fin.reduceFinMk] at hi hj
      · rw [hj 1 (by decide), hj 2 (by decide)]; rcases hi with hi | hi <;> rw [hi] <;> norm_num
      · rw [hj 0 (by decide), hj 2 (by decide)]; rcases hi with hi | hi <;> rw [hi] <;> norm_num
      · rw [hj 0 (by decide), hj 1 (by decide)]; rcases hi with hi | hi <;> rw [hi] <;> norm_num
    have hdir : (Wall.mk0 p d).direction = d := by
      simp only [Wall.mk0, normalize]
      rw [hunit, if_pos one_pos, Real.sqrt_one, div_one, one_smul]
    have haxis : (Wall.mk0 p d).nonNullAxis = some i := by
      simp only [Wall.mk0, nonNullAxis]
      have hne : d i ≠ 0 := by rcases hi with hi | hi <;> rw [hi] <;> norm_num
      fin_cases i <;> simp only [Fin.zero_eta, Fin.mk_one, Fin.reduceFinMk] at hi hj hne ⊢
      · rw [if_pos hne]
      · rw [if_neg (not_not.2 (hj 0 (by decide))), if_pos hne]
      · rw [if_neg (not_not.2 (hj 0 (by decide))), if_neg (not_not.2 (hj 1 (by decide))), if_pos hne]
    have hint : ((toInt (d i) : ℤ) : ℝ) = d i := by
      rcases hi with hi | hi <;> rw [hi] <;> norm_num [toInt]
    have hpick : ∀ v : V3, dot d v = d i * v i := by
      intro v
      unfold dot
      fin_cases i <;> simp only [Fin.zero_eta, Fin.mk_one, Fin.reduceFinMk] at hj ⊢
      · rw [hj 1 (by decide), hj 2 (by decide)]; ring
      · rw [hj 0 (by decide), hj 2 (by decide)]; ring
      · rw [hj 0 (by decide), hj 1 (by decide)]; ring
    rw [haxis, hdir]
    dsimp only
    rw [hint, hpick, dot_comm s.velocity, hpick]
    rfl
  · rfl

theorem wallDistance_linear (w : Wall) (s : Sphere) (hs : s.Synced) (τ : ℝ) :
    wallDistance w s (s.timeOfLastUpdate + τ) =
      (dot w.direction (s.position - w.position) - s.radius) + (dot s.velocity w.direction - s.growthRate) * τ := by
  simp only [Sphere.Synced] at hs
  simp only [wallDistance, Sphere.moveAndGrow, dot, Pi.sub_apply, Pi.add_apply, Pi.smul_apply, smul_eq_mul, hs]
  ring

/-- For a sphere that does not overlap a plane wall the predicted time is the first contact; if none is returned it
never overlaps.  (Missing: directions that are wrongly taken for axis aligned, see the counterexample.) -/
theorem C53_wall_partial (p d : V3) (hd : ProperDirection d) (s : Sphere) (hs : s.Synced)
    (hfree : 0 ≤ wallDistance (Wall.mk0 p d) s s.timeOfLastUpdate) :
    ∃ r, predictWall (Wall.mk0 p d) s = .ok r ∧
      (∀ t, r = some t → s.timeOfLastUpdate ≤ t ∧ wallDistance (Wall.mk0 p d) s t = 0 ∧
        ∀ τ, s.timeOfLastUpdate ≤ τ → τ < t → 0 < wallDistance (Wall.mk0 p d) s τ) ∧
      (r = none → ∀ τ, s.timeOfLastUpdate ≤ τ → 0 ≤ wallDistance (Wall.mk0 p d) s τ ∧
        (0 < wallDistance (Wall.mk0 p d) s s.timeOfLastUpdate → 0 < wallDistance (Wall.mk0 p d) s τ)) := by
  have hlin := wallDistance_linear (Wall.mk0 p d) s hs
  have h0 := hlin 0
  rw [add_zero, mul_zero, add_zero] at h0
  have hshift : ∀ τ, wallDistance (Wall.mk0 p d) s τ = _ := fun τ =>
    (congrArg (wallDistance (Wall.mk0 p d) s) (by ring : τ = s.timeOfLastUpdate + (τ - s.timeOfLastUpdate))).trans
      (hlin (τ - s.timeOfLastUpdate))
  rw [h0] at hfree ⊢
  rw [predictWall, distances_eq p d hd s]
  refine ⟨_, rfl, ?_, ?_⟩
  · intro t ht
    rw [Option.map_eq_some_iff] at ht
    obtain ⟨t0, ht0, rfl⟩ := ht
    obtain ⟨r1, r2, r3⟩ := wallTime_some hfree ht0
    refine ⟨by linarith, ?_, ?_⟩
    · rw [hlin]
      exact r2
    · intro τ hτ1 hτ2
      rw [hshift]
      exact r3 _ (by linarith) (by linarith)
  · intro hn τ hτ
    rw [Option.map_eq_none_iff] at hn
    rw [hshift]
    exact wallTime_none hfree hn _ (by linarith)

/-- Right after the collision with a wall no further collision with it is predicted. -/
theorem C52_no_second_wall_collision (p d : V3) (hd : ProperDirection d) (s : Sphere)
    (htouch : dot (Wall.mk0 p d).direction (s.position - p) = s.radius) :
    predictWall (Wall.mk0 p d) (performWall (Wall.mk0 p d) s) = .ok none := by
  rw [predictWall, distances_eq p d hd]
  have h1 := (C52_wall p d hd.1 s).1
  rw [h1]
  rw [Res.bind_ok']
  have h2 : wallTime (dot (Wall.mk0 p d).direction ((performWall (Wall.mk0 p d) s).position - p) -
      (performWall (Wall.mk0 p d) s).radius) (|dot s.velocity (Wall.mk0 p d).direction| + s.growthRate -
        (performWall (Wall.mk0 p d) s).growthRate) = none := by
    unfold wallTime
    rw [if_pos]
    refine ⟨?_, ?_⟩
    · have : dot (Wall.mk0 p d).direction ((performWall (Wall.mk0 p d) s).position - p) -
          (performWall (Wall.mk0 p d) s).radius = 0 := by
        change dot (Wall.mk0 p d).direction (s.position - p) - s.radius = 0
        rw [htouch, sub_self]
      rw [this]
      norm_num
    · change 0 ≤ |dot s.velocity (Wall.mk0 p d).direction| + s.growthRate - s.growthRate
      rw [add_sub_cancel_right]
      exact abs_nonneg _
  dsimp only at h2 ⊢
  rw [h2]
  rfl

/-- Directions along the axes and such with another sum of components are proper. -/
example : ProperDirection ![0, -1, 0] ∧ ProperDirection ![1, 2, 0] := by
  refine ⟨⟨?_, fun _ => ⟨1, ?_, ?_⟩⟩, ⟨?_, ?_⟩⟩
  · intro h; have := congrFun h 1; simp at this
  · simp
  · intro j hj; fin_cases j <;> simp at hj ⊢
  · intro h; have := congrFun h 1; simp at this
  · intro h
    exfalso
    have e : (![1, 2, 0] : V3) 2 = 0 := rfl
    rw [e] at h
    norm_num at h

/-- A wall with direction (1/2, 1/2, 0) is taken for axis aligned, its sign becomes zero, and a sphere moving
straight through it is never stopped. -/
theorem C53_wall_counterexample : ∃ (p d : V3) (s : Sphere), d ≠ 0 ∧ s.Synced ∧ 0 < s.radius ∧
    0 < wallDistance (Wall.mk0 p d) s s.timeOfLastUpdate ∧ predictWall (Wall.mk0 p d) s = .ok none ∧
    ∃ τ, s.timeOfLastUpdate ≤ τ ∧ wallDistance (Wall.mk0 p d) s τ < 0 := by
  have hsq : dot (![1 / 2, 1 / 2, 0] : V3) ![1 / 2, 1 / 2, 0] = 1 / 2 := by simp [dot]; norm_num
  have hs2 : 0 < Real.sqrt (1 / 2) := Real.sqrt_pos.2 (by norm_num)
  have hs1 : Real.sqrt (1 / 2) * Real.sqrt (1 / 2) = 1 / 2 := Real.mul_self_sqrt (by norm_num)
  have hdir : (Wall.mk0 0 ![1 / 2, 1 / 2, 0]).direction = Real.sqrt (1 / 2) • ![1, 1, 0] := by
    simp only [Wall.mk0, normalize]
    rw [hsq, if_pos (by norm_num)]
    funext i
    fin_cases i <;> simp only [Fin.zero_eta, Fin.mk_one, Fin.reduceFinMk, Pi.smul_apply, smul_eq_mul]
    · simp only [Matrix.cons_val_zero]
      field_simp
      linarith
    · simp only [Matrix.cons_val_one, Matrix.cons_val_zero]
      field_simp
      linarith
    · simp
  have hlt : Real.sqrt (1 / 2) < 1 := by nlinarith
  have hgt : 1 / 2 < Real.sqrt (1 / 2) := by nlinarith
  generalize Real.sqrt (1 / 2) = q at *
  refine ⟨0, ![1 / 2, 1 / 2, 0], Sphere.mk0 ![10, 10, 0] ![-10, -10, 0] 1 0, ?_, C53_synced_new _ _ _ _, ?_, ?_, ?_,
    2, ?_, ?_⟩
  · intro h; have := congrFun h 0; norm_num at this
  · simp [Sphere.mk0]
  · rw [wallDistance, hdir]
    simp only [Sphere.mk0, Sphere.moveAndGrow, smul_dot]
    simp [dot, Wall.mk0]
    norm_num
    nlinarith
  · have hax : (Wall.mk0 0 ![1 / 2, 1 / 2, 0]).isAxisAligned := by
      have e : (![1 / 2, 1 / 2, 0] : V3) 2 = 0 := rfl
      simp only [Wall.mk0, e]
      norm_num
    have hnn : (Wall.mk0 0 ![1 / 2, 1 / 2, 0]).nonNullAxis = some 0 := by
      simp only [Wall.mk0, nonNullAxis]
      rw [if_pos (by norm_num)]
    have hti : toInt ((Wall.mk0 0 ![1 / 2, 1 / 2, 0]).direction 0) = 0 := by
      rw [hdir]
      simp only [toInt, Pi.smul_apply, smul_eq_mul, Matrix.cons_val_zero, mul_one]
      rw [if_pos hs2.le, Int.floor_eq_zero_iff]
      exact ⟨hs2.le, hlt⟩
    rw [predictWall, distances, if_pos hax, hnn]
    dsimp only
    rw [hti, Res.bind_ok']
    simp only [Int.cast_zero, zero_mul, Sphere.mk0, wallTime]
    rw [if_pos (by norm_num)]
    rfl
  · simp [Sphere.mk0]
  · rw [wallDistance, hdir]
    simp only [Sphere.mk0, Sphere.moveAndGrow, smul_dot]
    simp [dot, Wall.mk0]
    norm_num
    nlinarith

/-! ### Cylinders -/

/-- Squared distance to the axis minus the square of the free radius at a given time; negative inside. -/
noncomputable def cylinderExcess (w : Cylinder) (s : Sphere) (time : ℝ) : ℝ :=
  dot (perp w.direction ((s.moveAndGrow time).position - w.position))
      (perp w.direction ((s.moveAndGrow time).position - w.position)) -
    (w.radius - (s.moveAndGrow time).radius) ^ 2

theorem cylinderExcess_quadratic (w : Cylinder) (s : Sphere) (hs : s.Synced) (τ : ℝ) :
    cylinderExcess w s (s.timeOfLastUpdate + τ) =
      let dP := perp w.direction (s.position - w.position)
      let dV := perp w.direction s.velocity
      let dR := w.radius - s.radius
      let dG := -s.growthRate
      (dot dV dV - dG * dG) * τ ^ 2 + 2 * (dot dV dP - dR * dG) * τ + (dot dP dP - dR * dR) := by
  simp only [Sphere.Synced] at hs
  have e : perp w.direction ((s.moveAndGrow (s.timeOfLastUpdate + τ)).position - w.position) =
      perp w.direction (s.position - w.position) + τ • perp w.direction s.velocity := by
    funext i
    simp only [perp, Sphere.moveAndGrow, dot, Pi.sub_apply, Pi.add_apply, Pi.smul_apply, smul_eq_mul]
    ring
  rw [cylinderExcess, e]
  simp only [dot_add, add_dot, dot_smul, smul_dot, Sphere.moveAndGrow, hs]
  rw [dot_comm (perp w.direction (s.position - w.position)) (perp w.direction s.velocity)]
  ring

theorem cylinderRoot_some {a b c t : ℝ} (hc : c ≤ 0) (hd : 0 ≤ b * b - 4 * a * c) (h : cylinderRoot a b c = some t) :
    0 ≤ t ∧ a * t ^ 2 + b * t + c = 0 ∧
      ∀ τ, 0 ≤ τ → τ < t → a * τ ^ 2 + b * τ + c ≤ 0 ∧ (c < 0 → a * τ ^ 2 + b * τ + c < 0) := by
  have hd' : b * b - 4 * a * c = -b * -b - 4 * -a * -c := by ring
  simp only [cylinderRoot] at h
  rw [if_pos (lt_of_lt_of_le (by norm_num) hd), if_neg (not_lt.2 hd)] at h
  split_ifs at h with h1 h2 h3
  · rw [← Option.some.inj h]
    obtain ⟨r1, r2, r3⟩ := root_negative_slope (a := -a) (b := -b) (c := -c) (by linarith) (by linarith)
      (by rw [← hd']; exact hd)
    have e : 2 * c / (-b - Real.sqrt (b * b - 4 * a * c)) =
        2 * -c / (- -b + Real.sqrt (-b * -b - 4 * -a * -c)) := by
      rw [← hd', ← neg_div_neg_eq]
      congr 1 <;> ring
    rw [e]
    generalize 2 * -c / (- -b + Real.sqrt (-b * -b - 4 * -a * -c)) = T at r1 r2 r3 ⊢
    refine ⟨r1, by linarith, fun τ h0 hτ => ?_⟩
    have := r3 τ hτ h0
    exact ⟨by linarith, fun _ => by linarith⟩
  · rw [← Option.some.inj h]
    obtain ⟨-, r1, r2, r3⟩ := root_concave (a := -a) (b := -b) (c := -c) (by linarith [h3.1]) (by linarith [h3.2])
      (by linarith)
    have e : (-b + Real.sqrt (b * b - 4 * a * c)) / (2 * a) =
        (- -b - Real.sqrt (-b * -b - 4 * -a * -c)) / (2 * -a) := by
      rw [← hd', ← neg_div_neg_eq]
      congr 1 <;> ring
    rw [e]
    generalize (- -b - Real.sqrt (-b * -b - 4 * -a * -c)) / (2 * -a) = T at r1 r2 r3 ⊢
    refine ⟨r1, by linarith, fun τ h0 hτ => ?_⟩
    obtain ⟨h4, h5⟩ := r3 τ hτ h0
    exact ⟨by linarith, fun hc' => by linarith [h5 (by linarith)]⟩

theorem cylinderRoot_none {a b c : ℝ} (hc : c ≤ 0) (h : cylinderRoot a b c = none) :
    ∀ τ, 0 ≤ τ → a * τ ^ 2 + b * τ + c ≤ 0 ∧ (c < 0 → a * τ ^ 2 + b * τ + c < 0) := by
  intro τ hτ
  simp only [cylinderRoot] at h
  by_cases h1 : -(1 / 10 ^ 11) < b * b - 4 * a * c
  · rw [if_pos h1] at h
    by_cases h2 : 0 < b
    · exfalso
      rw [if_pos h2, if_pos] at h
      · cases h
      · refine div_nonneg_of_nonpos (by linarith) ?_
        have := Real.sqrt_nonneg (if b * b - 4 * a * c < 0 then 0 else b * b - 4 * a * c)
        linarith
    · rw [if_neg h2] at h
      have ha : a ≤ 0 := by
        by_contra ha
        rw [if_pos ⟨not_le.1 ha, not_lt.1 h2⟩] at h
        cases h
      have h4 : a * τ ^ 2 ≤ 0 := mul_nonpos_of_nonpos_of_nonneg ha (sq_nonneg τ)
      have h5 : b * τ ≤ 0 := mul_nonpos_of_nonpos_of_nonneg (not_lt.1 h2) hτ
      exact ⟨by linarith, fun _ => by linarith⟩
  · have hD : b * b - 4 * a * c < 0 := lt_of_le_of_lt (not_lt.1 h1) (by norm_num)
    have hac : 0 < a * c := by nlinarith [mul_self_nonneg b]
    have ha : a < 0 := by
      by_contra hc'
      exact absurd (mul_nonpos_of_nonneg_of_nonpos (not_lt.1 hc') hc) (not_le.2 hac)
    have h4 : 4 * a * (a * τ ^ 2 + b * τ + c) = (2 * a * τ + b) * (2 * a * τ + b) - (b * b - 4 * a * c) := by ring
    have h5 : 0 < 4 * a * (a * τ ^ 2 + b * τ + c) := by rw [h4]; nlinarith [mul_self_nonneg (2 * a * τ + b)]
    have h6 : a * τ ^ 2 + b * τ + c < 0 := by
      by_contra h7
      exact absurd (mul_nonpos_of_nonpos_of_nonneg (by linarith : 4 * a ≤ 0) (not_lt.1 h7)) (not_le.2 h5)
    exact ⟨h6.le, fun _ => h6⟩

/-- The discriminant for the cylinder is not a small negative number. -/
def CylinderNotGrazing (w : Cylinder) (s : Sphere) : Prop :=
  let dP := perp w.direction (s.position - w.position)
  let dV := perp w.direction s.velocity
  let a := dot dV dV - s.growthRate ^ 2
  let b := 2 * (dot dV dP + (w.radius - s.radius) * s.growthRate)
  let c := dot dP dP - (w.radius - s.radius) ^ 2
  b * b - 4 * a * c ≤ -(1 / 10 ^ 11) ∨ 0 ≤ b * b - 4 * a * c

/-- For a sphere inside the cylinder the predicted time is the first contact; if none is returned it stays inside.
(Missing: discriminants in the tolerated window of small negative values.) -/
theorem C53_cylinder_partial (w : Cylinder) (s : Sphere) (hs : s.Synced) (hr : 0 ≤ s.radius)
    (hin : cylinderExcess w s s.timeOfLastUpdate ≤ 0) (hgraze : CylinderNotGrazing w s) :
    ∃ r, predictCylinder w s = .ok r ∧
      (∀ t, r = some t → s.timeOfLastUpdate ≤ t ∧ cylinderExcess w s t = 0 ∧
        ∀ τ, s.timeOfLastUpdate ≤ τ → τ < t → cylinderExcess w s τ ≤ 0 ∧
          (cylinderExcess w s s.timeOfLastUpdate < 0 → cylinderExcess w s τ < 0)) ∧
      (r = none → ∀ τ, s.timeOfLastUpdate ≤ τ → cylinderExcess w s τ ≤ 0 ∧
        (cylinderExcess w s s.timeOfLastUpdate < 0 → cylinderExcess w s τ < 0)) := by
  have hq := cylinderExcess_quadratic w s hs
  simp only [predictCylinder, CylinderNotGrazing] at hgraze ⊢
  have hc := hq 0
  dsimp only at hq hc
  rw [add_zero] at hc
  generalize perp w.direction (s.position - w.position) = dP at *
  generalize perp w.direction s.velocity = dV at *
  rw [show dot dV dV - s.growthRate ^ 2 = dot dV dV - -s.growthRate * -s.growthRate by ring,
    show dot dV dP + (w.radius - s.radius) * s.growthRate = dot dV dP - (w.radius - s.radius) * -s.growthRate by ring,
    show dot dP dP - (w.radius - s.radius) ^ 2 = dot dP dP - (w.radius - s.radius) * (w.radius - s.radius) by ring]
    at hgraze
  generalize dot dV dV - -s.growthRate * -s.growthRate = a at *
  generalize 2 * (dot dV dP - (w.radius - s.radius) * -s.growthRate) = b at *
  generalize dot dP dP - (w.radius - s.radius) * (w.radius - s.radius) = c at *
  have hc' : cylinderExcess w s s.timeOfLastUpdate = c := by rw [hc]; ring
  have hshift : ∀ τ, cylinderExcess w s τ =
      a * (τ - s.timeOfLastUpdate) ^ 2 + b * (τ - s.timeOfLastUpdate) + c := by
    intro τ
    rw [← hq (τ - s.timeOfLastUpdate)]
    congr 1
    ring
  rw [hc'] at hin ⊢
  rw [if_neg (by
    rw [not_lt]
    have : 0 ≤ 2 / 10 ^ 10 * s.radius := by positivity
    linarith)]
  refine ⟨_, rfl, ?_, ?_⟩
  · intro t ht
    rw [Option.map_eq_some_iff] at ht
    obtain ⟨t0, ht0, rfl⟩ := ht
    have hd : 0 ≤ b * b - 4 * a * c := by
      rcases hgraze with hg | hg
      · exfalso
        simp only [cylinderRoot] at ht0
        rw [if_neg (not_lt.2 hg)] at ht0
        cases ht0
      · exact hg
    obtain ⟨r1, r2, r3⟩ := cylinderRoot_some hin hd ht0
    refine ⟨by linarith, ?_, ?_⟩
    · rw [hshift, add_sub_cancel_left]
      exact r2
    · intro τ hτ1 hτ2
      rw [hshift]
      exact r3 _ (by linarith) (by linarith)
  · intro hn τ hτ
    rw [Option.map_eq_none_iff] at hn
    rw [hshift]
    exact cylinderRoot_none hin hn _ (by linarith)

/-- Until the predicted contact the sphere fits into the cylinder. -/
theorem C53_cylinder_fits_partial (w : Cylinder) (s : Sphere) (hs : s.Synced) (hr : 0 ≤ s.radius)
    (hg : 0 ≤ s.growthRate) (hfit : s.radius ≤ w.radius)
    (hin : cylinderExcess w s s.timeOfLastUpdate < 0) (hgraze : CylinderNotGrazing w s) (t : ℝ)
    (h : predictCylinder w s = .ok (some t)) : (s.moveAndGrow t).radius ≤ w.radius := by
  obtain ⟨r, r1, r2, -⟩ := C53_cylinder_partial w s hs hr hin.le hgraze
  rw [h] at r1
  obtain ⟨h1, -, h3⟩ := r2 t (Res.ok.inj r1).symm
  by_contra hc
  rw [not_le] at hc
  have hrad : ∀ τ, (s.moveAndGrow τ).radius = s.radius + s.growthRate * (τ - s.timeOfLastUpdate) := by
    intro τ
    simp only [Sphere.Synced] at hs
    simp only [Sphere.moveAndGrow]
    linarith
  rw [hrad] at hc
  have hg0 : 0 < s.growthRate := by
    rcases hg.lt_or_eq with h4 | h4
    · exact h4
    · rw [← h4] at hc
      linarith
  have h5 := h3 (s.timeOfLastUpdate + (w.radius - s.radius) / s.growthRate)
    (by linarith [div_nonneg (by linarith : 0 ≤ w.radius - s.radius) hg])
    (by
      have : (w.radius - s.radius) / s.growthRate < t - s.timeOfLastUpdate := by
        rw [div_lt_iff₀ hg0]
        linarith
      linarith)
  have h6 := h5.2 hin
  unfold cylinderExcess at h6
  have h7 : w.radius - (s.moveAndGrow (s.timeOfLastUpdate + (w.radius - s.radius) / s.growthRate)).radius = 0 := by
    rw [hrad, add_sub_cancel_left, mul_div_cancel₀ _ hg0.ne']
    ring
  rw [h7] at h6
  have := dot_self_nonneg (perp w.direction ((s.moveAndGrow
    (s.timeOfLastUpdate + (w.radius - s.radius) / s.growthRate)).position - w.position))
  linarith

/-- A sphere of radius 1 on the axis of a cylinder of radius 5 with radial speed 2 reaches it after 2 units of time. -/
example : predictCylinder ⟨0, ![0, 0, 1], 5⟩ (Sphere.mk0 0 ![2, 0, 7] 1 0) = .ok (some 2) := by
  have hP : perp ![0, 0, 1] ((0 : V3) - 0) = 0 := by
    funext i; fin_cases i <;> simp [perp, dot]
  have hV : perp ![0, 0, 1] ![2, 0, 7] = ![2, 0, 0] := by
    funext i; fin_cases i <;> simp [perp, dot]
  have e1 : dot (![2, 0, 0] : V3) ![2, 0, 0] - -0 * -0 = 4 := by simp [dot]; norm_num
  have e2 : 2 * (dot (![2, 0, 0] : V3) 0 - (5 - 1) * -0) = 0 := by simp [dot]
  have e3 : dot (0 : V3) 0 - (5 - 1) * (5 - 1) = -16 := by simp [dot]; norm_num
  simp only [predictCylinder, Sphere.mk0, hP, hV, e1, e2, e3]
  simp only [cylinderRoot]
  rw [if_neg (by norm_num), if_pos (by norm_num), if_neg (by norm_num), if_pos (by norm_num), if_neg (by norm_num),
    show ((0 : ℝ) * 0 - 4 * 4 * -16) = 16 * 16 by norm_num, Real.sqrt_mul_self (by norm_num)]
  norm_num

/-- Overlapping with the cylinder is reported exactly if the squared distance of the centre from the axis exceeds the square of
the difference of the radii by more than the tolerance. -/
theorem C53_cylinder_throws (w : Cylinder) (s : Sphere) (hd : w.direction 0 ^ 2 + w.direction 1 ^ 2 + w.direction 2 ^ 2 = 1) :
    predictCylinder w s = .throw ↔
      (w.radius - s.radius) ^ 2 + 2 / 10 ^ 10 * s.radius <
        (s.position 0 - w.position 0) ^ 2 + (s.position 1 - w.position 1) ^ 2 + (s.position 2 - w.position 2) ^ 2 -
          ((s.position 0 - w.position 0) * w.direction 0 + (s.position 1 - w.position 1) * w.direction 1 +
            (s.position 2 - w.position 2) * w.direction 2) ^ 2 := by
  have hc : dot (perp w.direction (s.position - w.position)) (perp w.direction (s.position - w.position)) =
      (s.position 0 - w.position 0) ^ 2 + (s.position 1 - w.position 1) ^ 2 + (s.position 2 - w.position 2) ^ 2 -
          ((s.position 0 - w.position 0) * w.direction 0 + (s.position 1 - w.position 1) * w.direction 1 +
            (s.position 2 - w.position 2) * w.direction 2) ^ 2 := by
    simp only [dot, perp, Pi.sub_apply, Pi.smul_apply, smul_eq_mul]
    generalize s.position 0 - w.position 0 = x, s.position 1 - w.position 1 = y, s.position 2 - w.position 2 = z
    linear_combination (x * w.direction 0 + y * w.direction 1 + z * w.direction 2) ^ 2 * hd
  simp only [predictCylinder, hc]
  generalize (s.position 0 - w.position 0) ^ 2 + (s.position 1 - w.position 1) ^ 2 + (s.position 2 - w.position 2) ^ 2 -
    ((s.position 0 - w.position 0) * w.direction 0 + (s.position 1 - w.position 1) * w.direction 1 +
      (s.position 2 - w.position 2) * w.direction 2) ^ 2 = q
  constructor
  · intro h
    by_contra hn
    rw [if_neg (by nlinarith)] at h
    exact nomatch h
  · intro h
    rw [if_pos (by nlinarith)]

/-- A sphere of radius 1 at the distance 5 of the axis of a cylinder of radius 5 is reported, at the distance 4 it is not. -/
example : predictCylinder ⟨0, ![0, 0, 1], 5⟩ (Sphere.mk0 ![5, 0, 3] 0 1 0) = .throw ∧
    predictCylinder ⟨0, ![0, 0, 1], 5⟩ (Sphere.mk0 ![4, 0, 3] 0 1 0) ≠ .throw := by
  rw [ne_eq, C53_cylinder_throws _ _ (by simp), C53_cylinder_throws _ _ (by simp)]
  simp [Sphere.mk0]
  norm_num

/-- A sphere that is larger than the cylinder is not reported: only the square of the difference of the radii is used. -/
theorem C53_cylinder_too_large_counterexample : ∃ (w : Cylinder) (s : Sphere), s.Synced ∧ 0 < w.radius ∧
    w.radius < s.radius ∧ predictCylinder w s ≠ .throw := by
  refine ⟨⟨0, ![0, 0, 1], 5⟩, Sphere.mk0 0 0 6 0, by simp [Sphere.Synced, Sphere.mk0], by norm_num,
    by simp [Sphere.mk0]; norm_num, ?_⟩
  rw [ne_eq, C53_cylinder_throws _ _ (by simp)]
  simp [Sphere.mk0]
  norm_num

/-- A sphere sliding along the inside of a cylinder (contact, no radial velocity, no growth) is predicted to collide at
once, and the collision does not change its velocity: the simulation does not get on. -/
theorem C53_cylinder_sliding_counterexample : ∃ (w : Cylinder) (s : Sphere), s.Synced ∧ 0 < s.radius ∧
    predictCylinder w s = .ok (some s.timeOfLastUpdate) ∧ performCylinder w s = .ok s := by
  refine ⟨⟨0, ![0, 0, 1], 5⟩, Sphere.mk0 ![4, 0, 0] ![0, 1, 0] 1 0, C53_synced_new _ _ _ _, by simp [Sphere.mk0], ?_, ?_⟩
  · have hP : perp ![0, 0, 1] (![4, 0, 0] - 0 : V3) = ![4, 0, 0] := by
      funext i; fin_cases i <;> simp [perp, dot]
    have hV : perp ![0, 0, 1] ![0, 1, 0] = ![0, 1, 0] := by
      funext i; fin_cases i <;> simp [perp, dot]
    have e1 : dot (![0, 1, 0] : V3) ![0, 1, 0] - -0 * -0 = 1 := by simp [dot]
    have e2 : 2 * (dot (![0, 1, 0] : V3) ![4, 0, 0] - (5 - 1) * -0) = 0 := by simp [dot]
    have e3 : dot (![4, 0, 0] : V3) ![4, 0, 0] - (5 - 1) * (5 - 1) = 0 := by simp [dot]; norm_num
    simp only [predictCylinder, Sphere.mk0, hP, hV, e1, e2, e3]
    simp only [cylinderRoot]
    rw [if_neg (by norm_num), if_pos (by norm_num), if_neg (by norm_num), if_pos (by norm_num), if_neg (by norm_num)]
    norm_num
  · have hN : perp ![0, 0, 1] (0 - ![4, 0, 0] : V3) = ![-4, 0, 0] := by
      funext i; fin_cases i <;> simp [perp, dot]
    have hd : dot (![-4, 0, 0] : V3) ![-4, 0, 0] = 4 * 4 := by simp [dot]
    have hn : normalize (![-4, 0, 0] : V3) = ![-1, 0, 0] := by
      rw [normalize, hd, if_pos (by norm_num), Real.sqrt_mul_self (by norm_num)]
      funext i
      fin_cases i <;> norm_num
    simp only [performCylinder, Sphere.mk0, hN, hd, hn]
    rw [if_neg (by norm_num)]
    have : dot (![0, 1, 0] : V3) ![-1, 0, 0] = 0 := by simp [dot]
    simp [reflect, this]

end NuTo.Collision
