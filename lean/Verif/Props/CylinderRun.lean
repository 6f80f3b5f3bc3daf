import Verif.Model.CylinderRun
import Verif.Props.CollisionRun
import Mathlib.Topology.Order.IntermediateValue
import Mathlib.Topology.Algebra.Field

/-!
C82: collision simulations in cylinders.
-/

set_option linter.unusedSectionVars false

namespace NuTo.Collision

/-! ### The cylinder -/

/-- A cylinder specimen (`Specimen.cpp:53-60`), divided at least twice, in the same way in both directions of its section -/
structure Grid.CylValid (g : Grid ℝ) : Prop where
  valid : g.Valid
  round : g.upper 1 - g.lower 1 = g.upper 0 - g.lower 0
  same : g.divisions 1 = g.divisions 0
  two : 2 ≤ g.divisions 0

/-- Radius of the specimen -/
noncomputable def Grid.R (g : Grid ℝ) : ℝ := (g.upper 0 - g.lower 0) / 2

/-- Coordinates of the axis -/
noncomputable def Grid.axis (g : Grid ℝ) (i : Fin 3) : ℝ := g.lower i + g.R

/-- Squared distance from the axis -/
noncomputable def Grid.off (g : Grid ℝ) (x y : ℝ) : ℝ := (x - g.axis 0) ^ 2 + (y - g.axis 1) ^ 2

theorem cylinder_eq (g : Grid ℝ) :
    g.cylinder = ⟨![g.axis 0, g.axis 1, g.lower 2 + g.length 2], ![0, 0, 1], g.R⟩ := by
  have hn : normalize ![0, 0, 1] = ![0, 0, 1] := by
    have hd : dot ![0, 0, 1] ![0, 0, 1] = 1 := by simp [dot]
    unfold normalize
    rw [hd, if_pos one_pos, Real.sqrt_one, div_one, one_smul]
  simp only [Grid.cylinder, Cylinder.mk0, hn, Grid.axis, Grid.R, Grid.length]

theorem perp_z (v : V3) : dot (perp ![0, 0, 1] v) (perp ![0, 0, 1] v) = v 0 ^ 2 + v 1 ^ 2 := by
  simp [dot, perp]; ring

theorem inside_point (g : Grid ℝ) (c : V3) :
    g.cylinder.IsInside (Sphere.mk0 c 0 0 0) ↔ g.off (c 0) (c 1) < g.R ^ 2 := by
  rw [cylinder_eq, Cylinder.IsInside]
  simp only [perp_z, Sphere.mk0, Grid.off]
  simp [pow_two]

theorem excess_eq (g : Grid ℝ) (s : Sphere) (τ : ℝ) :
    cylinderExcess g.cylinder s τ = g.off ((s.moveAndGrow τ).position 0) ((s.moveAndGrow τ).position 1) -
      (g.R - (s.moveAndGrow τ).radius) ^ 2 := by
  rw [cylinder_eq, cylinderExcess]
  simp only [perp_z, Grid.off]
  simp

/-! ### Corners of sub boxes -/

theorem smallest_four {a b m m' : ℝ} (h1 : a ≤ b) (h2 : a ≤ m) (h3 : a ≤ m') :
    smallest [a, b, m, m'] = some a ∧ smallest [m, m', a, b] = some a := by
  constructor
  · simp [smallest, h1, h2, h3]
  · simp only [smallest, List.foldl_cons, List.foldl_nil]
    congr 1
    rw [min_eq_right (le_min h2 h3), min_eq_left h1]

theorem largest_four {a b m m' : ℝ} (h1 : a ≤ b) (h2 : m ≤ b) (h3 : m' ≤ b) :
    largest [a, b, m, m'] = some b ∧ largest [m, m', a, b] = some b := by
  constructor
  · simp [largest, h1, h2, h3]
  · simp only [largest, List.foldl_cons, List.foldl_nil]
    congr 1
    rw [max_eq_right]
    exact max_le (max_le h2 h3) h1

/-- The corner of sub box `c` is inside the cylinder. -/
def Grid.CornerIn (g : Grid ℝ) (c : Fin 3 → ℤ) (a b : Bool) : Prop :=
  g.off (g.plane 0 (c 0 + if a then 1 else 0)) (g.plane 1 (c 1 + if b then 1 else 0)) < g.R ^ 2

theorem corners_eq {g : Grid ℝ} (hg : g.Valid) {c : Fin 3 → ℤ} (hc : g.Mem c) :
    ∃ z, xyCorners (xyWalls (g.buildSubBoxes (g.getBoxIndex c))) =
      .ok [![g.plane 0 (c 0), g.plane 1 (c 1), z], ![g.plane 0 (c 0), g.plane 1 (c 1 + 1), z],
        ![g.plane 0 (c 0 + 1), g.plane 1 (c 1), z], ![g.plane 0 (c 0 + 1), g.plane 1 (c 1 + 1), z]] := by
  rw [buildSubBoxes_eq hc]
  have hw : xyWalls (wallRows.map (g.wall c)) =
      [g.wall c (![-1, 0, 0], ![0, 1 / 2, 1 / 2]), g.wall c (![1, 0, 0], ![1, 1 / 2, 1 / 2]),
        g.wall c (![0, -1, 0], ![1 / 2, 0, 1 / 2]), g.wall c (![0, 1, 0], ![1 / 2, 1, 1 / 2])] := by
    simp [xyWalls, wallRows, Grid.wall, List.filter]
  rw [hw]
  have e0 : ∀ i, (0 + (c i : ℝ)) * g.subLength i + g.lower i = g.plane i (c i) := by
    intro i; simp only [Grid.plane, Grid.subLength]; ring
  have e1 : ∀ i, (1 + (c i : ℝ)) * g.subLength i + g.lower i = g.plane i (c i + 1) := by
    intro i; simp only [Grid.plane, Grid.subLength]; push_cast; ring
  have hpos : ∀ i, 0 < g.subLength i := subLength_pos hg
  have hm1 : ∀ i, g.plane i (c i) ≤ (1 / 2 + (c i : ℝ)) * g.subLength i + g.lower i := by
    intro i; rw [← e0 i]; have := hpos i; nlinarith
  have hm2 : ∀ i, (1 / 2 + (c i : ℝ)) * g.subLength i + g.lower i ≤ g.plane i (c i + 1) := by
    intro i; rw [← e1 i]; have := hpos i; nlinarith
  have hm3 : ∀ i, g.plane i (c i) ≤ g.plane i (c i + 1) := fun i => (hm1 i).trans (hm2 i)
  have p0 : [g.wall c (![-1, 0, 0], ![0, 1 / 2, 1 / 2]), g.wall c (![1, 0, 0], ![1, 1 / 2, 1 / 2]),
        g.wall c (![0, -1, 0], ![1 / 2, 0, 1 / 2]), g.wall c (![0, 1, 0], ![1 / 2, 1, 1 / 2])].map (·.position 0) =
      [g.plane 0 (c 0), g.plane 0 (c 0 + 1), (1 / 2 + (c 0 : ℝ)) * g.subLength 0 + g.lower 0,
        (1 / 2 + (c 0 : ℝ)) * g.subLength 0 + g.lower 0] := by
    rw [← e0 0, ← e1 0]; simp [Grid.wall]
  have p1 : [g.wall c (![-1, 0, 0], ![0, 1 / 2, 1 / 2]), g.wall c (![1, 0, 0], ![1, 1 / 2, 1 / 2]),
        g.wall c (![0, -1, 0], ![1 / 2, 0, 1 / 2]), g.wall c (![0, 1, 0], ![1 / 2, 1, 1 / 2])].map (·.position 1) =
      [(1 / 2 + (c 1 : ℝ)) * g.subLength 1 + g.lower 1, (1 / 2 + (c 1 : ℝ)) * g.subLength 1 + g.lower 1,
        g.plane 1 (c 1), g.plane 1 (c 1 + 1)] := by
    rw [← e0 1, ← e1 1]; simp [Grid.wall]
  unfold xyCorners
  rw [p0, p1, (smallest_four (hm3 0) (hm1 0) (hm1 0)).1, (smallest_four (hm3 1) (hm1 1) (hm1 1)).2,
    (largest_four (hm3 0) (hm2 0) (hm2 0)).1, (largest_four (hm3 1) (hm2 1) (hm2 1)).2]
  exact ⟨_, rfl⟩

theorem hasCylinder_iff {g : Grid ℝ} (hg : g.Valid) {c : Fin 3 → ℤ} (hc : g.Mem c) :
    g.HasCylinder (g.getBoxIndex c) ↔ (∃ a b, g.CornerIn c a b) ∧ ∃ a b, ¬ g.CornerIn c a b := by
  classical
  obtain ⟨z, hz⟩ := corners_eq hg hc
  unfold Grid.HasCylinder Grid.nInside
  rw [hz, Res.bind_ok']
  simp only [inside_point, List.filter_cons, List.filter_nil, Bool.exists_bool, Grid.CornerIn]
  simp only [Res.ok.injEq, exists_eq_left', Bool.false_eq_true, if_false, if_true, add_zero, Matrix.cons_val_zero,
    Matrix.cons_val_one]
  by_cases h1 : g.off (g.plane 0 (c 0)) (g.plane 1 (c 1)) < g.R ^ 2 <;>
  by_cases h2 : g.off (g.plane 0 (c 0)) (g.plane 1 (c 1 + 1)) < g.R ^ 2 <;>
  by_cases h3 : g.off (g.plane 0 (c 0 + 1)) (g.plane 1 (c 1)) < g.R ^ 2 <;>
  by_cases h4 : g.off (g.plane 0 (c 0 + 1)) (g.plane 1 (c 1 + 1)) < g.R ^ 2 <;>
  simp [h1, h2, h3, h4]

/-- One direction: an end of the slab is not farther from the axis than `x`, or next to the axis. -/
theorem near_end {n k : ℤ} {h x : ℝ} (hh : 0 < h) (h1 : (2 * k - n : ℤ) * h ≤ x) (h2 : x ≤ (2 * k + 2 - n : ℤ) * h) :
    ∃ a : Bool, ((2 * (k + if a then 1 else 0) - n : ℤ) * h) ^ 2 ≤ x ^ 2 ∨
      (2 * (k + if a then 1 else 0) - n) ^ 2 = 1 := by
  rcases lt_trichotomy (2 * k - n) (-1) with hk | hk | hk
  · refine ⟨true, Or.inl ?_⟩
    have : ((2 * k + 2 - n : ℤ) : ℝ) * h ≤ 0 :=
      mul_nonpos_of_nonpos_of_nonneg (by exact_mod_cast (by omega : 2 * k + 2 - n ≤ 0)) hh.le
    have e : (2 * (k + if true = true then 1 else 0) - n : ℤ) = 2 * k + 2 - n := by simp; ring
    rw [e]
    nlinarith
  · exact ⟨false, Or.inr (by simp [hk])⟩
  · refine ⟨false, Or.inl ?_⟩
    have : 0 ≤ ((2 * k - n : ℤ) : ℝ) * h :=
      mul_nonneg (by exact_mod_cast (by omega : 0 ≤ 2 * k - n)) hh.le
    have e : (2 * (k + if false = true then 1 else 0) - n : ℤ) = 2 * k - n := by simp
    rw [e]
    nlinarith

theorem near_corner {n k l : ℤ} (hn : 2 ≤ n) {h x y : ℝ} (hh : 0 < h)
    (hx1 : (2 * k - n : ℤ) * h ≤ x) (hx2 : x ≤ (2 * k + 2 - n : ℤ) * h)
    (hy1 : (2 * l - n : ℤ) * h ≤ y) (hy2 : y ≤ (2 * l + 2 - n : ℤ) * h) (hxy : x ^ 2 + y ^ 2 < (n * h) ^ 2) :
    ∃ a b : Bool, ((2 * (k + if a then 1 else 0) - n : ℤ) * h) ^ 2 +
      ((2 * (l + if b then 1 else 0) - n : ℤ) * h) ^ 2 < (n * h) ^ 2 := by
  obtain ⟨a, ha⟩ := near_end hh hx1 hx2
  obtain ⟨b, hb⟩ := near_end hh hy1 hy2
  refine ⟨a, b, ?_⟩
  generalize hp : k + (if a = true then 1 else 0) = p at *
  generalize hq : l + (if b = true then 1 else 0) = q at *
  -- a coordinate inside has a square of at most (n - 2)^2
  have small : ∀ r : ℤ, ((2 * r - n : ℤ) * h) ^ 2 < (n * h) ^ 2 → (2 * r - n) ^ 2 ≤ (n - 2) ^ 2 := by
    intro r hr
    rw [mul_pow, mul_pow] at hr
    have h3 : ((2 * r - n : ℤ) : ℝ) ^ 2 < (n : ℝ) ^ 2 := lt_of_mul_lt_mul_right hr (by positivity)
    have h4 : (2 * r - n) ^ 2 < n ^ 2 := by exact_mod_cast h3
    have h5 := abs_lt_of_sq_lt_sq h4 (by omega)
    rw [abs_lt] at h5
    have h6 : |2 * r - n| ≤ |n - 2| := by
      rw [abs_of_nonneg (by omega : 0 ≤ n - 2), abs_le]
      omega
    exact sq_le_sq.2 h6
  have fin : ∀ u v : ℤ, u ^ 2 + v ^ 2 < n ^ 2 → ((u : ℝ) * h) ^ 2 + ((v : ℝ) * h) ^ 2 < (n * h) ^ 2 := by
    intro u v huv
    have : (u : ℝ) ^ 2 + (v : ℝ) ^ 2 < (n : ℝ) ^ 2 := by exact_mod_cast huv
    have hh2 : 0 < h ^ 2 := by positivity
    nlinarith
  rcases ha with ha | ha <;> rcases hb with hb | hb
  · linarith
  · have := small p (by nlinarith)
    exact fin _ _ (by rw [hb]; nlinarith)
  · have := small q (by nlinarith)
    exact fin _ _ (by rw [ha]; nlinarith)
  · exact fin _ _ (by rw [ha, hb]; nlinarith)

theorem R_pos {g : Grid ℝ} (hg : g.Valid) : 0 < g.R := by
  have := hg.extent 0
  unfold Grid.R; linarith

theorem plane_axis {g : Grid ℝ} (hg : g.CylValid) (i : Fin 3) (hi : i ≠ 2) (k : ℤ) :
    g.plane i k - g.axis i = ((2 * k - g.divisions 0 : ℤ) : ℝ) * (g.R / g.divisions 0) := by
  have hd : g.divisions i = g.divisions 0 := by
    fin_cases i
    · rfl
    · exact hg.same
    · exact absurd rfl hi
  have hr : g.upper i - g.lower i = g.upper 0 - g.lower 0 := by
    fin_cases i
    · rfl
    · exact hg.round
    · exact absurd rfl hi
  have hn : (g.divisions 0 : ℝ) ≠ 0 := by
    have := hg.two
    exact_mod_cast (by omega : g.divisions 0 ≠ 0)
  unfold Grid.plane Grid.axis Grid.R
  rw [hd, hr]
  push_cast
  field_simp
  ring

theorem axis_upper {g : Grid ℝ} (hg : g.CylValid) (i : Fin 3) (hi : i ≠ 2) : g.upper i = g.axis i + g.R := by
  have hr : g.upper i - g.lower i = g.upper 0 - g.lower 0 := by
    fin_cases i
    · rfl
    · exact hg.round
    · exact absurd rfl hi
  unfold Grid.axis Grid.R
  linarith

/-- A sub box gets the cylinder as a wall exactly if its section has points inside the circle and points that are not
inside. -/
theorem C82_walls_partial (g : Grid ℝ) (hg : g.CylValid) (c : Fin 3 → ℤ) (hc : g.Mem c) :
    g.HasCylinder (g.getBoxIndex c) ↔
      (∃ x y, g.plane 0 (c 0) ≤ x ∧ x ≤ g.plane 0 (c 0 + 1) ∧ g.plane 1 (c 1) ≤ y ∧ y ≤ g.plane 1 (c 1 + 1) ∧
        (x - (g.lower 0 + g.upper 0) / 2) ^ 2 + (y - (g.lower 1 + g.upper 1) / 2) ^ 2 <
          ((g.upper 0 - g.lower 0) / 2) ^ 2) ∧
      (∃ x y, g.plane 0 (c 0) ≤ x ∧ x ≤ g.plane 0 (c 0 + 1) ∧ g.plane 1 (c 1) ≤ y ∧ y ≤ g.plane 1 (c 1 + 1) ∧
        ((g.upper 0 - g.lower 0) / 2) ^ 2 ≤
          (x - (g.lower 0 + g.upper 0) / 2) ^ 2 + (y - (g.lower 1 + g.upper 1) / 2) ^ 2) := by
  have hv := hg.valid
  have m0 : (g.lower 0 + g.upper 0) / 2 = g.axis 0 := by unfold Grid.axis Grid.R; ring
  have m1 : (g.lower 1 + g.upper 1) / 2 = g.axis 1 := by
    have := hg.round
    unfold Grid.axis Grid.R; linarith
  rw [m0, m1]
  change _ ↔ (∃ x y, _ ∧ _ ∧ _ ∧ _ ∧ g.off x y < g.R ^ 2) ∧ (∃ x y, _ ∧ _ ∧ _ ∧ _ ∧ g.R ^ 2 ≤ g.off x y)
  have hn := hg.two
  have hn' : (0 : ℝ) < g.divisions 0 := by exact_mod_cast (by omega : 0 < g.divisions 0)
  have hh : 0 < g.R / g.divisions 0 := div_pos (R_pos hv) hn'
  have hR : g.R = g.divisions 0 * (g.R / g.divisions 0) := by field_simp
  have hle : ∀ i (a : Bool), g.plane i (c i) ≤ g.plane i (c i + if a then 1 else 0) ∧
      g.plane i (c i + if a then 1 else 0) ≤ g.plane i (c i + 1) := by
    intro i a
    rw [plane_le hv, plane_le hv]
    cases a <;> simp
  rw [hasCylinder_iff hv hc]
  constructor
  · rintro ⟨⟨a, b, h⟩, a', b', h'⟩
    exact ⟨⟨_, _, (hle 0 a).1, (hle 0 a).2, (hle 1 b).1, (hle 1 b).2, h⟩,
      ⟨_, _, (hle 0 a').1, (hle 0 a').2, (hle 1 b').1, (hle 1 b').2, not_lt.1 h'⟩⟩
  · rintro ⟨⟨x, y, h1, h2, h3, h4, h5⟩, x', y', k1, k2, k3, k4, k5⟩
    constructor
    · have p1 := plane_axis hg 0 (by decide) (c 0)
      have p2 := plane_axis hg 0 (by decide) (c 0 + 1)
      have p3 := plane_axis hg 1 (by decide) (c 1)
      have p4 := plane_axis hg 1 (by decide) (c 1 + 1)
      rw [show 2 * (c 0 + 1) - g.divisions 0 = 2 * c 0 + 2 - g.divisions 0 by ring] at p2
      rw [show 2 * (c 1 + 1) - g.divisions 0 = 2 * c 1 + 2 - g.divisions 0 by ring] at p4
      obtain ⟨a, b, hab⟩ := near_corner hn hh (x := x - g.axis 0) (y := y - g.axis 1) (k := c 0) (l := c 1)
        (by rw [← p1]; linarith) (by rw [← p2]; linarith) (by rw [← p3]; linarith) (by rw [← p4]; linarith)
        (by rw [← hR]; exact h5)
      refine ⟨a, b, ?_⟩
      unfold Grid.CornerIn Grid.off
      rw [plane_axis hg 0 (by decide), plane_axis hg 1 (by decide)]
      rw [← hR] at hab
      exact hab
    · by_contra hall
      push Not at hall
      have far : ∀ i (z : ℝ), g.plane i (c i) ≤ z → z ≤ g.plane i (c i + 1) →
          ∃ a : Bool, (z - g.axis i) ^ 2 ≤ (g.plane i (c i + if a then 1 else 0) - g.axis i) ^ 2 := by
        intro i z hz1 hz2
        rcases le_total (g.axis i) z with h | h
        · exact ⟨true, by simp only [if_true]; nlinarith⟩
        · exact ⟨false, by simp only [Bool.false_eq_true, if_false, add_zero]; nlinarith⟩
      obtain ⟨a, ha⟩ := far 0 x' k1 k2
      obtain ⟨b, hb⟩ := far 1 y' k3 k4
      have := hall a b
      unfold Grid.CornerIn Grid.off at this
      unfold Grid.off at k5
      linarith

/-! ### One particle -/

/-- The particle `k` alone -/
def Run.single (S : Run) (k : ℕ) : Run where
  n := 1
  particle := fun _ => S.particle k
  registration :=
    { spheres := fun b => if b ∈ S.registration.boxes k then [0] else []
      boxes := fun j => if j = 0 then S.registration.boxes k else [] }
  time := S.time

theorem single_predict (S : Run) (k : ℕ) (w : BoxWall ℝ) :
    (S.single k).predict (.wall 0 w) = S.predict (.wall k w) := by
  simp [Run.predict, Run.single, Registration.inOutsideBox]

theorem single_inv {g : Grid ℝ} {S : Run} (hS : S.Inv g) {k : ℕ} (hk : k < S.n) : (S.single k).Inv g := by
  have h0 : ∀ j, j < (S.single k).n → j = 0 := fun j hj => by simp only [Run.single] at hj; omega
  refine ⟨fun j hj => hS.synced k hk, fun j hj => hS.growth k hk, fun j hj => hS.radius k hk,
    fun j hj => hS.past k hk, fun j hj i => hS.inside k hk i, ?_, ?_, ?_, ?_, ?_⟩
  · intro j hj c hc ht
    rw [h0 j hj]
    simp only [Run.single, if_true]
    exact hS.cover k hk c hc ht
  · intro j hj l hl hjl
    rw [h0 j hj, h0 l hl] at hjl
    exact absurd rfl hjl
  · intro j hj b hb
    rw [h0 j hj] at hb
    simp only [Run.single, if_true] at hb
    exact hS.grid k hk b hb
  · intro j b
    simp only [Run.single]
    by_cases hj : j = 0
    · subst hj
      by_cases hb : b ∈ S.registration.boxes k <;> simp [hb]
    · by_cases hb : b ∈ S.registration.boxes k <;> simp [hb, hj]
  · intro e t he hp
    cases e with
    | wall j w =>
      obtain ⟨hj, b, hb, hw⟩ := he
      have := h0 j hj
      subst this
      rw [single_predict] at hp
      simp only [Run.single, if_true] at hb
      exact hS.upcoming (.wall k w) t ⟨hk, b, hb, hw⟩ hp
    | pair j l =>
      obtain ⟨hj, hl, hjl, -⟩ := he
      rw [h0 j hj, h0 l hl] at hjl
      exact absurd rfl hjl

/-- After a predicted collision the particle would be beyond the wall. -/
theorem wall_after (g : Grid ℝ) (c : Fin 3 → ℤ) (a : Fin 3) (up : Bool) (s : Sphere) (hs : s.Synced) {t' t : ℝ}
    (h : predictWall (g.face c a up).toWall s = .ok (some t')) (ht : t' < t) :
    wallDistance (g.face c a up).toWall s t < 0 := by
  have hd := distances_eq (g.face c a up).position _ (face_proper g c a up) s
  have hw : Wall.mk0 (g.face c a up).position (fun i => ((g.face c a up).direction i : ℝ)) =
    (g.face c a up).toWall := rfl
  rw [hw] at hd
  unfold predictWall at h
  rw [hd, Res.bind_ok', dot_comm s.velocity, face_dot, face_dot] at h
  rw [face_distance_linear g c a up s hs]
  have hp : (s.position - (g.face c a up).position) a = s.position a - g.plane a (if up then c a + 1 else c a) := by
    rw [Pi.sub_apply]
    have : (g.face c a up).position a = _ := face_position g c a up
    rw [this]
  rw [hp] at h
  have h := Res.ok.inj h
  rw [Option.map_eq_some_iff] at h
  obtain ⟨t0, h0, rfl⟩ := h
  simp only at h0
  generalize (if up then -1 else (1 : ℝ)) * (s.position a - g.plane a (if up then c a + 1 else c a)) - s.radius = x at *
  generalize (if up then -1 else (1 : ℝ)) * s.velocity a - s.growthRate = v at *
  unfold wallTime at h0
  split_ifs at h0 with h1 h2 h3
  have h0 := Option.some.inj h0
  have hv : v < 0 := by
    by_contra hv
    rw [not_lt] at hv
    have hv' : 0 < v := lt_of_le_of_ne hv (Ne.symm h2)
    have hx : x ≤ 0 := by
      have := mul_nonneg h3 hv'.le
      rw [div_mul_cancel₀ _ h2] at this
      linarith
    exact h1 ⟨lt_of_le_of_lt hx (by norm_num), hv⟩
  have e : x = -(t0 * v) := by rw [← h0]; field_simp
  rw [e]
  nlinarith

/-- The particle lies in the cylinder (as far as its section is concerned). -/
structure Grid.InShell (g : Grid ℝ) (s : Sphere) (τ : ℝ) : Prop where
  fits : (s.moveAndGrow τ).radius ≤ g.R
  near : g.off ((s.moveAndGrow τ).position 0) ((s.moveAndGrow τ).position 1) ≤ (g.R - (s.moveAndGrow τ).radius) ^ 2

theorem shell_box {g : Grid ℝ} (hg : g.CylValid) {s : Sphere} {τ : ℝ} (h : g.InShell s τ) (i : Fin 3) (hi : i ≠ 2) :
    g.lower i ≤ s.lo i τ ∧ s.hi i τ ≤ g.upper i := by
  have hle : ((s.moveAndGrow τ).position i - g.axis i) ^ 2 ≤ (g.R - (s.moveAndGrow τ).radius) ^ 2 := by
    refine le_trans ?_ h.near
    unfold Grid.off
    fin_cases i
    · simp only [Fin.zero_eta, Fin.isValue]; nlinarith [sq_nonneg ((s.moveAndGrow τ).position 1 - g.axis 1)]
    · simp only [Fin.mk_one, Fin.isValue]; nlinarith [sq_nonneg ((s.moveAndGrow τ).position 0 - g.axis 0)]
    · exact absurd rfl hi
  have := abs_le_of_sq_le_sq hle (by linarith [h.fits])
  rw [abs_le] at this
  rw [axis_upper hg i hi]
  unfold Sphere.lo Sphere.hi
  have e : g.axis i = g.lower i + g.R := rfl
  constructor <;> linarith

/-- A deleted side wall would not have had an event before, if the particle is inside the bounding box later. -/
theorem side_quiet {g : Grid ℝ} (hg : g.Valid) {s : Sphere} (hs : s.Synced) {c : Fin 3 → ℤ} (hc : g.Mem c) {a : Fin 3}
    {up : Bool} (hph : (g.face c a up).physical = true) {t t' : ℝ}
    (hin : g.lower a ≤ s.lo a t ∧ s.hi a t ≤ g.upper a)
    (hp : predictWall (g.face c a up).toWall s = .ok (some t')) : t ≤ t' := by
  by_contra hlt
  rw [not_le] at hlt
  have h1 := wall_after g c a up s hs hp hlt
  rw [face_distance] at h1
  rw [face_physical hg hc, neighbour_mem hc] at hph
  have hca := hc a
  cases up
  · simp only [Bool.false_eq_true, if_false] at h1 hph
    have : c a = 0 := by omega
    rw [this, plane_zero] at h1
    linarith
  · simp only [if_true] at h1 hph
    have : c a + 1 = g.divisions a := by omega
    rw [this, plane_last hg] at h1
    linarith

/-- If no event is predicted before `t` and the particle is in the cylinder at `t`, then none would be predicted in the
bounding box either. -/
theorem wall_quiet {g : Grid ℝ} (hg : g.CylValid) {S : Run} (hS : S.Inv g) {t : ℝ} (hq : S.CylQuiet g t) {k : ℕ}
    (hk : k < S.n) (hin : ∀ i, i ≠ 2 → g.lower i ≤ (S.particle k).lo i t ∧ (S.particle k).hi i t ≤ g.upper i)
    {w : BoxWall ℝ} {t' : ℝ} (hc : S.Considered g (.wall k w)) (hp : S.predict (.wall k w) = .ok (some t')) : t ≤ t' := by
  obtain ⟨-, b, hb, hw⟩ := hc
  by_cases hside : w.physical = true ∧ w.direction 2 = 0
  · obtain ⟨c, hc, rfl⟩ := hS.grid k hk b hb
    obtain ⟨a, up, rfl⟩ := (mem_walls hc w).1 hw
    have ha : a ≠ 2 := by
      rintro rfl
      have := hside.2
      rw [face_direction, if_pos rfl] at this
      cases up <;> simp at this
    simp only [Run.predict, hside.1, if_true] at hp
    exact side_quiet hg.valid (hS.synced k hk) hc hside.1 (hin a ha) hp
  · refine hq (.plain (.wall k w)) t' ⟨hk, b, hb, ?_⟩ hp
    unfold Grid.cylinderWalls
    rw [List.mem_filter]
    refine ⟨hw, ?_⟩
    rw [Bool.not_eq_true', Bool.and_eq_false_iff]
    rw [not_and_or] at hside
    rcases hside with h | h
    · left; simpa using h
    · right; simpa using h

theorem single_quiet {g : Grid ℝ} (hg : g.CylValid) {S : Run} (hS : S.Inv g) {t : ℝ} (hq : S.CylQuiet g t) {k : ℕ}
    (hk : k < S.n) (hin : g.InShell (S.particle k) t) : (S.single k).Quiet g t := by
  intro e t' he hp
  have h0 : ∀ j, j < (S.single k).n → j = 0 := fun j hj => by simp only [Run.single] at hj; omega
  cases e with
  | wall j w =>
    obtain ⟨hj, b, hb, hw⟩ := he
    have := h0 j hj
    subst this
    rw [single_predict] at hp
    simp only [Run.single, if_true] at hb
    exact wall_quiet hg hS hq hk (fun i hi => shell_box hg hin i hi) ⟨hk, b, hb, hw⟩ hp
  | pair j l =>
    obtain ⟨hj, hl, hjl, -⟩ := he
    rw [h0 j hj, h0 l hl] at hjl
    exact absurd rfl hjl

/-- The slab in which a particle touches the shell, seen from inside -/
theorem touch_slab {g : Grid ℝ} (hg : g.CylValid) (i : Fin 3) (hi : i ≠ 2) {u p r : ℝ} (hu : |u| ≤ 1) (hr : 0 < r)
    (hp : p - g.axis i = (g.R - r) * u) :
    ∃ k : ℤ, 0 ≤ k ∧ k < g.divisions i ∧ p - r < g.plane i (k + 1) ∧ g.plane i k < p + r ∧
      ∃ δ > 0, ∀ d, 0 ≤ d → d ≤ δ → g.plane i k ≤ g.axis i + (g.R - d) * u ∧
        g.axis i + (g.R - d) * u ≤ g.plane i (k + 1) := by
  have hv := hg.valid
  have hR := R_pos hv
  have hL := subLength_pos hv i
  have hup := axis_upper hg i hi
  have hlow : g.axis i = g.lower i + g.R := rfl
  rw [abs_le] at hu
  rcases lt_trichotomy u 0 with h | h | h
  · have hk1 : g.plane i ⌊(g.axis i + g.R * u - g.lower i) / g.subLength i⌋ ≤ g.axis i + g.R * u :=
      (le_floor_plane hv i _ _).1 le_rfl
    have hk2 : g.axis i + g.R * u < g.plane i (⌊(g.axis i + g.R * u - g.lower i) / g.subLength i⌋ + 1) :=
      (floor_plane_le hv i _ _).1 le_rfl
    have hk3 : 0 ≤ ⌊(g.axis i + g.R * u - g.lower i) / g.subLength i⌋ := by
      rw [le_floor_plane hv, plane_zero]; nlinarith
    generalize ⌊(g.axis i + g.R * u - g.lower i) / g.subLength i⌋ = k at *
    refine ⟨k, hk3, ?_, by nlinarith, by nlinarith, (g.plane i (k + 1) - (g.axis i + g.R * u)) / -u,
      div_pos (by linarith) (by linarith), fun d hd1 hd2 => ?_⟩
    · rw [← plane_lt hv i, plane_last hv]; nlinarith
    · rw [le_div_iff₀ (by linarith)] at hd2
      constructor <;> nlinarith
  · subst h
    have hk1 : g.plane i ⌊(g.axis i - g.lower i) / g.subLength i⌋ ≤ g.axis i := (le_floor_plane hv i _ _).1 le_rfl
    have hk2 : g.axis i < g.plane i (⌊(g.axis i - g.lower i) / g.subLength i⌋ + 1) :=
      (floor_plane_le hv i _ _).1 le_rfl
    have hk3 : 0 ≤ ⌊(g.axis i - g.lower i) / g.subLength i⌋ := by
      rw [le_floor_plane hv, plane_zero]; linarith
    generalize ⌊(g.axis i - g.lower i) / g.subLength i⌋ = k at *
    rw [mul_zero] at hp
    refine ⟨k, hk3, ?_, by linarith, by linarith, 1, one_pos, fun d hd1 hd2 => ?_⟩
    · rw [← plane_lt hv i, plane_last hv]; linarith
    · rw [mul_zero, add_zero]; exact ⟨hk1, hk2.le⟩
  · have hk1 : g.axis i + g.R * u ≤ g.plane i ⌈(g.axis i + g.R * u - g.lower i) / g.subLength i⌉ := by
      have := Int.le_ceil ((g.axis i + g.R * u - g.lower i) / g.subLength i)
      have hL' : 0 < g.subLength i := hL
      rw [div_le_iff₀ hL'] at this
      have e : (g.upper i - g.lower i) / (g.divisions i : ℝ) = g.subLength i := rfl
      unfold Grid.plane; rw [e]; linarith
    have hk2 : g.plane i (⌈(g.axis i + g.R * u - g.lower i) / g.subLength i⌉ - 1) < g.axis i + g.R * u := by
      have := Int.ceil_lt_add_one ((g.axis i + g.R * u - g.lower i) / g.subLength i)
      have hL' : 0 < g.subLength i := hL
      rw [← sub_lt_iff_lt_add, lt_div_iff₀ hL'] at this
      have e : (g.upper i - g.lower i) / (g.divisions i : ℝ) = g.subLength i := rfl
      unfold Grid.plane; rw [e]; push_cast; linarith
    generalize ⌈(g.axis i + g.R * u - g.lower i) / g.subLength i⌉ = m at *
    have hm : 0 < m := by
      rw [← plane_lt hv i, plane_zero]; nlinarith
    refine ⟨m - 1, by omega, ?_, ?_, by nlinarith, (g.axis i + g.R * u - g.plane i (m - 1)) / u,
      div_pos (by linarith) h, fun d hd1 hd2 => ?_⟩
    · rw [← plane_lt hv i, plane_last hv]; nlinarith
    · rw [sub_add_cancel]; nlinarith
    · rw [le_div_iff₀ h] at hd2
      rw [sub_add_cancel]
      constructor <;> nlinarith

/-- A particle that touches the shell is registered in a sub box that has the cylinder as a wall. -/
theorem touch_registered {g : Grid ℝ} (hg : g.CylValid) {S : Run} (hS : S.Inv g) {t : ℝ} (ht : S.time ≤ t)
    (hq : S.CylQuiet g t) {k : ℕ} (hk : k < S.n) (hin : g.InShell (S.particle k) t)
    (htouch : g.off (((S.particle k).moveAndGrow t).position 0) (((S.particle k).moveAndGrow t).position 1) =
      (g.R - ((S.particle k).moveAndGrow t).radius) ^ 2) :
    ∃ b ∈ S.registration.boxes k, g.HasCylinder b := by
  have hv := hg.valid
  have hI := single_inv hS hk
  have hQ := single_quiet hg hS hq hk hin
  have hr := radius_pos (hS.synced k hk) (hS.radius k hk) (hS.growth k hk) ((hS.past k hk).trans ht)
  have hz := inside_later hv hI ht hQ (k := 0) one_pos 2
  simp only [Run.single] at hz
  have hfit := hin.fits
  have hlo : ∀ i, (S.particle k).lo i t = ((S.particle k).moveAndGrow t).position i -
    ((S.particle k).moveAndGrow t).radius := fun i => rfl
  have hhi : ∀ i, (S.particle k).hi i t = ((S.particle k).moveAndGrow t).position i +
    ((S.particle k).moveAndGrow t).radius := fun i => rfl
  have hcov := cover_later hv hI ht hQ (k := 0) one_pos
  simp only [Run.single, if_true] at hcov
  unfold Grid.Touched at hcov
  simp only [hlo, hhi] at hcov hz
  generalize ((S.particle k).moveAndGrow t).position = P at *
  generalize ((S.particle k).moveAndGrow t).radius = r at *
  -- the direction of the contact
  obtain ⟨u, v, huv, hu, hv'⟩ : ∃ u v : ℝ, u ^ 2 + v ^ 2 = 1 ∧ P 0 - g.axis 0 = (g.R - r) * u ∧
      P 1 - g.axis 1 = (g.R - r) * v := by
    unfold Grid.off at htouch
    rcases hfit.lt_or_eq with h | h
    · have hne : g.R - r ≠ 0 := by linarith
      refine ⟨(P 0 - g.axis 0) / (g.R - r), (P 1 - g.axis 1) / (g.R - r), ?_, ?_, ?_⟩
      · rw [div_pow, div_pow, ← add_div, htouch, div_self (pow_ne_zero 2 hne)]
      · field_simp
      · field_simp
    · rw [← h, sub_self] at htouch
      have h0 : P 0 - g.axis 0 = 0 := by nlinarith [sq_nonneg (P 0 - g.axis 0), sq_nonneg (P 1 - g.axis 1)]
      have h1 : P 1 - g.axis 1 = 0 := by nlinarith [sq_nonneg (P 0 - g.axis 0), sq_nonneg (P 1 - g.axis 1)]
      exact ⟨1, 0, by norm_num, by rw [h0, h]; ring, by rw [h1]; ring⟩
  have hu1 : |u| ≤ 1 := abs_le_one_iff_mul_self_le_one.2 (by nlinarith [sq_nonneg v])
  have hv1 : |v| ≤ 1 := abs_le_one_iff_mul_self_le_one.2 (by nlinarith [sq_nonneg u])
  obtain ⟨k0, a1, a2, a3, a4, δ0, hδ0, a5⟩ := touch_slab hg 0 (by decide) hu1 hr hu
  obtain ⟨k1, b1, b2, b3, b4, δ1, hδ1, b5⟩ := touch_slab hg 1 (by decide) hv1 hr hv'
  have c1 : g.plane 2 ⌊(P 2 - r - g.lower 2) / g.subLength 2⌋ ≤ P 2 - r := (le_floor_plane hv 2 _ _).1 le_rfl
  have c2 : P 2 - r < g.plane 2 (⌊(P 2 - r - g.lower 2) / g.subLength 2⌋ + 1) := (floor_plane_le hv 2 _ _).1 le_rfl
  have c3 : 0 ≤ ⌊(P 2 - r - g.lower 2) / g.subLength 2⌋ := by
    rw [le_floor_plane hv, plane_zero]; linarith
  generalize ⌊(P 2 - r - g.lower 2) / g.subLength 2⌋ = k2 at *
  have hm : g.Mem ![k0, k1, k2] := by
    intro i
    fin_cases i
    · exact ⟨a1, a2⟩
    · exact ⟨b1, b2⟩
    · refine ⟨c3, ?_⟩
      simp only [Fin.reduceFinMk, Matrix.cons_val]
      rw [← plane_lt hv 2, plane_last hv]; linarith
  refine ⟨_, hcov ![k0, k1, k2] hm ?_, ?_⟩
  · intro i
    fin_cases i
    · exact ⟨a3, a4⟩
    · exact ⟨b3, b4⟩
    · exact ⟨c2, by simp only [Fin.reduceFinMk, Matrix.cons_val]; linarith⟩
  · rw [C82_walls_partial g hg _ hm]
    have hR := R_pos hv
    have m0 : (g.lower 0 + g.upper 0) / 2 = g.axis 0 := by unfold Grid.axis Grid.R; ring
    have m1 : (g.lower 1 + g.upper 1) / 2 = g.axis 1 := by
      have := hg.round
      unfold Grid.axis Grid.R; linarith
    have mR : (g.upper 0 - g.lower 0) / 2 = g.R := rfl
    rw [m0, m1, mR]
    have hsq : ∀ d : ℝ, (g.axis 0 + (g.R - d) * u - g.axis 0) ^ 2 + (g.axis 1 + (g.R - d) * v - g.axis 1) ^ 2 =
        (g.R - d) ^ 2 := by
      intro d
      have : (g.axis 0 + (g.R - d) * u - g.axis 0) ^ 2 + (g.axis 1 + (g.R - d) * v - g.axis 1) ^ 2 =
        (g.R - d) ^ 2 * (u ^ 2 + v ^ 2) := by ring
      rw [this, huv, mul_one]
    obtain ⟨d, hd0, hd1, hd2, hd3⟩ : ∃ d : ℝ, 0 < d ∧ d ≤ δ0 ∧ d ≤ δ1 ∧ d ≤ g.R :=
      ⟨min δ0 (min δ1 g.R), lt_min hδ0 (lt_min hδ1 hR), min_le_left _ _, (min_le_right _ _).trans (min_le_left _ _),
        (min_le_right _ _).trans (min_le_right _ _)⟩
    constructor
    · refine ⟨_, _, (a5 d hd0.le hd1).1, (a5 d hd0.le hd1).2, (b5 d hd0.le hd2).1, (b5 d hd0.le hd2).2, ?_⟩
      rw [hsq]
      nlinarith
    · refine ⟨_, _, (a5 0 le_rfl hδ0.le).1, (a5 0 le_rfl hδ0.le).2, (b5 0 le_rfl hδ1.le).1, (b5 0 le_rfl hδ1.le).2, ?_⟩
      rw [hsq, sub_zero]

/-- The discriminant is never negative for particles in the cylinder. -/
theorem not_grazing {g : Grid ℝ} {s : Sphere} (hs : s.Synced) (hgr : 0 ≤ s.growthRate)
    (hin : cylinderExcess g.cylinder s s.timeOfLastUpdate ≤ 0) : CylinderNotGrazing g.cylinder s := by
  have hq := cylinderExcess_quadratic g.cylinder s hs
  have hR : g.cylinder.radius = g.R := by rw [cylinder_eq]
  have hnn : ∀ τ, 0 ≤ cylinderExcess g.cylinder s τ + (g.R - (s.moveAndGrow τ).radius) ^ 2 := by
    intro τ
    rw [excess_eq]; unfold Grid.off; nlinarith [sq_nonneg ((s.moveAndGrow τ).position 0 - g.axis 0), sq_nonneg ((s.moveAndGrow τ).position 1 - g.axis 1)]
  have hrad : ∀ τ, (s.moveAndGrow (s.timeOfLastUpdate + τ)).radius = s.radius + s.growthRate * τ := by
    intro τ
    simp only [Sphere.Synced] at hs
    simp only [Sphere.moveAndGrow]
    rw [hs]; ring
  right
  have h0 := hq 0
  rw [add_zero] at h0
  simp only at hq h0
  rw [hR] at hq h0 ⊢
  generalize perp g.cylinder.direction (s.position - g.cylinder.position) = dP at *
  generalize perp g.cylinder.direction s.velocity = dV at *
  rw [show dot dV dV - -s.growthRate * -s.growthRate = dot dV dV - s.growthRate ^ 2 by ring,
    show dot dV dP - (g.R - s.radius) * -s.growthRate = dot dV dP + (g.R - s.radius) * s.growthRate by ring,
    show dot dP dP - (g.R - s.radius) * (g.R - s.radius) = dot dP dP - (g.R - s.radius) ^ 2 by ring] at h0
  have hq' : ∀ τ, cylinderExcess g.cylinder s (s.timeOfLastUpdate + τ) = (dot dV dV - s.growthRate ^ 2) * τ ^ 2 +
      2 * (dot dV dP + (g.R - s.radius) * s.growthRate) * τ + (dot dP dP - (g.R - s.radius) ^ 2) := by
    intro τ; rw [hq τ]; ring
  have hV := dot_self_nonneg dV
  rw [h0] at hin
  generalize hb : 2 * (dot dV dP + (g.R - s.radius) * s.growthRate) = b at *
  generalize hc : dot dP dP - (g.R - s.radius) ^ 2 = c at *
  generalize ha : dot dV dV - s.growthRate ^ 2 = a at *
  rcases le_or_gt 0 a with h | h
  · nlinarith [mul_self_nonneg b, mul_nonneg h (by linarith : 0 ≤ -c)]
  · have hg0 : 0 < s.growthRate := by
      rcases hgr.lt_or_eq with h4 | h4
      · exact h4
      · rw [← h4] at ha; nlinarith
    have h1 := hnn (s.timeOfLastUpdate + (g.R - s.radius) / s.growthRate)
    rw [hrad, hq', mul_div_cancel₀ _ hg0.ne'] at h1
    generalize (g.R - s.radius) / s.growthRate = x at *
    have h2 : 0 ≤ a * x ^ 2 + b * x + c := by
      have : (g.R - (s.radius + (g.R - s.radius))) ^ 2 = 0 := by ring
      linarith
    nlinarith [mul_self_nonneg (2 * a * x + b), mul_nonneg (by linarith : 0 ≤ -a) h2]

/-- Until the next event a particle stays in the cylinder. -/
theorem shell_later {g : Grid ℝ} (hg : g.CylValid) {S : Run} (hS : S.Inv g) {t : ℝ} (ht : S.time ≤ t)
    (hq : S.CylQuiet g t) {k : ℕ} (hk : k < S.n)
    (hlast : cylinderExcess g.cylinder (S.particle k) (S.particle k).timeOfLastUpdate ≤ 0)
    (hnow : g.InShell (S.particle k) S.time) (hfit : ((S.particle k).moveAndGrow t).radius ≤ g.R) :
    g.InShell (S.particle k) t := by
  refine ⟨hfit, ?_⟩
  by_contra hneg
  have hneg' : 0 < cylinderExcess g.cylinder (S.particle k) t := by
    rw [excess_eq]; linarith
  have hcont : Continuous (cylinderExcess g.cylinder (S.particle k)) := by
    have : cylinderExcess g.cylinder (S.particle k) = fun τ => _ := funext (excess_eq g (S.particle k))
    rw [this]
    unfold Grid.off
    simp only [Sphere.moveAndGrow, Pi.add_apply, Pi.smul_apply, smul_eq_mul]
    fun_prop
  have h0 : cylinderExcess g.cylinder (S.particle k) S.time ≤ 0 := by
    rw [excess_eq]; linarith [hnow.near]
  obtain ⟨t1, ⟨h1, h2⟩, h3⟩ := intermediate_value_Icc ht hcont.continuousOn ⟨h0, hneg'.le⟩
  have hs := hS.synced k hk
  have hgr := hS.growth k hk
  have hrad : ∀ x y, x ≤ y → ((S.particle k).moveAndGrow x).radius ≤ ((S.particle k).moveAndGrow y).radius := by
    intro x y hxy
    simp only [Sphere.moveAndGrow]
    nlinarith
  have hq1 : S.CylQuiet g t1 := fun e t' he hp => h2.trans (hq e t' he hp)
  have htouch : g.off (((S.particle k).moveAndGrow t1).position 0) (((S.particle k).moveAndGrow t1).position 1) =
      (g.R - ((S.particle k).moveAndGrow t1).radius) ^ 2 := by
    rw [excess_eq] at h3; linarith
  have hin1 : g.InShell (S.particle k) t1 := ⟨(hrad _ _ h2).trans hfit, htouch.le⟩
  obtain ⟨b, hb, hcyl⟩ := touch_registered hg hS h1 hq1 hk hin1 htouch
  obtain ⟨r, r1, r2, r3⟩ := C53_cylinder_partial g.cylinder (S.particle k) hs (hS.radius k hk).le hlast
    (not_grazing hs hgr hlast)
  have hpast := (hS.past k hk).trans ht
  cases r with
  | none => exact absurd (r3 rfl t hpast).1 (not_le.2 hneg')
  | some t' =>
    obtain ⟨-, e1, e2⟩ := r2 t' rfl
    have hle := hq (.shell k) t' ⟨hk, b, hb, hcyl⟩ r1
    rcases hle.lt_or_eq with h | h
    · exact absurd (e2 t hpast h).1 (not_le.2 hneg')
    · rw [h, e1] at hneg'
      exact lt_irrefl _ hneg'

/-! ### The invariant -/

structure Run.CylInv (g : Grid ℝ) (S : Run) : Prop where
  base : S.Inv g
  last : ∀ k < S.n, cylinderExcess g.cylinder (S.particle k) (S.particle k).timeOfLastUpdate ≤ 0
  here : ∀ k < S.n, g.InShell (S.particle k) S.time
  quiet : S.CylQuiet g S.time

/-- No event in the cylinder before `t`, hence none in the bounding box -/
theorem box_quiet {g : Grid ℝ} (hg : g.CylValid) {S : Run} (hS : S.CylInv g) {t : ℝ} (ht : S.time ≤ t)
    (hq : S.CylQuiet g t) (hfit : ∀ k < S.n, ((S.particle k).moveAndGrow t).radius ≤ g.R) : S.Quiet g t := by
  intro e t' he hp
  cases e with
  | wall k w =>
    have hk := he.1
    have := shell_later hg hS.base ht hq hk (hS.last k hk) (hS.here k hk) (hfit k hk)
    exact wall_quiet hg hS.base hq hk (fun i hi => shell_box hg this i hi) he hp
  | pair k l => exact hq (.plain (.pair k l)) t' he hp

/-- A particle after an event -/
def Run.Moved (S S' : Run) (t : ℝ) (k : ℕ) : Prop :=
  (∃ v, S'.particle k = { (S.particle k).moveAndGrow t with velocity := v }) ∨
    (S'.particle k = S.particle k ∧ S'.registration.boxes k = S.registration.boxes k)

theorem cyl_of_base {g : Grid ℝ} (hg : g.CylValid) {S S' : Run} (hS : S.CylInv g) {t : ℝ} (ht : S.time ≤ t)
    (hq : S.CylQuiet g t) (hfit : ∀ k < S.n, ((S.particle k).moveAndGrow t).radius ≤ g.R) (hn : S'.n = S.n)
    (htime : S'.time = t) (hmove : ∀ k < S.n, S.Moved S' t k) (hbase : S'.Inv g) : S'.CylInv g := by
  have hin : ∀ k < S.n, g.InShell (S.particle k) t := fun k hk =>
    shell_later hg hS.base ht hq hk (hS.last k hk) (hS.here k hk) (hfit k hk)
  have hat : ∀ k < S.n, ((S'.particle k).moveAndGrow t).position = ((S.particle k).moveAndGrow t).position ∧
      ((S'.particle k).moveAndGrow t).radius = ((S.particle k).moveAndGrow t).radius := by
    intro k hk
    rcases hmove k hk with ⟨v, hv⟩ | ⟨h, -⟩
    · rw [hv]; exact move_here _ _ _
    · rw [h]; exact ⟨rfl, rfl⟩
  have hlast : ∀ k < S.n, cylinderExcess g.cylinder (S'.particle k) (S'.particle k).timeOfLastUpdate ≤ 0 := by
    intro k hk
    rcases hmove k hk with ⟨v, hv⟩ | ⟨h, -⟩
    · have hl : (S'.particle k).timeOfLastUpdate = t := by rw [hv]; rfl
      rw [hl, excess_eq, (hat k hk).1, (hat k hk).2]
      linarith [(hin k hk).near]
    · rw [h]; exact hS.last k hk
  refine ⟨hbase, ?_, ?_, ?_⟩
  · rw [hn]; exact hlast
  · rw [hn, htime]
    intro k hk
    refine ⟨?_, ?_⟩
    · rw [(hat k hk).2]; exact (hin k hk).fits
    · rw [(hat k hk).1, (hat k hk).2]; exact (hin k hk).near
  · rw [htime]
    intro e t' he hp
    cases e with
    | plain e =>
      rw [← htime]
      refine hbase.upcoming e t' ?_ hp
      cases e with
      | wall k w =>
        obtain ⟨hk, b, hb, hw⟩ := he
        exact ⟨hk, b, hb, (List.mem_filter.1 hw).1⟩
      | pair k l => exact he
    | shell k =>
      obtain ⟨hk, b, hb, hcyl⟩ := he
      have hk' : k < S.n := hn ▸ hk
      rcases hmove k hk' with ⟨v, hv⟩ | ⟨h, h'⟩
      · obtain ⟨r, r1, r2, -⟩ := C53_cylinder_partial g.cylinder (S'.particle k) (hbase.synced k hk)
          (hbase.radius k hk).le (hlast k hk') (not_grazing (hbase.synced k hk) (hbase.growth k hk) (hlast k hk'))
        simp only [Run.cylPredict] at hp
        rw [hp] at r1
        have := (r2 t' (Res.ok.inj r1).symm).1
        have hl : (S'.particle k).timeOfLastUpdate = t := by rw [hv]; rfl
        rwa [hl] at this
      · refine hq (.shell k) t' ⟨hk', b, h' ▸ hb, hcyl⟩ ?_
        simp only [Run.cylPredict] at hp ⊢
        rwa [h] at hp

/-- What an event does to the particles -/
theorem perform_moved {S S' : Run} {t : ℝ} {e : Partners} (h : S.perform t e = .ok S') :
    S'.n = S.n ∧ S'.time = t ∧ ∀ k, S.Moved S' t k := by
  cases e with
  | wall k w =>
    simp only [Run.perform] at h
    split_ifs at h with hph
    · have h := Res.ok.inj h
      subst h
      refine ⟨rfl, rfl, fun l => ?_⟩
      by_cases hl : l = k
      · subst hl
        left
        simp only [Function.update_self]
        exact ⟨_, rfl⟩
      · right
        simp only
        rw [Function.update_of_ne hl]
        exact ⟨rfl, trivial⟩
    · cases hR : S.registration.transfer w k with
      | throw => rw [hR] at h; cases h
      | ub => rw [hR] at h; cases h
      | ok R =>
        rw [hR, Res.bind_ok'] at h
        have h := Res.ok.inj h
        subst h
        refine ⟨rfl, rfl, fun l => ?_⟩
        by_cases hl : l = k
        · subst hl
          left
          simp only [Function.update_self]
          exact ⟨(S.particle l).velocity, rfl⟩
        · right
          simp only
          rw [Function.update_of_ne hl]
          refine ⟨rfl, ?_⟩
          unfold Registration.transfer Registration.remove at hR
          split_ifs at hR with h1 h2
          · rw [← Res.ok.inj hR]
            simp only
            rw [Function.update_of_ne hl]
          · rw [← Res.ok.inj hR]
            simp only [Registration.add]
            rw [Function.update_of_ne hl]
  | pair k l =>
    simp only [Run.perform] at h
    have h := Res.ok.inj h
    subst h
    refine ⟨rfl, rfl, fun m => ?_⟩
    by_cases hl : m = l
    · subst hl
      left
      simp only [Function.update_self]
      exact ⟨_, rfl⟩
    · by_cases hk : m = k
      · subst hk
        left
        simp only
        rw [Function.update_of_ne hl, Function.update_self]
        exact ⟨_, rfl⟩
      · right
        simp only
        rw [Function.update_of_ne hl, Function.update_of_ne hk]
        exact ⟨rfl, trivial⟩

theorem performCylinder_shape {w : Cylinder} {s s' : Sphere} (h : performCylinder w s = .ok s') :
    ∃ v, s' = { s with velocity := v } := by
  simp only [performCylinder] at h
  split_ifs at h with h0
  exact ⟨_, (Res.ok.inj h).symm⟩

/-- A round keeps the invariant as long as the particles fit into the cylinder. -/
theorem cyl_step {g : Grid ℝ} (hg : g.CylValid) {S S' : Run} (hS : S.CylInv g) (h : Run.CylStep g S S') :
    S.time ≤ S'.time ∧ S'.n = S.n ∧
      ((∀ k < S.n, ((S.particle k).moveAndGrow S'.time).radius ≤ g.R) → S'.CylInv g) := by
  have hv := hg.valid
  cases h with
  | sync t ht hq =>
    refine ⟨ht, rfl, fun hfit => ?_⟩
    have hQ := box_quiet hg hS ht hq hfit
    exact cyl_of_base hg hS ht hq hfit rfl rfl (fun k _ => Or.inl ⟨(S.particle k).velocity, rfl⟩)
      (step_inv hv hS.base (.sync S t ht hQ))
  | event _ e t hc hp hq hr =>
    have ht := hS.quiet e t hc hp
    cases e with
    | plain e =>
      obtain ⟨m1, m2, m3⟩ := perform_moved hr
      rw [m2]
      refine ⟨ht, m1, fun hfit => ?_⟩
      have hQ := box_quiet hg hS ht hq hfit
      refine cyl_of_base hg hS ht hq hfit m1 m2 (fun k _ => m3 k) (step_inv hv hS.base (.event S S' e t ?_ hp hQ hr))
      cases e with
      | wall k w =>
        obtain ⟨hk, b, hb, hw⟩ := hc
        exact ⟨hk, b, hb, (List.mem_filter.1 hw).1⟩
      | pair k l => exact hc
    | shell k =>
      simp only [Run.cylPerform] at hr
      cases hs : performCylinder g.cylinder ((S.particle k).moveAndGrow t) with
      | throw => rw [hs] at hr; cases hr
      | ub => rw [hs] at hr; cases hr
      | ok s =>
        rw [hs, Res.bind_ok'] at hr
        obtain ⟨v, rfl⟩ := performCylinder_shape hs
        have hr := Res.ok.inj hr
        subst hr
        refine ⟨ht, rfl, fun hfit => ?_⟩
        have hQ := box_quiet hg hS ht hq hfit
        refine cyl_of_base hg hS ht hq hfit rfl rfl (fun l _ => ?_) ?_
        · by_cases hl : l = k
          · subst hl
            left
            simp only [Function.update_self]
            exact ⟨v, rfl⟩
          · right
            simp only
            rw [Function.update_of_ne hl]
            exact ⟨rfl, trivial⟩
        · refine preserve hv hS.base ht hQ rfl rfl (fun l => l = k) ?_ ?_ hS.base.grid hS.base.agree ?_
          · rintro l - rfl
            simp only [Function.update_self]
            exact ⟨v, rfl⟩
          · intro l _ hl
            simp only
            rw [Function.update_of_ne hl]
            exact ⟨rfl, trivial⟩
          · rintro l hl - c hc' htouch
            exact cover_later hv hS.base ht hQ hl c hc' htouch

theorem cyl_step_growth {g : Grid ℝ} {S S' : Run} (h : Run.CylStep g S S') :
    S'.n = S.n ∧ ∀ k τ, ((S'.particle k).moveAndGrow τ).radius = ((S.particle k).moveAndGrow τ).radius ∧
      (S'.particle k).growthRate = (S.particle k).growthRate := by
  have key : ∀ {t : ℝ} {k : ℕ}, S.Moved S' t k → ∀ τ,
      ((S'.particle k).moveAndGrow τ).radius = ((S.particle k).moveAndGrow τ).radius ∧
      (S'.particle k).growthRate = (S.particle k).growthRate := by
    rintro t k (⟨v, hv⟩ | ⟨h, -⟩) τ
    · rw [hv]; exact ⟨rfl, rfl⟩
    · rw [h]; exact ⟨rfl, rfl⟩
  cases h with
  | sync t ht hq => exact ⟨rfl, fun k τ => ⟨rfl, rfl⟩⟩
  | event _ e t hc hp hq hr =>
    cases e with
    | plain e =>
      obtain ⟨m1, m2, m3⟩ := perform_moved hr
      exact ⟨m1, fun k => key (m3 k)⟩
    | shell k =>
      simp only [Run.cylPerform] at hr
      cases hs : performCylinder g.cylinder ((S.particle k).moveAndGrow t) with
      | throw => rw [hs] at hr; cases hr
      | ub => rw [hs] at hr; cases hr
      | ok s =>
        rw [hs, Res.bind_ok'] at hr
        obtain ⟨v, rfl⟩ := performCylinder_shape hs
        have hr := Res.ok.inj hr
        subst hr
        refine ⟨rfl, fun l τ => ?_⟩
        by_cases hl : l = k
        · subst hl
          simp only [Function.update_self]
          exact ⟨rfl, rfl⟩
        · simp only
          rw [Function.update_of_ne hl]
          exact ⟨rfl, rfl⟩

/-! ### The start -/

/-- Particles in the cylinder, without overlap -/
structure CylPrepared (g : Grid ℝ) (ps : List Sphere) : Prop where
  prepared : Prepared g ps
  inside : ∀ s ∈ ps, s.radius ≤ g.R ∧
    (s.position 0 - g.axis 0) ^ 2 + (s.position 1 - g.axis 1) ^ 2 ≤ (g.R - s.radius) ^ 2

theorem cyl_start {g : Grid ℝ} (hg : g.CylValid) {ps : List Sphere} (hps : CylPrepared g ps) :
    ∃ S, Run.start g ps = .ok S ∧ S.n = ps.length ∧ S.time = 0 ∧
      (∀ k, (hk : k < ps.length) → S.particle k = ps[k]) ∧ S.CylInv g := by
  obtain ⟨S, h1, h2, h3, h4, hI⟩ := start_inv hg.valid hps.prepared
  refine ⟨S, h1, h2, h3, h4, ?_⟩
  have hone : ∀ k, (hk : k < ps.length) → ps[k].timeOfLastUpdate = 0 ∧
      (ps[k].moveAndGrow 0).position = ps[k].position ∧ (ps[k].moveAndGrow 0).radius = ps[k].radius := by
    intro k hk
    obtain ⟨p, v, r, gr, he, hr, hgr⟩ := hps.prepared.fresh _ (List.getElem_mem hk)
    rw [he]
    refine ⟨rfl, ?_, ?_⟩
    · funext i; simp [Sphere.moveAndGrow, Sphere.mk0]
    · simp [Sphere.moveAndGrow, Sphere.mk0]
  have hshell : ∀ k < S.n, g.InShell (S.particle k) 0 := by
    intro k hk
    rw [h2] at hk
    rw [h4 k hk]
    obtain ⟨-, e1, e2⟩ := hone k hk
    obtain ⟨i1, i2⟩ := hps.inside _ (List.getElem_mem hk)
    refine ⟨?_, ?_⟩
    · rw [e2]; exact i1
    · rw [e1, e2]; exact i2
  have hlast : ∀ k < S.n, cylinderExcess g.cylinder (S.particle k) (S.particle k).timeOfLastUpdate ≤ 0 := by
    intro k hk
    have hsh := hshell k hk
    rw [h2] at hk
    rw [h4 k hk] at hsh ⊢
    rw [(hone k hk).1, excess_eq]
    linarith [hsh.near]
  refine ⟨hI, hlast, ?_, ?_⟩
  · rw [h3]; exact hshell
  · rw [h3]
    intro e t' he hp
    cases e with
    | plain e =>
      rw [← h3]
      refine hI.upcoming e t' ?_ hp
      cases e with
      | wall k w =>
        obtain ⟨hk, b, hb, hw⟩ := he
        exact ⟨hk, b, hb, (List.mem_filter.1 hw).1⟩
      | pair k l => exact he
    | shell k =>
      obtain ⟨hk, b, hb, hcyl⟩ := he
      obtain ⟨r, r1, r2, -⟩ := C53_cylinder_partial g.cylinder (S.particle k) (hI.synced k hk)
        (hI.radius k hk).le (hlast k hk) (not_grazing (hI.synced k hk) (hI.growth k hk) (hlast k hk))
      simp only [Run.cylPredict] at hp
      rw [hp] at r1
      have := (r2 t' (Res.ok.inj r1).symm).1
      rw [h2] at hk
      rwa [h4 k hk, (hone k hk).1] at this

theorem cyl_reach {g : Grid ℝ} (hg : g.CylValid) {ps : List Sphere} (hps : CylPrepared g ps) {T : ℝ}
    (hT : ∀ s ∈ ps, s.radius + s.growthRate * T ≤ g.R) {S0 S : Run} (h0 : Run.start g ps = .ok S0)
    (hS : Run.CylReach g T S0 S) :
    S.CylInv g ∧ S.n = ps.length ∧ ∀ k, (hk : k < ps.length) → ∀ τ,
      ((S.particle k).moveAndGrow τ).radius = ps[k].radius + ps[k].growthRate * τ ∧
      (S.particle k).growthRate = ps[k].growthRate := by
  obtain ⟨S1, h1, h2, h3, h4, hI⟩ := cyl_start hg hps
  rw [h0] at h1
  have h1 := Res.ok.inj h1
  subst h1
  induction hS with
  | refl =>
    refine ⟨hI, h2, fun k hk τ => ?_⟩
    rw [h4 k hk]
    obtain ⟨p, v, r, gr, he, hr, hgr⟩ := hps.prepared.fresh _ (List.getElem_mem hk)
    rw [he]
    simp [Sphere.moveAndGrow, Sphere.mk0]
  | step S' S'' _ hs ht ih =>
    obtain ⟨i1, i2, i3⟩ := ih
    obtain ⟨c1, c2, c3⟩ := cyl_step hg i1 hs
    obtain ⟨-, g2⟩ := cyl_step_growth hs
    refine ⟨c3 ?_, c2.trans i2, fun k hk τ => ?_⟩
    · intro k hk
      rw [i2] at hk
      rw [(i3 k hk _).1]
      have := hT _ (List.getElem_mem hk)
      obtain ⟨p, v, r, gr, he, hr, hgr⟩ := hps.prepared.fresh _ (List.getElem_mem hk)
      have hgr' : 0 ≤ ps[k].growthRate := by rw [he]; exact hgr
      nlinarith
    · rw [(g2 k τ).1, (g2 k τ).2]
      exact i3 k hk τ

/-! ### The properties -/

/-- In a cylinder with at least two divisions, as long as no particle has grown beyond the radius of the cylinder: at every
moment of every simulation all particles lie inside the cylinder.  (Missing: one division, see below.) -/
theorem C82_inside_partial (g : Grid ℝ) (hg : g.CylValid) (ps : List Sphere) (hps : CylPrepared g ps) (T : ℝ)
    (hT : ∀ s ∈ ps, s.radius + s.growthRate * T ≤ (g.upper 0 - g.lower 0) / 2) (S0 S : Run)
    (h0 : Run.start g ps = .ok S0) (hS : Run.CylReach g T S0 S) (τ : ℝ) (hτ : S.time ≤ τ) (hτT : τ ≤ T)
    (hq : S.CylQuiet g τ) (k : ℕ) (hk : k < S.n) (x : Fin 3 → ℝ)
    (hx : ∑ i, (x i - ((S.particle k).moveAndGrow τ).position i) ^ 2 ≤ ((S.particle k).moveAndGrow τ).radius ^ 2) :
    (x 0 - (g.lower 0 + g.upper 0) / 2) ^ 2 + (x 1 - (g.lower 1 + g.upper 1) / 2) ^ 2 ≤
        ((g.upper 0 - g.lower 0) / 2) ^ 2 ∧
      g.lower 2 ≤ x 2 ∧ x 2 ≤ g.upper 2 := by
  obtain ⟨hI, hn, hrad⟩ := cyl_reach hg hps hT h0 hS
  have hfit : ∀ k < S.n, ((S.particle k).moveAndGrow τ).radius ≤ g.R := by
    intro k hk
    rw [hn] at hk
    rw [(hrad k hk τ).1]
    have := hT _ (List.getElem_mem hk)
    obtain ⟨p, v, r, gr, he, hr, hgr⟩ := hps.prepared.fresh _ (List.getElem_mem hk)
    have hgr' : 0 ≤ ps[k].growthRate := by rw [he]; exact hgr
    unfold Grid.R
    nlinarith
  have hin := shell_later hg hI.base hτ hq hk (hI.last k hk) (hI.here k hk) (hfit k hk)
  have hz := inside_later hg.valid hI.base hτ (box_quiet hg hI hτ hq hfit) hk 2
  have hr := radius_pos (hI.base.synced k hk) (hI.base.radius k hk) (hI.base.growth k hk) ((hI.base.past k hk).trans hτ)
  have hf := hin.fits
  have hne := hin.near
  unfold Sphere.lo Sphere.hi at hz
  unfold Grid.off at hne
  have m0 : (g.lower 0 + g.upper 0) / 2 = g.axis 0 := by unfold Grid.axis Grid.R; ring
  have m1 : (g.lower 1 + g.upper 1) / 2 = g.axis 1 := by
    have := hg.round
    unfold Grid.axis Grid.R; linarith
  have mR : (g.upper 0 - g.lower 0) / 2 = g.R := rfl
  rw [m0, m1, mR]
  rw [Fin.sum_univ_three] at hx
  generalize ((S.particle k).moveAndGrow τ).position = P at *
  generalize ((S.particle k).moveAndGrow τ).radius = r at *
  constructor
  · -- triangle inequality in the plane
    have e0 : x 0 - g.axis 0 = (x 0 - P 0) + (P 0 - g.axis 0) := by ring
    have e1 : x 1 - g.axis 1 = (x 1 - P 1) + (P 1 - g.axis 1) := by ring
    have h1 : (x 0 - P 0) ^ 2 + (x 1 - P 1) ^ 2 ≤ r ^ 2 := by nlinarith [sq_nonneg (x 2 - P 2)]
    rw [e0, e1]
    generalize x 0 - P 0 = a at *
    generalize x 1 - P 1 = b at *
    generalize P 0 - g.axis 0 = c at *
    generalize P 1 - g.axis 1 = d at *
    have hR0 : 0 ≤ g.R - r := by linarith
    have hcs : a * c + b * d ≤ r * (g.R - r) := by
      refine abs_le_of_sq_le_sq' ?_ (by positivity) |>.2
      have hm : (a ^ 2 + b ^ 2) * (c ^ 2 + d ^ 2) ≤ r ^ 2 * (g.R - r) ^ 2 :=
        mul_le_mul h1 hne (by positivity) (by positivity)
      nlinarith [sq_nonneg (a * d - b * c)]
    nlinarith
  · have h2 : (x 2 - P 2) ^ 2 ≤ r ^ 2 := by nlinarith [sq_nonneg (x 0 - P 0), sq_nonneg (x 1 - P 1)]
    have := abs_le_of_sq_le_sq h2 hr.le
    rw [abs_le] at this
    constructor <;> linarith

/-- Under the same conditions no two particles overlap. -/
theorem C82_no_overlap_partial (g : Grid ℝ) (hg : g.CylValid) (ps : List Sphere) (hps : CylPrepared g ps) (T : ℝ)
    (hT : ∀ s ∈ ps, s.radius + s.growthRate * T ≤ (g.upper 0 - g.lower 0) / 2) (S0 S : Run)
    (h0 : Run.start g ps = .ok S0) (hS : Run.CylReach g T S0 S) (τ : ℝ) (hτ : S.time ≤ τ) (hτT : τ ≤ T)
    (hq : S.CylQuiet g τ) (k l : ℕ) (hk : k < S.n) (hl : l < S.n) (hkl : k ≠ l) :
    (((S.particle k).moveAndGrow τ).radius + ((S.particle l).moveAndGrow τ).radius) ^ 2 ≤
      ∑ i, (((S.particle k).moveAndGrow τ).position i - ((S.particle l).moveAndGrow τ).position i) ^ 2 := by
  obtain ⟨hI, hn, hrad⟩ := cyl_reach hg hps hT h0 hS
  have hfit : ∀ k < S.n, ((S.particle k).moveAndGrow τ).radius ≤ g.R := by
    intro k hk
    rw [hn] at hk
    rw [(hrad k hk τ).1]
    have := hT _ (List.getElem_mem hk)
    obtain ⟨p, v, r, gr, he, hr, hgr⟩ := hps.prepared.fresh _ (List.getElem_mem hk)
    have hgr' : 0 ≤ ps[k].growthRate := by rw [he]; exact hgr
    unfold Grid.R
    nlinarith
  have := free_later hg.valid hI.base hτ (box_quiet hg hI hτ hq hfit) hk hl hkl
  unfold clearance dot at this
  simp only [Pi.sub_apply] at this
  rw [Fin.sum_univ_three]
  nlinarith

/-- Under the same conditions no prediction fails, and an event fails only if the centre of the particle that hits the
shell lies on the axis (it then has the radius of the cylinder). -/
theorem C82_no_exception_partial (g : Grid ℝ) (hg : g.CylValid) (ps : List Sphere) (hps : CylPrepared g ps) (T : ℝ)
    (hT : ∀ s ∈ ps, s.radius + s.growthRate * T ≤ (g.upper 0 - g.lower 0) / 2) (S0 S : Run)
    (h0 : Run.start g ps = .ok S0) (hS : Run.CylReach g T S0 S) (e : CylPartners) (he : S.CylConsidered g e) :
    ∃ r, S.cylPredict g e = .ok r ∧ ∀ t, r = some t → S.time ≤ t ∧
      ((∃ S', S.cylPerform g t e = .ok S') ∨ ∃ k, e = .shell k ∧
        ((S.particle k).moveAndGrow t).position 0 = (g.lower 0 + g.upper 0) / 2 ∧
        ((S.particle k).moveAndGrow t).position 1 = (g.lower 1 + g.upper 1) / 2 ∧
        ((S.particle k).moveAndGrow t).radius = (g.upper 0 - g.lower 0) / 2) := by
  obtain ⟨hI, hn, hrad⟩ := cyl_reach hg hps hT h0 hS
  cases e with
  | plain e =>
    obtain ⟨r, r1, r2⟩ := no_exception hg.valid hI.base e (by
      cases e with
      | wall k w =>
        obtain ⟨hk, b, hb, hw⟩ := he
        exact ⟨hk, b, hb, (List.mem_filter.1 hw).1⟩
      | pair k l => exact he)
    exact ⟨r, r1, fun t ht => ⟨(r2 t ht).1, Or.inl (r2 t ht).2⟩⟩
  | shell k =>
    have he' := he
    obtain ⟨hk, -⟩ := he'
    obtain ⟨r, r1, r2, -⟩ := C53_cylinder_partial g.cylinder (S.particle k) (hI.base.synced k hk)
      (hI.base.radius k hk).le (hI.last k hk)
      (not_grazing (hI.base.synced k hk) (hI.base.growth k hk) (hI.last k hk))
    refine ⟨r, r1, ?_⟩
    rintro t rfl
    refine ⟨hI.quiet (.shell k) t he r1, ?_⟩
    have hz := (r2 t rfl).2.1
    rw [excess_eq] at hz
    by_cases h : g.off (((S.particle k).moveAndGrow t).position 0) (((S.particle k).moveAndGrow t).position 1) = 0
    · right
      refine ⟨k, rfl, ?_⟩
      have hR : g.R - ((S.particle k).moveAndGrow t).radius = 0 := by
        rw [h] at hz
        exact pow_eq_zero_iff (two_ne_zero) |>.1 (by linarith)
      unfold Grid.off at h
      have n0 := sq_nonneg (((S.particle k).moveAndGrow t).position 0 - g.axis 0)
      have n1 := sq_nonneg (((S.particle k).moveAndGrow t).position 1 - g.axis 1)
      have q0 : ((S.particle k).moveAndGrow t).position 0 - g.axis 0 = 0 :=
        pow_eq_zero_iff two_ne_zero |>.1 (le_antisymm (by linarith) n0)
      have q1 : ((S.particle k).moveAndGrow t).position 1 - g.axis 1 = 0 :=
        pow_eq_zero_iff two_ne_zero |>.1 (le_antisymm (by linarith) n1)
      have := hg.round
      unfold Grid.axis Grid.R at q0 q1
      unfold Grid.R at hR
      refine ⟨?_, ?_, ?_⟩ <;> linarith
    · left
      simp only [Run.cylPerform, performCylinder]
      rw [if_neg]
      · exact ⟨_, rfl⟩
      · rw [cylinder_eq]
        simp only [perp_z]
        intro h'
        apply h
        rw [← h']
        unfold Grid.off
        simp
        ring

/-- All particles are kept and grow by their rates. -/
theorem C82_growth_partial (g : Grid ℝ) (hg : g.CylValid) (ps : List Sphere) (hps : CylPrepared g ps) (T : ℝ)
    (hT : ∀ s ∈ ps, s.radius + s.growthRate * T ≤ (g.upper 0 - g.lower 0) / 2) (S0 S : Run)
    (h0 : Run.start g ps = .ok S0) (hS : Run.CylReach g T S0 S) :
    S.n = ps.length ∧ ∀ k, (hk : k < ps.length) → ∀ τ,
      ((S.particle k).moveAndGrow τ).radius = ps[k].radius + ps[k].growthRate * τ := by
  obtain ⟨-, hn, hrad⟩ := cyl_reach hg hps hT h0 hS
  exact ⟨hn, fun k hk τ => (hrad k hk τ).1⟩

/-! ### Few particles: one division -/

/-- With one division no sub box gets the cylinder, and no side wall is left. -/
theorem one_division {g : Grid ℝ} (hg : g.Valid) (hround : g.upper 1 - g.lower 1 = g.upper 0 - g.lower 0)
    (h0 : g.divisions 0 = 1) (h1 : g.divisions 1 = 1) (c : Fin 3 → ℤ) (hc : g.Mem c) :
    ¬ g.HasCylinder (g.getBoxIndex c) ∧ ∀ w ∈ g.cylinderWalls (g.getBoxIndex c), w.direction 0 = 0 ∧ w.direction 1 = 0 := by
  have c0 : c 0 = 0 := by have := hc 0; omega
  have c1 : c 1 = 0 := by have := hc 1; omega
  constructor
  · rw [hasCylinder_iff hg hc]
    rintro ⟨⟨a, b, h⟩, -⟩
    have hR := R_pos hg
    have e : ∀ (i : Fin 3), i ≠ 2 → ∀ a : Bool, (g.plane i (c i + if a then 1 else 0) - g.axis i) ^ 2 = g.R ^ 2 := by
      intro i hi a
      have hd : g.divisions i = 1 := by
        fin_cases i
        · exact h0
        · exact h1
        · exact absurd rfl hi
      have hci : c i = 0 := by
        fin_cases i
        · exact c0
        · exact c1
        · exact absurd rfl hi
      have hr : g.upper i - g.lower i = g.upper 0 - g.lower 0 := by
        fin_cases i
        · rfl
        · exact hround
        · exact absurd rfl hi
      unfold Grid.plane Grid.axis Grid.R
      rw [hd, hci, hr]
      cases a
      · simp
      · simp
        ring
    unfold Grid.CornerIn Grid.off at h
    rw [e 0 (by decide) a, e 1 (by decide) b] at h
    nlinarith
  · intro w hw
    unfold Grid.cylinderWalls at hw
    rw [List.mem_filter, mem_walls hc] at hw
    obtain ⟨⟨a, up, rfl⟩, hw⟩ := hw
    have ha : a = 2 := by
      by_contra ha
      have hph : (g.face c a up).physical = true := by
        rw [face_physical hg hc, neighbour_mem hc]
        fin_cases a
        · cases up <;> simp [c0, h0]
        · cases up <;> simp [c1, h1]
        · exact absurd rfl ha
      have hd : (g.face c a up).direction 2 = 0 := by
        rw [face_direction, if_neg (fun h => ha h.symm)]
      rw [hph, hd] at hw
      simp at hw
    subst ha
    simp [face_direction]

/-- `GetSubBoxDivisions` makes a single sub box if there are fewer particles than asked for per sub box.
`MaximizeParticleVolumeFraction` asks for 10. -/
theorem C82_few_particles (volume : ℝ) (length : Fin 3 → ℝ) (numParticles perBox : ℕ) (h : numParticles < perBox) :
    subBoxDivisions volume length numParticles perBox = .ok fun _ => 1 := by
  unfold subBoxDivisions
  rw [if_neg (by omega), if_pos (Nat.div_eq_of_lt h)]
  rfl

/-- When the section of a cylinder of diameter `D` and height `H` is divided: exactly if `π/4 H < q D`, with the rounded
quotient `q` of the numbers of particles and of particles per sub box. -/
theorem C82_divided (length : Fin 3 → ℝ) (hl : ∀ i, 0 < length i) (hround : length 1 = length 0)
    (numParticles perBox : ℕ) (hp : 0 < perBox) :
    ∃ d, subBoxDivisions (cylinderVolume length) length numParticles perBox = .ok d ∧ d 1 = d 0 ∧ (∀ i, 1 ≤ d i) ∧
      (2 ≤ d 0 ↔ Real.pi / 4 * length 2 < ((numParticles / perBox : ℕ) : ℝ) * length 0) := by
  unfold subBoxDivisions
  rw [if_neg (by omega)]
  by_cases hq : numParticles / perBox = 0
  · rw [if_pos hq]
    refine ⟨_, rfl, rfl, fun i => le_max_right _ _, ?_⟩
    rw [hq]
    have : 0 < Real.pi / 4 * length 2 := mul_pos (by have := Real.pi_pos; linarith) (hl 2)
    constructor
    · intro h; norm_num at h
    · intro h; rw [Nat.cast_zero, zero_mul] at h; linarith
  · rw [if_neg hq]
    refine ⟨_, rfl, by simp only [hround], fun i => le_max_right _ _, ?_⟩
    have hqpos : (0 : ℝ) < ((numParticles / perBox : ℕ) : ℝ) := by exact_mod_cast Nat.pos_of_ne_zero hq
    generalize ((numParticles / perBox : ℕ) : ℝ) = q at *
    have hD := hl 0
    have hH := hl 2
    have hV : 0 < cylinderVolume length := by
      unfold cylinderVolume
      have := Real.pi_pos
      positivity
    have hl0 : 0 < (cylinderVolume length / q) ^ ((1 : ℝ) / 3) := Real.rpow_pos_of_pos (div_pos hV hqpos) _
    have h1 : (2 : ℤ) ≤ max ⌈length 0 / (cylinderVolume length / q) ^ ((1 : ℝ) / 3)⌉ 1 ↔
        (cylinderVolume length / q) ^ ((1 : ℝ) / 3) < length 0 := by
      rw [le_max_iff]
      have : ¬ (2 : ℤ) ≤ 1 := by norm_num
      simp only [this, or_false]
      rw [show (2 : ℤ) = 1 + 1 by norm_num, Int.add_one_le_iff, Int.lt_ceil, Int.cast_one, one_lt_div hl0]
    rw [h1]
    have h2 : (cylinderVolume length / q) ^ ((1 : ℝ) / 3) < length 0 ↔ cylinderVolume length / q < length 0 ^ (3 : ℕ) := by
      rw [one_div, Real.rpow_inv_lt_iff_of_pos (div_pos hV hqpos).le hD.le (by norm_num)]
      norm_cast
    rw [h2, div_lt_iff₀ hqpos]
    unfold cylinderVolume
    have hD2 : 0 < length 0 ^ 2 := by positivity
    constructor
    · intro h
      refine lt_of_mul_lt_mul_left ?_ hD2.le
      nlinarith
    · intro h
      have := mul_lt_mul_of_pos_left h hD2
      nlinarith

/-- One division of a cube -/
noncomputable def tubeGrid : Grid ℝ := ⟨fun _ => 1, fun _ => 0, fun _ => 2⟩

/-- With fewer particles than asked for per sub box a particle leaves the cylinder: nothing stops it. -/
theorem C82_escape_counterexample :
    ∃ (g : Grid ℝ) (ps : List Sphere) (S0 S : Run), g.Valid ∧ g.upper 1 - g.lower 1 = g.upper 0 - g.lower 0 ∧
      subBoxDivisions (cylinderVolume g.length) g.length ps.length 10 = .ok g.divisions ∧ CylPrepared g ps ∧
      (∀ s ∈ ps, s.growthRate = 0) ∧
      Run.start g ps = .ok S0 ∧ Run.CylReach g 10 S0 S ∧ S.n = 1 ∧ g.upper 0 < (S.particle 0).position 0 := by
  have hv : tubeGrid.Valid := ⟨fun _ => le_refl (1 : ℤ), fun _ => by norm_num [tubeGrid]⟩
  have hprep : CylPrepared tubeGrid [oneParticle] := by
    refine ⟨one_prepared, ?_⟩
    intro s hs
    rw [List.mem_singleton] at hs
    subst hs
    norm_num [oneParticle, Sphere.mk0, Grid.R, Grid.axis, tubeGrid]
  obtain ⟨S0, h1, h2, h3, h4, hI⟩ := start_inv hv hprep.prepared
  have hp0 : S0.particle 0 = oneParticle := h4 0 (by simp)
  have hn : S0.n = 1 := h2
  have hq : S0.CylQuiet tubeGrid 10 := by
    intro e t' he hp
    cases e with
    | plain e =>
      cases e with
      | wall k w =>
        obtain ⟨hk, b, hb, hw⟩ := he
        have hk0 : k = 0 := by omega
        subst hk0
        obtain ⟨c, hc, rfl⟩ := hI.grid 0 (by omega) b hb
        obtain ⟨d0, -⟩ := (one_division hv rfl rfl rfl c hc).2 w hw
        unfold Grid.cylinderWalls at hw
        rw [List.mem_filter, mem_walls hc] at hw
        obtain ⟨⟨a, up, rfl⟩, -⟩ := hw
        have ha : a ≠ 0 := by
          rintro rfl
          rw [face_direction, if_pos rfl] at d0
          cases up <;> simp at d0
        have hc0 : c = 0 := by
          funext i
          have := hc i
          simp only [tubeGrid] at this
          simp only [Pi.zero_apply]; omega
        subst hc0
        exfalso
        have hd : ∀ τ, wallDistance (tubeGrid.face 0 a up).toWall oneParticle τ = 3 / 4 := by
          intro τ
          have := one_distance a up τ
          rw [show tubeGrid = oneGrid from rfl, this]
          fin_cases a
          · exact absurd rfl ha
          · simp
          · simp
        have hph : (tubeGrid.face 0 a up).physical = true := by
          rw [face_physical hv hc, neighbour_mem hc]
          cases up <;> simp [tubeGrid]
        simp only [Run.cylPredict, Run.predict, hph, if_true] at hp
        rw [hp0] at hp
        obtain ⟨r, r1, r2, -⟩ := C53_wall_partial (tubeGrid.face 0 a up).position _ (face_proper tubeGrid 0 a up) oneParticle
          (C53_synced_new _ _ _ _) (by
            have := hd 0
            exact this.ge.trans' (by norm_num))
        have hw' : Wall.mk0 (tubeGrid.face 0 a up).position (fun i => ((tubeGrid.face 0 a up).direction i : ℝ)) =
          (tubeGrid.face 0 a up).toWall := rfl
        rw [hw', hp] at r1
        have := (r2 t' (Res.ok.inj r1).symm).2.1
        rw [hw', hd] at this
        norm_num at this
      | pair k l =>
        obtain ⟨hk, hl, hkl, -⟩ := he
        omega
    | shell k =>
      obtain ⟨hk, b, hb, hcyl⟩ := he
      obtain ⟨c, hc, rfl⟩ := hI.grid k hk b hb
      exact absurd hcyl (one_division hv rfl rfl rfl c hc).1
  refine ⟨tubeGrid, [oneParticle], S0, S0.sync 10, hv, rfl, ?_, hprep, ?_, h1,
    Run.CylReach.step _ _ Run.CylReach.refl (Run.CylStep.sync S0 10 (by rw [h3]; norm_num) hq) le_rfl, hn, ?_⟩
  · exact C82_few_particles _ _ _ _ (by simp)
  · intro s hs
    rw [List.mem_singleton] at hs
    subst hs
    rfl
  · simp only [Run.sync]
    rw [hp0]
    simp [oneParticle, Sphere.mk0, Sphere.moveAndGrow, tubeGrid]
    norm_num

/-- A particle that slides along the shell while it grows is not noticed: it gets larger than the cylinder without any
predicted collision with it. -/
theorem C82_growth_counterexample :
    ∃ (g : Grid ℝ) (s : Sphere), g.CylValid ∧ s.Synced ∧ 0 < s.radius ∧ g.InShell s 0 ∧ g.off 1 2 < g.R ^ 2 ∧
      predictCylinder g.cylinder s = .ok none ∧ g.R < (s.moveAndGrow 2).radius := by
  refine ⟨⟨fun _ => 2, fun _ => 0, ![4, 4, 20]⟩, Sphere.mk0 ![1, 2, 10] ![1, 0, 0] 1 1, ?_, C53_synced_new _ _ _ _,
    one_pos, ⟨?_, ?_⟩, ?_, ?_, ?_⟩
  · refine ⟨⟨fun _ => le_of_lt (by decide : (1 : ℤ) < 2), fun i => ?_⟩, ?_, rfl, le_refl (2 : ℤ)⟩
    · fin_cases i <;> simp
    · simp
  · simp [Sphere.moveAndGrow, Sphere.mk0, Grid.R]; norm_num
  · simp [Sphere.moveAndGrow, Sphere.mk0, Grid.R, Grid.off, Grid.axis]; norm_num
  · simp [Grid.R, Grid.off, Grid.axis]; norm_num
  · rw [cylinder_eq]
    simp only [predictCylinder, Sphere.mk0]
    simp [perp, dot, Grid.axis, Grid.R, Grid.length, cylinderRoot]
    norm_num
  · simp [Sphere.moveAndGrow, Sphere.mk0, Grid.R]; norm_num

/-! ### An example -/

noncomputable def drumGrid : Grid ℝ := ⟨fun _ => 2, fun _ => 0, fun _ => 4⟩

theorem drum_valid : drumGrid.CylValid :=
  ⟨⟨fun _ => le_of_lt (by decide : (1 : ℤ) < 2), fun _ => by norm_num [drumGrid]⟩, rfl, rfl, le_refl (2 : ℤ)⟩

noncomputable def drumParticles : List Sphere := [Sphere.mk0 ![1, 2, 2] ![1, 1, 1] (1 / 2) (1 / 4)]

theorem drum_prepared : CylPrepared drumGrid drumParticles := by
  refine ⟨⟨?_, ?_, ?_⟩, ?_⟩
  · intro s hs
    rw [drumParticles, List.mem_singleton] at hs
    exact ⟨_, _, _, _, hs, by norm_num, by norm_num⟩
  · intro s hs
    rw [drumParticles, List.mem_singleton] at hs
    subst hs
    refine ⟨by norm_num [Sphere.ball, Sphere.mk0], fun i => ?_⟩
    fin_cases i <;> norm_num [Sphere.mk0, Sphere.ball, drumGrid]
  · intro k l hk hl hkl
    simp only [drumParticles, List.length_singleton] at hk hl
    omega
  · intro s hs
    rw [drumParticles, List.mem_singleton] at hs
    subst hs
    norm_num [Sphere.mk0, Grid.R, Grid.axis, drumGrid]

/-- A simulation that meets the hypotheses, and a sub box with the cylinder as a wall -/
example : ∃ S0 S, Run.start drumGrid drumParticles = .ok S0 ∧ Run.CylReach drumGrid 2 S0 S ∧
    S.CylQuiet drumGrid S.time ∧ S.n = 1 ∧
    (∀ s ∈ drumParticles, s.radius + s.growthRate * 2 ≤ (drumGrid.upper 0 - drumGrid.lower 0) / 2) ∧
    drumGrid.HasCylinder (drumGrid.getBoxIndex 0) := by
  obtain ⟨S0, h1, h2, h3, -, hI⟩ := cyl_start drum_valid drum_prepared
  have hstep := Run.CylStep.sync S0 S0.time le_rfl hI.quiet
  have ht : (S0.sync S0.time).time ≤ 2 := by
    simp only [Run.sync, h3]; norm_num
  have hT : ∀ s ∈ drumParticles, s.radius + s.growthRate * 2 ≤ (drumGrid.upper 0 - drumGrid.lower 0) / 2 := by
    intro s hs
    rw [drumParticles, List.mem_singleton] at hs
    subst hs
    norm_num [Sphere.mk0, drumGrid]
  have hr := Run.CylReach.step (T := 2) _ _ Run.CylReach.refl hstep ht
  refine ⟨S0, _, h1, hr, (cyl_reach drum_valid drum_prepared hT h1 hr).1.quiet, h2, hT, ?_⟩
  rw [hasCylinder_iff (c := 0) drum_valid.valid (fun i => ⟨le_refl (0 : ℤ), by norm_num [drumGrid]⟩)]
  refine ⟨⟨true, true, ?_⟩, false, false, ?_⟩
  · norm_num [Grid.CornerIn, Grid.off, Grid.plane, Grid.axis, Grid.R, drumGrid]
  · norm_num [Grid.CornerIn, Grid.off, Grid.plane, Grid.axis, Grid.R, drumGrid]

end NuTo.Collision
