import Mathlib.Tactic.Linarith
import Mathlib.Tactic.FieldSimp
import Mathlib.Tactic.Ring
import Mathlib.Tactic.LinearCombination
import Mathlib.Tactic.NormNum
import Mathlib.Tactic.Positivity
import Mathlib.Tactic.FinCases
import Verif.Model.Sphere

/-!
C52: collisions of spheres with spheres, plane walls and cylinders.
-/

namespace NuTo.Collision

theorem dot_comm (u v : V3) : dot u v = dot v u := by unfold dot; ring

theorem dot_add (u v w : V3) : dot u (v + w) = dot u v + dot u w := by
  simp only [dot, Pi.add_apply]; ring

theorem dot_sub (u v w : V3) : dot u (v - w) = dot u v - dot u w := by
  simp only [dot, Pi.sub_apply]; ring

theorem dot_smul (u v : V3) (c : ℝ) : dot u (c • v) = c * dot u v := by
  simp only [dot, Pi.smul_apply, smul_eq_mul]; ring

theorem add_dot (u v w : V3) : dot (u + v) w = dot u w + dot v w := by
  simp only [dot, Pi.add_apply]; ring

theorem sub_dot (u v w : V3) : dot (u - v) w = dot u w - dot v w := by
  simp only [dot, Pi.sub_apply]; ring

theorem smul_dot (u v : V3) (c : ℝ) : dot (c • u) v = c * dot u v := by
  simp only [dot, Pi.smul_apply, smul_eq_mul]; ring

theorem dot_self_nonneg (u : V3) : 0 ≤ dot u u := by
  unfold dot
  nlinarith [mul_self_nonneg (u 0), mul_self_nonneg (u 1), mul_self_nonneg (u 2)]

theorem dot_self_pos {u : V3} (h : u ≠ 0) : 0 < dot u u := by
  by_contra hc
  apply h
  have h0 := mul_self_nonneg (u 0)
  have h1 := mul_self_nonneg (u 1)
  have h2 := mul_self_nonneg (u 2)
  unfold dot at hc
  have e0 : u 0 = 0 := mul_self_eq_zero.1 (by linarith)
  have e1 : u 1 = 0 := mul_self_eq_zero.1 (by linarith)
  have e2 : u 2 = 0 := mul_self_eq_zero.1 (by linarith)
  funext i
  fin_cases i
  · exact e0
  · exact e1
  · exact e2

theorem normalize_unit {u : V3} (h : 0 < dot u u) : dot (normalize u) (normalize u) = 1 := by
  rw [normalize, if_pos h, dot_smul, smul_dot]
  have hs : Real.sqrt (dot u u) ≠ 0 := (Real.sqrt_pos.2 h).ne'
  field_simp
  rw [Real.sq_sqrt h.le]

theorem normalize_mul {u : V3} (h : 0 < dot u u) : Real.sqrt (dot u u) • normalize u = u := by
  rw [normalize, if_pos h, smul_smul, mul_one_div_cancel (Real.sqrt_pos.2 h).ne', one_smul]

theorem normalize_neg (u : V3) : normalize (-u) = -normalize u := by
  have : dot (-u) (-u) = dot u u := by simp only [dot, Pi.neg_apply]; ring
  unfold normalize
  rw [this]
  split_ifs
  · rw [smul_neg]
  · rfl

/-- Cauchy-Schwarz with a unit vector. -/
theorem dot_sq_le {n : V3} (hn : dot n n = 1) (v : V3) : dot n v * dot n v ≤ dot v v := by
  have h := dot_self_nonneg (v - dot n v • n)
  rw [dot_sub, sub_dot, sub_dot, dot_smul, smul_dot, smul_dot, dot_smul, hn, dot_comm v n] at h
  linarith

/-! ### Normal velocities -/

theorem normal_relative (v1 v2 m1 m2 g1 g2 : ℝ) (hm : m1 + m2 ≠ 0) :
    (normalVelocities v1 v2 m1 m2 g1 g2).1 - (normalVelocities v1 v2 m1 m2 g1 g2).2 =
      max (v2 - v1) 0 + 2 * (g1 + g2) := by
  have hm' : m2 + m1 ≠ 0 := by rwa [add_comm]
  have he : sphereCollision1D v1 v2 m1 m2 - sphereCollision1D v2 v1 m2 m1 = v2 - v1 := by
    unfold sphereCollision1D
    rw [add_comm m2 m1]
    field_simp
    ring
  simp only [normalVelocities]
  split_ifs with h
  · rw [he] at h
    rw [max_eq_right h.le]
    dsimp only
    linarith
  · rw [he, not_lt] at h
    rw [max_eq_left h]
    dsimp only
    linarith

theorem normal_momentum (v1 v2 m1 m2 g1 g2 : ℝ) (hm : m1 + m2 ≠ 0) :
    m1 * (normalVelocities v1 v2 m1 m2 g1 g2).1 + m2 * (normalVelocities v1 v2 m1 m2 g1 g2).2 =
      m1 * v1 + m2 * v2 + 2 * (m1 * g1 - m2 * g2) := by
  have hm' : m2 + m1 ≠ 0 := by rwa [add_comm]
  simp only [normalVelocities]
  split_ifs with h <;> simp only [sphereCollision1D]
  · rw [add_comm m2 m1]
    field_simp
    ring
  · rw [add_comm m2 m1]
    field_simp
    ring

theorem normal_energy (v1 v2 m1 m2 : ℝ) (hm : m1 + m2 ≠ 0) (happroach : v1 ≤ v2) :
    m1 * ((normalVelocities v1 v2 m1 m2 0 0).1 * (normalVelocities v1 v2 m1 m2 0 0).1) +
      m2 * ((normalVelocities v1 v2 m1 m2 0 0).2 * (normalVelocities v1 v2 m1 m2 0 0).2) =
      m1 * (v1 * v1) + m2 * (v2 * v2) := by
  have he : sphereCollision1D v1 v2 m1 m2 - sphereCollision1D v2 v1 m2 m1 = v2 - v1 := by
    unfold sphereCollision1D
    rw [add_comm m2 m1]
    field_simp
    ring
  simp only [normalVelocities]
  rw [if_neg (by rw [he]; linarith)]
  simp only [sphereCollision1D]
  rw [add_comm m2 m1]
  field_simp
  ring

theorem normal_swap (v1 v2 m1 m2 g1 g2 : ℝ) (hm : m1 + m2 ≠ 0) :
    normalVelocities (-v2) (-v1) m2 m1 g2 g1 =
      (-(normalVelocities v1 v2 m1 m2 g1 g2).2, -(normalVelocities v1 v2 m1 m2 g1 g2).1) := by
  have e1 : sphereCollision1D (-v2) (-v1) m2 m1 = -sphereCollision1D v2 v1 m2 m1 := by
    unfold sphereCollision1D; rw [← neg_div]; ring
  have e2 : sphereCollision1D (-v1) (-v2) m1 m2 = -sphereCollision1D v1 v2 m1 m2 := by
    unfold sphereCollision1D; rw [← neg_div]; ring
  have e3 : -sphereCollision1D v2 v1 m2 m1 - -sphereCollision1D v1 v2 m1 m2 =
      sphereCollision1D v1 v2 m1 m2 - sphereCollision1D v2 v1 m2 m1 := by ring
  simp only [normalVelocities, e1, e2, e3, add_comm m2 m1]
  split_ifs with h
  · ext
    · dsimp only
      field_simp
      ring
    · dsimp only
      field_simp
      ring
  · ext
    · dsimp only; ring
    · dsimp only; ring

/-- The velocity along `n` and the rest of a sphere's new velocity. -/
theorem dot_new {n : V3} (hn : dot n n = 1) (x : ℝ) (v : V3) : dot n (x • n + (v - dot n v • n)) = x := by
  rw [dot_add, dot_smul, dot_sub, dot_smul, hn]
  ring

theorem dot_self_new {n : V3} (hn : dot n n = 1) (x : ℝ) (v : V3) :
    dot (x • n + (v - dot n v • n)) (x • n + (v - dot n v • n)) = x * x + dot v v - dot n v * dot n v := by
  simp only [dot_add, add_dot, dot_sub, sub_dot, dot_smul, smul_dot, hn, dot_comm v n]
  ring

section spheres
variable (s1 s2 : Sphere)

theorem mass_pos (s : Sphere) (h : 0 < s.radius) : 0 < s.mass := by unfold Sphere.mass; positivity

/-- The line from the centre of the second sphere to the centre of the first. -/
noncomputable def lineOfCentres : V3 := normalize (s1.position - s2.position)

/-- After a collision the spheres separate along the line of centres with the speed of their approach plus twice the
sum of the growth rates; if they did not approach each other, with twice the sum of the growth rates. -/
theorem C52_separate (hp : s1.position ≠ s2.position) (h1 : 0 < s1.radius) (h2 : 0 < s2.radius) :
    dot (lineOfCentres s1 s2) ((performSphere s1 s2).1.velocity - (performSphere s1 s2).2.velocity) =
      max (dot (lineOfCentres s1 s2) (s2.velocity - s1.velocity)) 0 + 2 * (s1.growthRate + s2.growthRate) := by
  have hn := normalize_unit (dot_self_pos (sub_ne_zero.2 hp))
  have hm : s1.mass + s2.mass ≠ 0 := (add_pos (mass_pos s1 h1) (mass_pos s2 h2)).ne'
  simp only [performSphere, lineOfCentres]
  rw [dot_sub, dot_new hn, dot_new hn, normal_relative _ _ _ _ _ _ hm, dot_sub]

/-- So they separate at least as fast as their radii grow. -/
theorem C52_separate_fast (hp : s1.position ≠ s2.position) (h1 : 0 < s1.radius) (h2 : 0 < s2.radius)
    (hg1 : 0 ≤ s1.growthRate) (hg2 : 0 ≤ s2.growthRate) :
    s1.growthRate + s2.growthRate ≤
      dot (lineOfCentres s1 s2) ((performSphere s1 s2).1.velocity - (performSphere s1 s2).2.velocity) := by
  rw [C52_separate s1 s2 hp h1 h2]
  have := le_max_right (dot (lineOfCentres s1 s2) (s2.velocity - s1.velocity)) 0
  linarith

/-- Momentum changes by the velocity boost for the growth only. -/
theorem C52_momentum (h1 : 0 < s1.radius) (h2 : 0 < s2.radius) :
    s1.mass • (performSphere s1 s2).1.velocity + s2.mass • (performSphere s1 s2).2.velocity =
      s1.mass • s1.velocity + s2.mass • s2.velocity +
        (2 * (s1.mass * s1.growthRate - s2.mass * s2.growthRate)) • lineOfCentres s1 s2 := by
  have hm : s1.mass + s2.mass ≠ 0 := (add_pos (mass_pos s1 h1) (mass_pos s2 h2)).ne'
  have h := normal_momentum (dot (lineOfCentres s1 s2) s1.velocity) (dot (lineOfCentres s1 s2) s2.velocity)
    s1.mass s2.mass s1.growthRate s2.growthRate hm
  simp only [performSphere, lineOfCentres] at h ⊢
  funext i
  simp only [Pi.add_apply, Pi.smul_apply, Pi.sub_apply, smul_eq_mul]
  linear_combination (normalize (s1.position - s2.position) i) * h

/-- Without growth the total momentum is conserved. -/
theorem C52_momentum_conserved (h1 : 0 < s1.radius) (h2 : 0 < s2.radius)
    (hg1 : s1.growthRate = 0) (hg2 : s2.growthRate = 0) :
    s1.mass • (performSphere s1 s2).1.velocity + s2.mass • (performSphere s1 s2).2.velocity =
      s1.mass • s1.velocity + s2.mass • s2.velocity := by
  rw [C52_momentum s1 s2 h1 h2, hg1, hg2]
  simp

/-- `GetKineticEnergy`, `CollidableParticleSphere.cpp:234-237` -/
noncomputable def kineticEnergy (s : Sphere) : ℝ :=
  1 / 2 * s.radius * s.radius * s.radius * dot s.velocity s.velocity

/-- Without growth approaching spheres keep their total kinetic energy. -/
theorem C52_energy_conserved (hp : s1.position ≠ s2.position) (h1 : 0 < s1.radius) (h2 : 0 < s2.radius)
    (hg1 : s1.growthRate = 0) (hg2 : s2.growthRate = 0)
    (happroach : dot (s1.position - s2.position) (s1.velocity - s2.velocity) ≤ 0) :
    kineticEnergy (performSphere s1 s2).1 + kineticEnergy (performSphere s1 s2).2 =
      kineticEnergy s1 + kineticEnergy s2 := by
  have hpos := dot_self_pos (sub_ne_zero.2 hp)
  have hn := normalize_unit hpos
  have hm : s1.mass + s2.mass ≠ 0 := (add_pos (mass_pos s1 h1) (mass_pos s2 h2)).ne'
  have ha : dot (lineOfCentres s1 s2) s1.velocity ≤ dot (lineOfCentres s1 s2) s2.velocity := by
    have h4 : Real.sqrt (dot (s1.position - s2.position) (s1.position - s2.position)) *
        dot (lineOfCentres s1 s2) (s1.velocity - s2.velocity) ≤ 0 := by
      rw [← smul_dot, lineOfCentres, normalize_mul hpos]
      exact happroach
    have h3 := nonpos_of_mul_nonpos_right h4 (Real.sqrt_pos.2 hpos)
    rw [dot_sub] at h3
    linarith
  have h := normal_energy _ _ s1.mass s2.mass hm ha
  simp only [kineticEnergy, performSphere, hg1, hg2]
  rw [dot_self_new hn, dot_self_new hn]
  simp only [Sphere.mass, lineOfCentres] at h ⊢
  linear_combination (1 / 2) * h

/-- The result does not depend on which of the two spheres performs the collision. -/
theorem C52_symmetric (h1 : 0 < s1.radius) (h2 : 0 < s2.radius) :
    performSphere s2 s1 = (performSphere s1 s2).swap := by
  have hm : s1.mass + s2.mass ≠ 0 := (add_pos (mass_pos s1 h1) (mass_pos s2 h2)).ne'
  have e : normalize (s2.position - s1.position) = -normalize (s1.position - s2.position) := by
    rw [← normalize_neg, neg_sub]
  have en : ∀ v, dot (-normalize (s1.position - s2.position)) v = -dot (normalize (s1.position - s2.position)) v := by
    intro v; simp only [dot, Pi.neg_apply]; ring
  simp only [performSphere, e, en, normal_swap _ _ _ _ _ _ hm, Prod.swap]
  simp

/-- A collision changes velocities only. -/
theorem C52_only_velocity :
    (performSphere s1 s2).1 = { s1 with velocity := (performSphere s1 s2).1.velocity } ∧
    (performSphere s1 s2).2 = { s2 with velocity := (performSphere s1 s2).2.velocity } := ⟨rfl, rfl⟩

end spheres

/-- Two spheres of radius 1 and 2 in contact, moving towards each other. -/
example : ∃ s1 s2 : Sphere, s1.position ≠ s2.position ∧ 0 < s1.radius ∧ 0 < s2.radius ∧ s1.growthRate = 0 ∧
    s2.growthRate = 0 ∧ dot (s1.position - s2.position) (s1.velocity - s2.velocity) < 0 := by
  refine ⟨Sphere.mk0 ![3, 0, 0] ![-1, 5, 0] 1 0, Sphere.mk0 ![0, 0, 0] ![1, 0, 0] 2 0, ?_, ?_, ?_, rfl, rfl, ?_⟩
  · intro h
    have := congrFun h 0
    simp [Sphere.mk0] at this
  · simp [Sphere.mk0]
  · simp [Sphere.mk0]
  · simp [Sphere.mk0, dot]; norm_num

/-- If receding spheres are made to collide they stop receding: kinetic energy is lost. -/
theorem C52_energy_counterexample : ∃ s1 s2 : Sphere, s1.position ≠ s2.position ∧ 0 < s1.radius ∧ 0 < s2.radius ∧
    s1.growthRate = 0 ∧ s2.growthRate = 0 ∧
    kineticEnergy (performSphere s1 s2).1 + kineticEnergy (performSphere s1 s2).2 <
      kineticEnergy s1 + kineticEnergy s2 := by
  refine ⟨Sphere.mk0 ![1, 0, 0] ![1, 0, 0] 1 0, Sphere.mk0 ![-1, 0, 0] ![-1, 0, 0] 1 0, ?_, ?_, ?_, rfl, rfl, ?_⟩
  · intro h
    have := congrFun h 0
    norm_num [Sphere.mk0] at this
  · simp [Sphere.mk0]
  · simp [Sphere.mk0]
  · have hn : normalize ((![1, 0, 0] : V3) - ![-1, 0, 0]) = ![1, 0, 0] := by
      have h4 : dot ((![1, 0, 0] : V3) - ![-1, 0, 0]) (![1, 0, 0] - ![-1, 0, 0]) = 2 * 2 := by
        simp [dot]; norm_num
      rw [normalize, h4, if_pos (by norm_num), Real.sqrt_mul_self (by norm_num)]
      funext i
      fin_cases i <;> norm_num
    simp only [performSphere, Sphere.mk0, hn, kineticEnergy, normalVelocities, sphereCollision1D, Sphere.mass]
    simp [dot]
    norm_num

/-! ### Walls -/

theorem reflect_dot {n : V3} (hn : dot n n = 1) (v : V3) (g : ℝ) : dot (reflect v n g) n = |dot v n| + g := by
  simp only [reflect]
  split_ifs with h
  · rw [abs_of_neg h, add_dot, add_dot, smul_dot, smul_dot, hn]
    ring
  · rw [abs_of_nonneg (not_lt.1 h), add_dot, smul_dot, hn]
    ring

theorem reflect_tangential {n : V3} (hn : dot n n = 1) (v : V3) (g : ℝ) :
    reflect v n g - dot (reflect v n g) n • n = v - dot v n • n := by
  rw [reflect_dot hn]
  simp only [reflect]
  split_ifs with h
  · rw [abs_of_neg h]
    funext i
    simp only [Pi.add_apply, Pi.sub_apply, Pi.smul_apply, smul_eq_mul]
    ring
  · rw [abs_of_nonneg (not_lt.1 h)]
    funext i
    simp only [Pi.add_apply, Pi.sub_apply, Pi.smul_apply, smul_eq_mul]
    ring

theorem reflect_along {n : V3} (hn : dot n n = 1) (v : V3) (g : ℝ) {t : V3} (ht : dot t n = 0) :
    dot (reflect v n g) t = dot v t := by
  have h := congrArg (fun x => dot t x) (reflect_tangential hn v g)
  simp only [dot_sub, dot_smul, ht, mul_zero, sub_zero] at h
  rw [dot_comm _ t, dot_comm v t]
  exact h

theorem reflect_speed {n : V3} (hn : dot n n = 1) (v : V3) : dot (reflect v n 0) (reflect v n 0) = dot v v := by
  simp only [reflect, zero_smul, add_zero]
  split_ifs with h
  · simp only [dot_add, add_dot, dot_smul, smul_dot, hn, dot_comm n v]
    ring
  · rfl

theorem wall_unit (p d : V3) (hd : d ≠ 0) : dot (Wall.mk0 p d).direction (Wall.mk0 p d).direction = 1 :=
  normalize_unit (dot_self_pos hd)

/-- After the collision with a wall a sphere moves away from it with its former normal speed plus the growth rate;
the velocity along the wall is not changed. -/
theorem C52_wall (p d : V3) (hd : d ≠ 0) (s : Sphere) :
    dot (performWall (Wall.mk0 p d) s).velocity (Wall.mk0 p d).direction =
      |dot s.velocity (Wall.mk0 p d).direction| + s.growthRate ∧
    ∀ t : V3, dot t (Wall.mk0 p d).direction = 0 → dot (performWall (Wall.mk0 p d) s).velocity t = dot s.velocity t := by
  have hn := wall_unit p d hd
  refine ⟨reflect_dot hn _ _, ?_⟩
  intro t ht
  exact reflect_along hn _ _ ht

/-- At least as fast as it grows. -/
theorem C52_wall_away (p d : V3) (hd : d ≠ 0) (s : Sphere) :
    s.growthRate ≤ dot (performWall (Wall.mk0 p d) s).velocity (Wall.mk0 p d).direction := by
  rw [(C52_wall p d hd s).1]
  linarith [abs_nonneg (dot s.velocity (Wall.mk0 p d).direction)]

/-- Without growth the reflection preserves the speed. -/
theorem C52_wall_speed (p d : V3) (hd : d ≠ 0) (s : Sphere) (hg : s.growthRate = 0) :
    dot (performWall (Wall.mk0 p d) s).velocity (performWall (Wall.mk0 p d) s).velocity = dot s.velocity s.velocity := by
  simp only [performWall, hg]
  exact reflect_speed (wall_unit p d hd) _

/-- The direction from the sphere to the axis of the cylinder. -/
noncomputable def toAxis (w : Cylinder) (s : Sphere) : V3 := normalize (perp w.direction (w.position - s.position))

/-- The same for cylinders and the direction to the axis; a sphere on the axis is refused. -/
theorem C52_cylinder (w : Cylinder) (s : Sphere) :
    (perp w.direction (w.position - s.position) = 0 ∧ performCylinder w s = .throw) ∨
    ∃ s', performCylinder w s = .ok s' ∧
      dot s'.velocity (toAxis w s) = |dot s.velocity (toAxis w s)| + s.growthRate ∧
      (∀ t : V3, dot t (toAxis w s) = 0 → dot s'.velocity t = dot s.velocity t) ∧
      (s.growthRate = 0 → dot s'.velocity s'.velocity = dot s.velocity s.velocity) := by
  by_cases h : perp w.direction (w.position - s.position) = 0
  · left
    refine ⟨h, ?_⟩
    simp only [performCylinder, h]
    rw [if_pos (by simp [dot])]
  · right
    have hpos := dot_self_pos h
    have hn : dot (toAxis w s) (toAxis w s) = 1 := normalize_unit hpos
    refine ⟨{ s with velocity := reflect s.velocity (toAxis w s) s.growthRate }, ?_, reflect_dot hn _ _, ?_, ?_⟩
    · simp only [performCylinder]
      rw [if_neg hpos.ne']
      rfl
    · intro t ht
      exact reflect_along hn _ _ ht
    · intro hg
      rw [hg]
      exact reflect_speed hn _

example : performCylinder (Cylinder.mk0 0 ![0, 0, 1] 5) (Sphere.mk0 0 0 1 0) = .throw := by
  rcases C52_cylinder (Cylinder.mk0 0 ![0, 0, 1] 5) (Sphere.mk0 0 0 1 0) with h | ⟨s', h, -⟩
  · exact h.2
  · exfalso
    simp only [performCylinder] at h
    rw [if_pos (by simp [perp, Cylinder.mk0, Sphere.mk0, dot])] at h
    cases h

end NuTo.Collision
