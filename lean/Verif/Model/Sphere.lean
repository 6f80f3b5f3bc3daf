import Mathlib.Analysis.Real.Sqrt
import Mathlib.Algebra.Order.Floor.Ring
import Verif.Model.Basic

/-!
Moving and growing spheres, plane walls and cylinders: `nuto/geometryConcrete/collision/collidables`.

`double` and `long double` are real numbers, `std::sqrt` is `Real.sqrt`.  `Event::EVENTNULL` is `none`.
Indices, boxes, the initial radius and the local event lists (`Verif/Model/EventList.lean`) are left out.
-/

namespace NuTo.Collision

/-- `Eigen::Vector3d` -/
abbrev V3 := Fin 3 → ℝ

/-- `dot` -/
def dot (u v : V3) : ℝ := u 0 * v 0 + u 1 * v 1 + u 2 * v 2

/-- `normalize`: vectors of length zero stay as they are (Eigen 3.3). -/
noncomputable def normalize (v : V3) : V3 :=
  if 0 < dot v v then (1 / Real.sqrt (dot v v)) • v else v

/-- Members of `CollidableParticleSphere`, `CollidableParticleSphere.h:117-134`, `CollidableParticleBase.h:36-39` -/
structure Sphere where
  position : V3
  velocity : V3
  radius : ℝ
  radiusGrowth : ℝ
  growthRate : ℝ
  timeOfLastUpdate : ℝ
  timeOfGrowthReset : ℝ

/-- Constructor, `CollidableParticleSphere.cpp:21-31` -/
def Sphere.mk0 (position velocity : V3) (radius growthRate : ℝ) : Sphere :=
  ⟨position, velocity, radius, radius, growthRate, 0, 0⟩

/-- `MoveAndGrow`, `CollidableParticleSphere.cpp:33-42` -/
def Sphere.moveAndGrow (s : Sphere) (time : ℝ) : Sphere :=
  { s with
    position := s.position + (time - s.timeOfLastUpdate) • s.velocity
    radius := s.radiusGrowth + s.growthRate * (time - s.timeOfGrowthReset)
    timeOfLastUpdate := time }

/-- `SetGrowthRate`, `CollidableParticleSphere.cpp:44-53` -/
def Sphere.setGrowthRate (s : Sphere) (factor time : ℝ) : Sphere :=
  { s with
    radiusGrowth := s.radiusGrowth + s.growthRate * (time - s.timeOfGrowthReset)
    growthRate := s.growthRate * factor
    timeOfGrowthReset := time }

/-- `SphereCollision1D`, `CollidableParticleSphere.cpp:55-59` -/
noncomputable def sphereCollision1D (velocity1 velocity2 mass1 mass2 : ℝ) : ℝ :=
  (velocity1 * (mass1 - mass2) + 2 * velocity2 * mass2) / (mass1 + mass2)

/-- The mass of a sphere, `CollidableParticleSphere.cpp:71-72` -/
def Sphere.mass (s : Sphere) : ℝ := s.radius * s.radius * s.radius

/-- The normal velocities after steps 3.1-3.3, `CollidableParticleSphere.cpp:87-109` -/
noncomputable def normalVelocities (v1 v2 mass1 mass2 g1 g2 : ℝ) : ℝ × ℝ :=
  let new1 := sphereCollision1D v1 v2 mass1 mass2
  let new2 := sphereCollision1D v2 v1 mass2 mass1
  let effective := new1 - new2
  let corrected : ℝ × ℝ :=
    if effective < 0 then
      let difference1 := -effective * mass2 / (mass1 + mass2)
      let difference2 := -effective - difference1
      (new1 + difference1, new2 - difference2)
    else (new1, new2)
  (corrected.1 + 2 * g1, corrected.2 - 2 * g2)

/-- `PerformCollision(CollidableParticleSphere&)`, `CollidableParticleSphere.cpp:66-114`: `this` is `s1` -/
noncomputable def performSphere (s1 s2 : Sphere) : Sphere × Sphere :=
  let n := normalize (s1.position - s2.position)
  let velocityNormal1 := dot n s1.velocity
  let velocityNormal2 := dot n s2.velocity
  let transversal1 := s1.velocity - velocityNormal1 • n
  let transversal2 := s2.velocity - velocityNormal2 • n
  let new := normalVelocities velocityNormal1 velocityNormal2 s1.mass s2.mass s1.growthRate s2.growthRate
  ({ s1 with velocity := new.1 • n + transversal1 }, { s2 with velocity := new.2 • n + transversal2 })

/-- The solution of the quadratic equation, `CollidableParticleSphere.cpp:154-172`, relative to `baseTime` -/
noncomputable def firstRoot (a b c : ℝ) : Option ℝ :=
  let discriminant := b * b - 4 * a * c
  if discriminant < -(1 / 10 ^ 12) then none
  else
    let d := max discriminant 0
    if b < 0 then some (2 * c / (-b + Real.sqrt d))
    else if a < 0 then some ((-b - Real.sqrt d) / (2 * a))
    else none

/-- `PredictCollision` of two different spheres, `CollidableParticleSphere.cpp:126-173`, after choosing the one with
the later update (`s1`) -/
noncomputable def predictOrdered (s1 s2 : Sphere) : Res (Option ℝ) :=
  let dt := s1.timeOfLastUpdate - s2.timeOfLastUpdate
  let dP := s1.position - (s2.position + dt • s2.velocity)
  let dV := s1.velocity - s2.velocity
  let dR := s1.radius + s2.radius + s2.growthRate * dt
  let dG := s1.growthRate + s2.growthRate
  let a := dot dV dV - dG * dG
  let b := 2 * (dot dV dP - dR * dG)
  let c := dot dP dP - dR * dR
  if c < -(2 / 10 ^ 10) * s1.radius then .throw
  else .ok ((firstRoot a b c).map (s1.timeOfLastUpdate + ·))

/-- `PredictCollision(CollidableParticleSphere&)`, `CollidableParticleSphere.cpp:126-173` for `this = s` and another
sphere `o`; `this == &rSphere` gives no event. -/
noncomputable def predictSphere (s o : Sphere) : Res (Option ℝ) :=
  if s.timeOfLastUpdate > o.timeOfLastUpdate then predictOrdered s o else predictOrdered o s

/-- Members of `CollidableWallBase`, `CollidableWallBase.h:99-119` -/
structure Wall where
  position : V3
  direction : V3
  nonNullAxis : Option (Fin 3)
  isAxisAligned : Prop

/-- `GetNonNullAxis`, `CollidableWallBase.cpp:138-144`; `-1` is `none` -/
noncomputable def nonNullAxis (d : V3) : Option (Fin 3) :=
  if d 0 ≠ 0 then some 0 else if d 1 ≠ 0 then some 1 else if d 2 ≠ 0 then some 2 else none

/-- Constructor, `CollidableWallBase.cpp:18-28`: axis and alignment are found before the direction is normalised
(members in the order of their declaration in `CollidableWallBase.h`) -/
noncomputable def Wall.mk0 (position direction : V3) : Wall where
  position := position
  nonNullAxis := NuTo.Collision.nonNullAxis direction
  isAxisAligned := |direction 0 + direction 1 + direction 2| = 1
  direction := normalize direction

/-- The velocity after a collision with a plane with unit normal `n`: `CollidableWallPhysical.cpp:20-27`,
`CollidableWallCylinder.cpp:35-41` -/
noncomputable def reflect (velocity n : V3) (growthRate : ℝ) : V3 :=
  let velocityNormal := dot velocity n
  let v := if velocityNormal < 0 then velocity + (-2 * velocityNormal) • n else velocity
  v + growthRate • n

/-- `CollidableWallPhysical::PerformCollision`, `CollidableWallPhysical.cpp:18-28` -/
noncomputable def performWall (w : Wall) (s : Sphere) : Sphere :=
  { s with velocity := reflect s.velocity w.direction s.growthRate }

/-- Conversion of a `double` to `int` (`CollidableWallPhysical.cpp:42`) -/
noncomputable def toInt (x : ℝ) : ℤ := if 0 ≤ x then ⌊x⌋ else ⌈x⌉

open Classical in
/-- Distance of the sphere's surface to the wall and its rate, `CollidableWallPhysical.cpp:37-53` -/
noncomputable def distances (w : Wall) (s : Sphere) : Res (ℝ × ℝ) :=
  if w.isAxisAligned then
    match w.nonNullAxis with
    | none => .ub
    | some i => .ok (((toInt (w.direction i) : ℤ) : ℝ) * (s.position i - w.position i) - s.radius,
        ((toInt (w.direction i) : ℤ) : ℝ) * s.velocity i - s.growthRate)
  else .ok (dot w.direction (s.position - w.position) - s.radius, dot s.velocity w.direction - s.growthRate)

/-- `CollidableWallPhysical.cpp:55-62`, relative to the sphere's last update.  If the rate is zero the distance is
at least 1e-15 and the quotient is minus infinity. -/
noncomputable def wallTime (static dynamic : ℝ) : Option ℝ :=
  if static < 1 / 10 ^ 15 ∧ 0 ≤ dynamic then none
  else if dynamic = 0 then none
  else if 0 ≤ -static / dynamic then some (-static / dynamic)
  else none

/-- `CollidableWallPhysical::PredictCollision`, `CollidableWallPhysical.cpp:30-63` -/
noncomputable def predictWall (w : Wall) (s : Sphere) : Res (Option ℝ) :=
  (distances w s).bind fun x => .ok ((wallTime x.1 x.2).map (s.timeOfLastUpdate + ·))

/-- Members of `CollidableWallCylinder`, `CollidableWallCylinder.h:57` (the height is not used in collisions) -/
structure Cylinder where
  position : V3
  direction : V3
  radius : ℝ

/-- Constructor, `CollidableWallCylinder.cpp:16-22`, `CollidableWallBase.cpp:18-28` -/
noncomputable def Cylinder.mk0 (position direction : V3) (radius : ℝ) : Cylinder :=
  ⟨position, normalize direction, radius⟩

/-- The part of a vector perpendicular to the axis, `CollidableWallCylinder.cpp:28,50,51` -/
def perp (d v : V3) : V3 := v - dot v d • d

/-- `CollidableWallCylinder::PerformCollision`, `CollidableWallCylinder.cpp:24-42` -/
noncomputable def performCylinder (w : Cylinder) (s : Sphere) : Res Sphere :=
  let n := perp w.direction (w.position - s.position)
  if dot n n = 0 then .throw
  else .ok { s with velocity := reflect s.velocity (normalize n) s.growthRate }

/-- `CollidableWallCylinder.cpp:63-83`, relative to the sphere's last update -/
noncomputable def cylinderRoot (a b c : ℝ) : Option ℝ :=
  let discriminant := b * b - 4 * a * c
  if -(1 / 10 ^ 11) < discriminant then
    let d := if discriminant < 0 then 0 else discriminant
    if 0 < b then
      let t := 2 * c / (-b - Real.sqrt d)
      if 0 ≤ t then some t else none
    else if 0 < a ∧ b ≤ 0 then some ((-b + Real.sqrt d) / (2 * a))
    else none
  else none

/-- `CollidableWallCylinder::PredictCollision`, `CollidableWallCylinder.cpp:44-86` -/
noncomputable def predictCylinder (w : Cylinder) (s : Sphere) : Res (Option ℝ) :=
  let dP := perp w.direction (s.position - w.position)
  let dV := perp w.direction s.velocity
  let dR := w.radius - s.radius
  let dG := -s.growthRate
  let a := dot dV dV - dG * dG
  let c := dot dP dP - dR * dR
  let b := 2 * (dot dV dP - dR * dG)
  if 2 / 10 ^ 10 * s.radius < c then .throw
  else .ok ((cylinderRoot a b c).map (s.timeOfLastUpdate + ·))

/-- `Event::PerformCollision`, `Event.cpp:42-47` for two spheres: both move to the time of the event.  By double
dispatch (`CollidableParticleSphere.cpp:61-64`) the second partner is `this` in the collision. -/
noncomputable def performEvent (time : ℝ) (first second : Sphere) : Sphere × Sphere :=
  (performSphere (second.moveAndGrow time) (first.moveAndGrow time)).swap

/-- `Event::PerformCollision`, `Event.cpp:42-47` for a sphere and a plane wall -/
noncomputable def performWallEvent (time : ℝ) (w : Wall) (s : Sphere) : Sphere := performWall w (s.moveAndGrow time)

end NuTo.Collision
