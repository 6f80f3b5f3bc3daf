import Verif.Model.Sphere
import Verif.Model.CollisionBoxes

/-!
Virtual walls (`nuto/geometryConcrete/collision/collidables/CollidableWallVirtual.cpp`) and the run of a collision
simulation in a specimen of type `Box`.

`double` is `ℝ`.  The event queue is replaced by what it stands for: the events predicted from the present states of the
particles, of which one with the smallest time is performed next.  (`Verif/Model/EventList.lean` has the queue itself.)
-/

namespace NuTo.Collision

/-- A wall of a sub box as `CollidableWallBase`, `SubBoxHandler.cpp:128-135` -/
noncomputable def BoxWall.toWall (w : BoxWall ℝ) : Wall := Wall.mk0 w.position fun i => (w.direction i : ℝ)

open Classical in
/-- `GetDistanceAligned` and `GetDistanceGeneral`, `CollidableWallVirtual.cpp:42-59`: static and dynamic distance -/
noncomputable def virtualDistances (w : Wall) (isInOutsideBox : Bool) (s : Sphere) : Res (ℝ × ℝ) :=
  let sign : ℝ := if isInOutsideBox then 1 else -1
  if w.isAxisAligned then
    match w.nonNullAxis with
    | none => .ub
    | some i => .ok (((toInt (w.direction i) : ℤ) : ℝ) * (s.position i - w.position i) + sign * s.radius,
        ((toInt (w.direction i) : ℤ) : ℝ) * s.velocity i + sign * s.growthRate)
  else .ok (dot w.direction (s.position - w.position) + sign * s.radius,
    dot s.velocity w.direction + sign * s.growthRate)

/-- `CollidableWallVirtual.cpp:77-82`, relative to the last update.  If the rate is zero the quotient is infinite or
undefined: no time, or an infinite one that never enters the queue (`EventListHandler.cpp:57`). -/
noncomputable def exitTime (static dynamic : ℝ) : Option ℝ :=
  if 0 < dynamic then none
  else if dynamic = 0 then none
  else if 0 ≤ -static / dynamic then some (-static / dynamic)
  else none

/-- `CollidableWallVirtual.cpp:94-102`, relative to the last update -/
noncomputable def entryTime (static dynamic radius : ℝ) : Option ℝ :=
  if 0 < dynamic then none
  else
    let static := if static < 0 ∧ -(1 / 10 ^ 12) * radius < static then 0 else static
    if dynamic = 0 then none
    else if 0 ≤ -static / dynamic then some (-static / dynamic)
    else none

/-- `CollidableWallVirtual::PredictCollision`, `CollidableWallVirtual.cpp:61-105` -/
noncomputable def predictVirtual (w : Wall) (isInOutsideBox : Bool) (s : Sphere) : Res (Option ℝ) :=
  (virtualDistances w isInOutsideBox s).bind fun x =>
    .ok ((if isInOutsideBox then exitTime x.1 x.2 else entryTime x.1 x.2 s.radius).map (s.timeOfLastUpdate + ·))

/-- `IsInOutsideBox`, `CollidableWallVirtual.cpp:19-26` -/
def Registration.inOutsideBox (R : Registration) (w : BoxWall ℝ) (sphere : ℕ) : Bool :=
  decide (w.outside ∈ R.boxes sphere)

/-- `CollidableWallVirtual::PerformCollision`, `CollidableWallVirtual.cpp:28-40` -/
def Registration.transfer (R : Registration) (w : BoxWall ℝ) (sphere : ℕ) : Res Registration :=
  if R.inOutsideBox w sphere then R.remove w.inside sphere else .ok (R.add w.outside sphere)

/-- Particles `0 … n - 1`, their registration, and the time of the last performed event (`globalTime`,
`CollisionHandler.cpp:77`) -/
structure Run where
  n : ℕ
  particle : ℕ → Sphere
  registration : Registration
  time : ℝ

/-- The two partners of an event -/
inductive Partners where
  | wall (sphere : ℕ) (wall : BoxWall ℝ)
  | pair (first second : ℕ)

/-- The pairs for which `SubBox::CreateEvents` (`SubBox.cpp:74-83`) asks for a prediction: a particle and the collidables
of the sub boxes it is registered in (`Event.cpp:49-56`, `EventListHandler.cpp:139-148`) -/
def Run.Considered (g : Grid ℝ) (S : Run) : Partners → Prop
  | .wall k w => k < S.n ∧ ∃ b ∈ S.registration.boxes k, w ∈ g.buildSubBoxes b
  | .pair k l => k < S.n ∧ l < S.n ∧ k ≠ l ∧ ∃ b ∈ S.registration.boxes k, l ∈ S.registration.spheres b

/-- `PredictCollision` of the partners -/
noncomputable def Run.predict (S : Run) : Partners → Res (Option ℝ)
  | .wall k w =>
    if w.physical then predictWall w.toWall (S.particle k)
    else predictVirtual w.toWall (S.registration.inOutsideBox w k) (S.particle k)
  | .pair k l => predictSphere (S.particle k) (S.particle l)

/-- `Event::PerformCollision`, `Event.cpp:42-47` -/
noncomputable def Run.perform (S : Run) (time : ℝ) : Partners → Res Run
  | .wall k w =>
    if w.physical then
      .ok { S with particle := Function.update S.particle k (performWallEvent time w.toWall (S.particle k)), time := time }
    else (S.registration.transfer w k).bind fun R =>
      .ok { S with
        particle := Function.update S.particle k ((S.particle k).moveAndGrow time), registration := R, time := time }
  | .pair k l =>
    .ok { S with
      particle := Function.update (Function.update S.particle k (performEvent time (S.particle k) (S.particle l)).1) l
        (performEvent time (S.particle k) (S.particle l)).2
      time := time }

/-- `ParticleHandler::Sync`, `ParticleHandler.cpp:154-158` -/
noncomputable def Run.sync (S : Run) (time : ℝ) : Run :=
  { S with particle := fun k => (S.particle k).moveAndGrow time, time := time }

/-- No event is predicted before `time`. -/
def Run.Quiet (g : Grid ℝ) (S : Run) (time : ℝ) : Prop :=
  ∀ e t, S.Considered g e → S.predict e = .ok (some t) → time ≤ t

/-- One round of the main loop (`CollisionHandler.cpp:90-167`): the next event is performed
(`EventListHandler::PerformNextEvent`), or all particles are moved to a time that no event precedes (`LogStatus`,
`CollisionHandler.cpp:31-47`, and the end of the simulation). -/
inductive Run.Step (g : Grid ℝ) : Run → Run → Prop
  | event (S S' : Run) (e : Partners) (t : ℝ) (hc : S.Considered g e) (hp : S.predict e = .ok (some t))
      (hq : S.Quiet g t) (hr : S.perform t e = .ok S') : Run.Step g S S'
  | sync (S : Run) (t : ℝ) (ht : S.time ≤ t) (hq : S.Quiet g t) : Run.Step g S (S.sync t)

/-- The states a simulation reaches -/
inductive Run.Reach (g : Grid ℝ) (S : Run) : Run → Prop
  | refl : Run.Reach g S S
  | step (S' S'' : Run) (h : Run.Reach g S S') (hs : Run.Step g S' S'') : Run.Reach g S S''

/-- The data of `CollidableParticleSphere` that `AddSpheresToBoxes` reads -/
def Sphere.ball (s : Sphere) : Ball ℝ := ⟨s.position, s.radius⟩

/-- The start of a simulation: new particles (`CollidableParticleSphere.cpp:21-31`), registered by `SubBoxHandler` -/
noncomputable def Run.start (g : Grid ℝ) (ps : List Sphere) : Res Run :=
  (g.addSpheresToBoxes (ps.map Sphere.ball)).bind fun R =>
    .ok { n := ps.length, particle := fun k => ps.getD k (Sphere.mk0 0 0 0 0), registration := R, time := 0 }

end NuTo.Collision
