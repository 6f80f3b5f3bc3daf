import Verif.Model.CollisionRun
import Mathlib.Order.Bounds.Basic

/-!
The main loop of the collision simulation, `nuto/geometryConcrete/collision/handler/CollisionHandler.cpp:58-185`, and the
two simulations of `nuto/geometryConcrete/GeometryConcrete.cpp`.

* Readings of the timer and durations are arbitrary numbers.
* The queue holds the predictions up to the time barrier for the states of the particles (`Run.queued`).
* Status print-outs (`LogStatus`, lines 122-130) are left out: they move all particles along their paths.
-/

namespace NuTo.Collision

/-- The times in the queue: `AddEvent` (`EventListHandler.cpp:52-61`) drops times that are negative or beyond the
barrier. -/
def Run.queued (g : Grid ℝ) (S : Run) (barrier : ℝ) : Set ℝ :=
  { t | ∃ e, S.Considered g e ∧ S.predict e = .ok (some t) ∧ 0 ≤ t ∧ t ≤ barrier }

/-- `EventListHandler::GetNextEventTime`, `EventListHandler.cpp:74-80` -/
inductive NextTime (q : Set ℝ) : ℝ → Prop
  | null (h : q = ∅) : NextTime q (-1)
  | least (t : ℝ) (h : IsLeast q t) : NextTime q t

/-- The parameters of `Simulate` -/
structure SimSettings where
  numEventsMax : ℤ
  timeMax : ℝ
  wallTimeMax : ℝ
  initialTimeBarrier : ℝ

/-- The variables of the loop, `CollisionHandler.cpp:68-86` -/
structure Sim where
  run : Run
  globalTime : ℝ
  oldGlobalTime : ℝ
  barrier : ℝ
  globalTimeOfBarrierReset : ℝ
  wallTimeOfBarrierReset : ℝ
  wTimeEventList : ℝ
  noChangeCounter : ℤ
  noChangeGlobalTime : ℝ

/-- `CollisionHandler.cpp:68-86`; `rebuild` is the time `SetTimeBarrier` took -/
noncomputable def Sim.initial (c : SimSettings) (S : Run) (rebuild : ℝ) : Sim :=
  { run := S, globalTime := 0, oldGlobalTime := 0, barrier := c.initialTimeBarrier, globalTimeOfBarrierReset := 0,
    wallTimeOfBarrierReset := 0, wTimeEventList := rebuild, noChangeCounter := 0, noChangeGlobalTime := 0 }

/-- `SetTimeBarrier` and the lines after it, with a new barrier, the next time, the duration and the timer reading -/
noncomputable def Sim.withBarrier (s : Sim) (barrier t rebuild wall : ℝ) : Sim :=
  { s with
    barrier := barrier
    wTimeEventList := max rebuild (5 / 100)
    globalTime := t
    globalTimeOfBarrierReset := t
    wallTimeOfBarrierReset := wall }

/-- `CollisionHandler.cpp:94` -/
noncomputable def Sim.barrierEmpty (s : Sim) : ℝ := s.oldGlobalTime + 10 * (s.oldGlobalTime - s.globalTimeOfBarrierReset)

/-- `CollisionHandler.cpp:108` -/
noncomputable def Sim.barrierReset (s : Sim) : ℝ :=
  s.oldGlobalTime + 11 / 10 * (s.oldGlobalTime - s.globalTimeOfBarrierReset)

/-- `CollisionHandler.cpp:90-103` -/
inductive Sim.Fetch (g : Grid ℝ) (s : Sim) : Sim → Prop
  | ready (t : ℝ) (h : NextTime (s.run.queued g s.barrier) t) (ht : t ≠ -1) : Sim.Fetch g s { s with globalTime := t }
  | empty (t rebuild wall : ℝ) (h : NextTime (s.run.queued g s.barrier) (-1))
      (ht : NextTime (s.run.queued g s.barrierEmpty) t) : Sim.Fetch g s (s.withBarrier s.barrierEmpty t rebuild wall)

/-- `CollisionHandler.cpp:105-117` -/
inductive Sim.Renew (g : Grid ℝ) (s : Sim) : Sim → Prop
  | keep (wall : ℝ) (h : ¬ s.wallTimeOfBarrierReset + 5 * s.wTimeEventList < wall) : Sim.Renew g s s
  | reset (wall t rebuild wall' : ℝ) (h : s.wallTimeOfBarrierReset + 5 * s.wTimeEventList < wall)
      (ht : NextTime (s.run.queued g s.barrierReset) t) :
      Sim.Renew g s (s.withBarrier s.barrierReset t rebuild wall')

/-- `CollisionHandler.cpp:143-166` for the state after the event; `none`: the exception of line 152 -/
noncomputable def Sim.count (c : SimSettings) (s : Sim) (S : Run) : Option Sim :=
  if s.globalTime - s.noChangeGlobalTime < 1 / 10 ^ 6 then
    if c.numEventsMax < s.noChangeCounter + 1 then none
    else some { s with run := S, noChangeCounter := s.noChangeCounter + 1, oldGlobalTime := s.globalTime }
  else some { s with
    run := S, noChangeCounter := 0, noChangeGlobalTime := s.globalTime, oldGlobalTime := s.globalTime }

/-- How `Simulate` ends -/
inductive Outcome where
  /-- normally, with the particles, the time they are at and the reading of the timer -/
  | returned (run : Run) (time wall : ℝ)
  /-- by an exception -/
  | threw
  /-- by an undefined operation (`*begin()` of an empty set, `EventListHandler.cpp:114`) -/
  | undefined

/-- The loop of `CollisionHandler.cpp:89-167` and what follows it -/
inductive Loop (g : Grid ℝ) (c : SimSettings) : Sim → Outcome → Prop
  /-- the loop condition fails (`wall` is the reading of the timer) -/
  | stop (s : Sim) (wall wall' : ℝ) (h : ¬ (wall < c.wallTimeMax ∧ s.globalTime < c.timeMax)) (hw : wall ≤ wall') :
      Loop g c s (.returned (s.run.sync s.globalTime) s.globalTime wall')
  /-- there is no event to perform -/
  | undefined (s s1 s2 : Sim) (wall : ℝ) (h : wall < c.wallTimeMax ∧ s.globalTime < c.timeMax) (h1 : s.Fetch g s1)
      (h2 : s1.Renew g s2) (hq : s2.run.queued g s2.barrier = ∅) : Loop g c s .undefined
  /-- performing the event throws -/
  | failed (s s1 s2 : Sim) (e : Partners) (t wall : ℝ) (h : wall < c.wallTimeMax ∧ s.globalTime < c.timeMax)
      (h1 : s.Fetch g s1) (h2 : s1.Renew g s2) (hq : IsLeast (s2.run.queued g s2.barrier) t)
      (hc : s2.run.Considered g e) (hp : s2.run.predict e = .ok (some t)) (hr : s2.run.perform t e = .throw) :
      Loop g c s .threw
  /-- there was no significant change during `rNumEventsMax` events -/
  | stuck (s s1 s2 : Sim) (S : Run) (e : Partners) (t wall : ℝ) (h : wall < c.wallTimeMax ∧ s.globalTime < c.timeMax)
      (h1 : s.Fetch g s1) (h2 : s1.Renew g s2) (hq : IsLeast (s2.run.queued g s2.barrier) t)
      (hc : s2.run.Considered g e) (hp : s2.run.predict e = .ok (some t)) (hr : s2.run.perform t e = .ok S)
      (hn : s2.count c S = none) : Loop g c s .threw
  | round (s s1 s2 s3 : Sim) (S : Run) (e : Partners) (t wall : ℝ) (o : Outcome)
      (h : wall < c.wallTimeMax ∧ s.globalTime < c.timeMax)
      (h1 : s.Fetch g s1) (h2 : s1.Renew g s2) (hq : IsLeast (s2.run.queued g s2.barrier) t)
      (hc : s2.run.Considered g e) (hp : s2.run.predict e = .ok (some t)) (hr : s2.run.perform t e = .ok S)
      (hn : s2.count c S = some s3) (ho : Loop g c s3 o) : Loop g c s o

/-- `CollisionHandler::Simulate`, `CollisionHandler.cpp:58-185` -/
def Simulate (g : Grid ℝ) (c : SimSettings) (S : Run) (o : Outcome) : Prop :=
  ∃ rebuild, Loop g c (Sim.initial c S rebuild) o

/-- `ParticleHandler::CreateParticlesFromMatrix`, `ParticleHandler.cpp:293-311`, for rows of positions and radii and the
random velocities -/
noncomputable def createParticles (relative absolute : ℝ) (rows : List ((Fin 3 → ℝ) × ℝ × (Fin 3 → ℝ))) : List Sphere :=
  rows.map fun r => Sphere.mk0 r.1 r.2.2 r.2.1 (r.2.1 * relative + absolute)

/-- `timeEnd` of `MaximizeParticleDistance`, `GeometryConcrete.cpp:49` -/
noncomputable def distanceTimeEnd (distance absolute : ℝ) : ℝ := 1 / 2 * distance / absolute

/-- `timeEnd` of `MaximizeParticleVolumeFraction`, `GeometryConcrete.cpp:91` -/
noncomputable def volumeTimeEnd (shrinkage relative : ℝ) : ℝ := (1 / (1 - shrinkage) - 1) / relative

/-- `ExportRow`, `CollidableParticleSphere.cpp:180-186`: the position and the initial or the present radius.  (`mRadius0` is
not changed after the constructor; `mRadiusGrowth` has the same value as long as `SetGrowthRate` is not called, which
neither the loop nor `GeometryConcrete` does.) -/
noncomputable def exportRow (s : Sphere) (initialRadius : Bool) : (Fin 3 → ℝ) × ℝ :=
  (s.position, if initialRadius then s.radiusGrowth else s.radius)

end NuTo.Collision
