import Verif.Model.CollisionRun
import Mathlib.Analysis.SpecialFunctions.Pow.Real
import Mathlib.Analysis.Real.Pi.Bounds

/-!
Collision simulations in specimens of type `Cylinder`: `SubBoxHandler::BuildCylinder`
(`nuto/geometryConcrete/collision/handler/SubBoxHandler.cpp`) and `ParticleHandler::GetSubBoxDivisions`.

As in `Verif/Model/CollisionRun.lean` `double` is `ℝ` and the event queue is replaced by the predicted events.
-/

namespace NuTo.Collision

/-- `Specimen::GetLength(int)`, `Specimen.cpp:74-86,108-111` -/
def Grid.length (g : Grid ℝ) (i : Fin 3) : ℝ := g.upper i - g.lower i

/-- The wall made in `BuildCylinder`, `SubBoxHandler.cpp:213-221` -/
noncomputable def Grid.cylinder (g : Grid ℝ) : Cylinder :=
  Cylinder.mk0 ![g.lower 0 + g.length 0 / 2, g.lower 1 + g.length 0 / 2, g.lower 2 + g.length 2] ![0, 0, 1]
    (g.length 0 / 2)

/-- `CollidableWallCylinder::IsInside`, `CollidableWallCylinder.cpp:170-176` -/
def Cylinder.IsInside (w : Cylinder) (s : Sphere) : Prop :=
  dot (perp w.direction (s.position - w.position)) (perp w.direction (s.position - w.position)) <
    (w.radius - s.radius) * (w.radius - s.radius)

/-- `GetXYWalls`, `SubBoxHandler.cpp:144-153` -/
def xyWalls (walls : List (BoxWall ℝ)) : List (BoxWall ℝ) := walls.filter fun w => w.direction 2 = 0

/-- Smallest element, `SubBoxHandler.cpp:157-168`; `INFINITY` is `none` -/
noncomputable def smallest (l : List ℝ) : Option ℝ :=
  l.foldl (fun m x => some (match m with | none => x | some y => min y x)) none

/-- Largest element, `SubBoxHandler.cpp:159-170`; `-INFINITY` is `none` -/
noncomputable def largest (l : List ℝ) : Option ℝ :=
  l.foldl (fun m x => some (match m with | none => x | some y => max y x)) none

/-- `GetXYCorners`, `SubBoxHandler.cpp:155-182`; `rWalls[0]` of an empty vector is undefined -/
noncomputable def xyCorners (walls : List (BoxWall ℝ)) : Res (List V3) :=
  match walls.head?, smallest (walls.map (·.position 0)), smallest (walls.map (·.position 1)),
      largest (walls.map (·.position 0)), largest (walls.map (·.position 1)) with
  | some w, some xMin, some yMin, some xMax, some yMax =>
    .ok [![xMin, yMin, w.position 2], ![xMin, yMax, w.position 2], ![xMax, yMin, w.position 2],
      ![xMax, yMax, w.position 2]]
  | _, _, _, _, _ => .ub

open Classical in
/-- The body of the loop of `GetNInside`, `SubBoxHandler.cpp:194-210`: corners of the sub box inside the cylinder -/
noncomputable def Grid.nInside (g : Grid ℝ) (box : ℤ) : Res ℕ :=
  (xyCorners (xyWalls (g.buildSubBoxes box))).bind fun corners =>
    .ok (corners.filter fun c => decide (g.cylinder.IsInside (Sphere.mk0 c 0 0 0))).length

/-- The sub box gets the cylinder as a wall, `SubBoxHandler.cpp:230-237` -/
def Grid.HasCylinder (g : Grid ℝ) (box : ℤ) : Prop := ∃ n, g.nInside box = .ok n ∧ 1 ≤ n ∧ n ≤ 3

/-- The plane walls that are left after the side walls have been deleted, `SubBoxHandler.cpp:239-261`.  (The cylinder has
the direction of the axis: it is not a side wall.) -/
noncomputable def Grid.cylinderWalls (g : Grid ℝ) (box : ℤ) : List (BoxWall ℝ) :=
  (g.buildSubBoxes box).filter fun w => !(w.physical && decide (w.direction 2 = 0))

/-- The partners of an event in a cylinder -/
inductive CylPartners where
  | plain (e : Partners)
  | shell (sphere : ℕ)

/-- As `Run.Considered`, with the walls of the sub boxes of a cylinder -/
def Run.CylConsidered (g : Grid ℝ) (S : Run) : CylPartners → Prop
  | .plain (.wall k w) => k < S.n ∧ ∃ b ∈ S.registration.boxes k, w ∈ g.cylinderWalls b
  | .plain (.pair k l) => S.Considered g (.pair k l)
  | .shell k => k < S.n ∧ ∃ b ∈ S.registration.boxes k, g.HasCylinder b

/-- `PredictCollision` of the partners -/
noncomputable def Run.cylPredict (g : Grid ℝ) (S : Run) : CylPartners → Res (Option ℝ)
  | .plain e => S.predict e
  | .shell k => predictCylinder g.cylinder (S.particle k)

/-- `Event::PerformCollision`, `Event.cpp:42-47` -/
noncomputable def Run.cylPerform (g : Grid ℝ) (S : Run) (time : ℝ) : CylPartners → Res Run
  | .plain e => S.perform time e
  | .shell k => (performCylinder g.cylinder ((S.particle k).moveAndGrow time)).bind fun s =>
    .ok { S with particle := Function.update S.particle k s, time := time }

/-- No event is predicted before `time`. -/
def Run.CylQuiet (g : Grid ℝ) (S : Run) (time : ℝ) : Prop :=
  ∀ e t, S.CylConsidered g e → S.cylPredict g e = .ok (some t) → time ≤ t

/-- One round of the main loop, as `Run.Step` -/
inductive Run.CylStep (g : Grid ℝ) : Run → Run → Prop
  | event (S S' : Run) (e : CylPartners) (t : ℝ) (hc : S.CylConsidered g e) (hp : S.cylPredict g e = .ok (some t))
      (hq : S.CylQuiet g t) (hr : S.cylPerform g t e = .ok S') : Run.CylStep g S S'
  | sync (S : Run) (t : ℝ) (ht : S.time ≤ t) (hq : S.CylQuiet g t) : Run.CylStep g S (S.sync t)

/-- The states a simulation reaches up to time `T` -/
inductive Run.CylReach (g : Grid ℝ) (T : ℝ) (S : Run) : Run → Prop
  | refl : Run.CylReach g T S S
  | step (S' S'' : Run) (h : Run.CylReach g T S S') (hs : Run.CylStep g S' S'') (ht : S''.time ≤ T) : Run.CylReach g T S S''

/-- `Specimen::GetVolume` of a cylinder, `Specimen.cpp:51-63` (for identical extents in `x` and `y`) -/
noncomputable def cylinderVolume (length : Fin 3 → ℝ) : ℝ := Real.pi * (1 / 4) * length 0 * length 0 * length 2

/-- `GetSubBoxDivisions`, `ParticleHandler.cpp:346-360`.  The quotient of integers is rounded down; division by zero of
integers is undefined, a sub box of infinite volume (quotient 0) gives `ceil(0)`. -/
noncomputable def subBoxDivisions (volume : ℝ) (length : Fin 3 → ℝ) (numParticles perBox : ℕ) : Res (Fin 3 → ℤ) :=
  if perBox = 0 then .ub
  else if numParticles / perBox = 0 then .ok fun _ => max 0 1
  else .ok fun i => max ⌈length i / (volume / ((numParticles / perBox : ℕ) : ℝ)) ^ ((1 : ℝ) / 3)⌉ 1

end NuTo.Collision
