import Mathlib.Algebra.Order.Floor.Ring
import Mathlib.Data.Fin.VecNotation
import Mathlib.Algebra.BigOperators.Fin
import Verif.Model.Basic

/-!
Sub boxes of the collision simulation: `nuto/geometryConcrete/collision/handler/SubBoxHandler.cpp` and
`nuto/geometryConcrete/collision/SubBox.cpp`.

`double` is an ordered field, `int` is unbounded.  Sub boxes are their positions in `mSubBoxes`, particles their
positions in the particle handler.  The index that walls carry for printing is left out.
-/

namespace NuTo.Collision

variable {K : Type} [Field K] [LinearOrder K] [FloorRing K]

/-- The members `mDivisions` and the bounding box of `mSpecimen`, `SubBoxHandler.h`, `Specimen.h:51-53` -/
structure Grid (K : Type) where
  divisions : Fin 3 → ℤ
  lower : Fin 3 → K
  upper : Fin 3 → K

/-- `Specimen::CalculateLength` (`Specimen.cpp:74-86`) and `GetSubBoxLength` (`SubBoxHandler.cpp:83-86`) -/
def Grid.subLength (g : Grid K) (i : Fin 3) : K := (g.upper i - g.lower i) / (g.divisions i : K)

/-- Restriction to `0 … n - 1`, `SubBoxHandler.cpp:48-55` -/
def clampIndex (n x : ℤ) : ℤ := max (min x (n - 1)) 0

/-- `SubBoxHandler.cpp:57`, `SubBoxHandler.cpp:322` -/
def Grid.linearIndex (g : Grid K) (c : Fin 3 → ℤ) : ℤ :=
  g.divisions 1 * g.divisions 2 * c 0 + g.divisions 2 * c 1 + c 2

/-- `GetBoxIndex`, `SubBoxHandler.cpp:44-58` -/
def Grid.getBoxIndex (g : Grid K) (c : Fin 3 → ℤ) : ℤ :=
  g.linearIndex fun i => clampIndex (g.divisions i) (c i)

/-- `mSubBoxes.size()`, `SubBoxHandler.cpp:96-100` -/
def Grid.size (g : Grid K) : ℤ := g.divisions 0 * g.divisions 1 * g.divisions 2

/-- A wall made by `BuildSubBoxes`: `mPosition`, `mDirection`, whether it is a `CollidableWallPhysical`, `mInsideBox`
and `mOutsideBox` -/
structure BoxWall (K : Type) where
  position : Fin 3 → K
  direction : Fin 3 → ℤ
  physical : Bool
  inside : ℤ
  outside : ℤ

/-- The rows of `neighborBox` and `position`, `SubBoxHandler.cpp:105,107` -/
def wallRows : List ((Fin 3 → ℤ) × (Fin 3 → K)) :=
  [(![-1, 0, 0], ![0, 1 / 2, 1 / 2]), (![1, 0, 0], ![1, 1 / 2, 1 / 2]),
   (![0, -1, 0], ![1 / 2, 0, 1 / 2]), (![0, 1, 0], ![1 / 2, 1, 1 / 2]),
   (![0, 0, -1], ![1 / 2, 1 / 2, 0]), (![0, 0, 1], ![1 / 2, 1 / 2, 1])]

/-- The body of the loop over the walls, `SubBoxHandler.cpp:116-139`; boxes at the same position are the same box. -/
def Grid.wall (g : Grid K) (c : Fin 3 → ℤ) (row : (Fin 3 → ℤ) × (Fin 3 → K)) : BoxWall K where
  position := fun i => (row.2 i + (c i : K)) * g.subLength i + g.lower i
  direction := fun i => -row.1 i
  physical := decide (g.getBoxIndex c = g.getBoxIndex fun i => c i + row.1 i)
  inside := g.getBoxIndex c
  outside := g.getBoxIndex fun i => c i + row.1 i

/-- A loop `for (int i = lo; i <= hi; ++i)` -/
def intSpan (lo hi : ℤ) : List ℤ := (List.range (hi + 1 - lo).toNat).map fun k : ℕ => lo + (k : ℤ)

/-- Three nested loops, `SubBoxHandler.cpp:109-111,316-318` -/
def cellSpan (lo hi : Fin 3 → ℤ) : List (Fin 3 → ℤ) :=
  (intSpan (lo 0) (hi 0)).flatMap fun x => (intSpan (lo 1) (hi 1)).flatMap fun y =>
    (intSpan (lo 2) (hi 2)).map fun z => ![x, y, z]

/-- `BuildSubBoxes`, `SubBoxHandler.cpp:88-142`: the walls of each sub box -/
def Grid.buildSubBoxes (g : Grid K) : ℤ → List (BoxWall K) :=
  (cellSpan (fun _ => 0) (fun i => g.divisions i - 1)).foldl
    (fun boxes c => Function.update boxes (g.getBoxIndex c) (wallRows.map (g.wall c))) fun _ => []

/-- The particles among `SubBox::mCollidables` (they follow the walls) and `CollidableBase::mBoxes` of the particles -/
structure Registration where
  spheres : ℤ → List ℕ
  boxes : ℕ → List ℤ

/-- `SubBox::AddSphere`, `SubBox.cpp:28-32`, `CollidableBase.cpp:46-49` -/
def Registration.add (R : Registration) (box : ℤ) (sphere : ℕ) : Registration where
  spheres := Function.update R.spheres box (R.spheres box ++ [sphere])
  boxes := Function.update R.boxes sphere (R.boxes sphere ++ [box])

/-- `SubBox::RemoveSphere`, `SubBox.cpp:34-39`, `CollidableBase.cpp:51-57` -/
def Registration.remove (R : Registration) (box : ℤ) (sphere : ℕ) : Res Registration :=
  if (R.boxes sphere).filter (· ≠ box) = [] then .throw
  else .ok
    { spheres := Function.update R.spheres box ((R.spheres box).filter (· ≠ sphere))
      boxes := Function.update R.boxes sphere ((R.boxes sphere).filter (· ≠ box)) }

/-- `GetPosition` and `GetRadius` of a particle -/
structure Ball (K : Type) where
  position : Fin 3 → K
  radius : K

/-- The corners of the bounding cube, `SubBoxHandler.cpp:276-288` -/
def Ball.corners (p : Ball K) : List (Fin 3 → K) :=
  ([-1, 1] : List ℤ).flatMap fun x => ([-1, 1] : List ℤ).flatMap fun y => ([-1, 1] : List ℤ).map fun z =>
    fun i => p.position i + ((![x, y, z] : Fin 3 → ℤ) i : K) * p.radius

/-- `SubBoxHandler.cpp:300-305` -/
def Grid.cornerIndex (g : Grid K) (x : Fin 3 → K) (i : Fin 3) : ℤ := ⌊(x i - g.lower i) / g.subLength i⌋

/-- `xs`, `ys`, `zs`, `SubBoxHandler.cpp:290-292,308-310` -/
def Grid.first (g : Grid K) (p : Ball K) (i : Fin 3) : ℤ :=
  p.corners.foldl (fun m x => min m (g.cornerIndex x i)) (g.divisions i)

/-- `xe`, `ye`, `ze`, `SubBoxHandler.cpp:293-295,311-313` -/
def Grid.last (g : Grid K) (p : Ball K) (i : Fin 3) : ℤ :=
  p.corners.foldl (fun m x => max m (g.cornerIndex x i)) 0

/-- `SubBoxHandler.cpp:321-330`; `mSubBoxes[boxIndex]` with a negative index is undefined.  `mCollidables` holds at least
the six walls, its last element is the particle or something else. -/
def Grid.addToBox (g : Grid K) (sphere : ℕ) (R : Registration) (c : Fin 3 → ℤ) : Res Registration :=
  if g.size ≤ |g.linearIndex c| then .throw
  else if g.linearIndex c < 0 then .ub
  else if (R.spheres (g.linearIndex c)).getLast? = some sphere then .ok R
  else .ok (R.add (g.linearIndex c) sphere)

/-- The body of the loop over the particles, `SubBoxHandler.cpp:276-331` -/
def Grid.addSphereToBoxes (g : Grid K) (R : Registration) (x : Ball K × ℕ) : Res Registration :=
  Res.foldlM (g.addToBox x.2) R (cellSpan (g.first x.1) (g.last x.1))

/-- Sub boxes and particles after construction -/
def Registration.empty : Registration := ⟨fun _ => [], fun _ => []⟩

/-- `AddSpheresToBoxes`, `SubBoxHandler.cpp:264-333` -/
def Grid.addSpheresToBoxes (g : Grid K) (particles : List (Ball K)) : Res Registration :=
  Res.foldlM g.addSphereToBoxes Registration.empty particles.zipIdx

end NuTo.Collision
