import Verif.Model.Basic
import Mathlib.Data.Rat.Defs
import Mathlib.Algebra.Order.Ring.Unbundled.Rat

/-!
Who releases the objects that the generator of concrete geometries creates with `new`:
`nuto/geometryConcrete/GeometryConcrete.cpp`, `nuto/geometryConcrete/collision/handler/{ParticleHandler,SubBoxHandler}.cpp`,
`nuto/geometryConcrete/collision/{SubBox,Event}.cpp`.

Objects are named in the order of their creation and names are not used again: an access to a released object or a second
release is undefined whether or not the allocator has handed out its memory again.  Allocation does not fail.  Positions, radii
and times are left out; how many particles there are, which walls they have, how the simulation ends and which events are then
in the list are arbitrary.  The bounds of a specimen are accepted; `Model/Specimen` treats constructors of `Specimen` that throw.
-/

namespace NuTo.Ownership

/-- The objects that exist, and the number of objects that were ever created -/
structure Heap where
  live : List Nat
  next : Nat
deriving DecidableEq

/-- `new`, `n` times -/
def Heap.news (h : Heap) (n : Nat) : List Nat × Heap :=
  (List.range' h.next n, ⟨List.range' h.next n ++ h.live, h.next + n⟩)

/-- `delete` of an object -/
def Heap.free (h : Heap) (a : Nat) : Res Heap := Res.require (a ∈ h.live) (.ok { h with live := h.live.erase a })

/-- `delete` of objects, one after the other -/
def Heap.frees (h : Heap) (l : List Nat) : Res Heap := Res.foldlM Heap.free h l

/-- An access to objects -/
def Heap.touch {α : Type} (h : Heap) (l : List Nat) (r : Res α) : Res α := Res.require (∀ a ∈ l, a ∈ h.live) r

/-- What `BuildSubBoxes` and `BuildCylinder` find for a sub box (`SubBoxHandler.cpp:116-139,229-256`): for each of its walls
whether it is physical and a side wall, and whether the box gets a cylindrical wall -/
structure BoxPlan where
  sides : List Bool
  cylinder : Bool

/-- `BuildSubBoxes`, `SubBoxHandler.cpp:88-142`: `mWalls` of each sub box.  Each wall is given to one sub box
(`SubBox::SetWalls`, `SubBox.cpp:41-48`). -/
def buildSubBoxes : List BoxPlan → Heap → List (List Nat) × Heap
  | [], h => ([], h)
  | p :: ps, h => ((h.news p.sides.length).1 :: (buildSubBoxes ps (h.news p.sides.length).2).1,
      (buildSubBoxes ps (h.news p.sides.length).2).2)

/-- `BuildCylinder`, `SubBoxHandler.cpp:232-239` with `SubBox::AddWall`, `SubBox.cpp:50-54` -/
def addCylinders : List (BoxPlan × List Nat) → Heap → List (List Nat) × Heap
  | [], h => ([], h)
  | x :: xs, h =>
    if x.1.cylinder then ((x.2 ++ (h.news 1).1) :: (addCylinders xs (h.news 1).2).1, (addCylinders xs (h.news 1).2).2)
    else (x.2 :: (addCylinders xs h).1, (addCylinders xs h).2)

/-- The walls in `toDelete`, `SubBoxHandler.cpp:245-255`; a cylindrical wall is no side wall (its direction is the third
axis) -/
def toDelete (p : BoxPlan) (walls : List Nat) : List Nat :=
  ((walls.zip p.sides).filter fun x => x.2).map Prod.fst

/-- `SubBoxHandler.cpp:243-261` with `SubBox::RemoveWall`, `SubBox.cpp:90-95` -/
def removeSides (h : Heap) : List (BoxPlan × List Nat) → Res (List (List Nat) × Heap)
  | [] => .ok ([], h)
  | x :: xs => (h.frees (toDelete x.1 x.2)).bind fun h' => (removeSides h' xs).bind fun r =>
      .ok ((x.2.filter fun a => a ∉ toDelete x.1 x.2) :: r.1, r.2)

/-- `SubBox::~SubBox`, `SubBox.cpp:22-26`, for all sub boxes of a vector -/
def deleteBoxes (h : Heap) (boxes : List (List Nat)) : Res Heap := h.frees boxes.flatten

/-- A run of `MaximizeParticleDistance` or `MaximizeParticleVolumeFraction` -/
structure Simulation where
  /-- the number of spheres of `CreateSpheresInSpecimen`; `none`: it throws -/
  spheres : Option Nat
  plans : List BoxPlan
  /-- `AddSpheresToBoxes` does not throw -/
  fits : Bool
  /-- `Simulate` throws -/
  threw : Bool
  /-- the events in the list when `Simulate` ends: a sphere, and a sphere or wall.  (Two walls have no event,
  `CollidableWallBase.cpp:47-50`.) -/
  pending : List (Nat × Nat)

/-- The collidables of the events in the list when `Simulate` ends, `Event.h` (`mFirst`, `mSecond`) -/
def Simulation.events (m : Simulation) (particles walls : List Nat) : List (Nat × Nat) :=
  m.pending.filterMap fun p => match particles[p.1]?, (particles ++ walls)[p.2]? with
    | some a, some b => some (a, b)
    | _, _ => none

/-- `EventListHandler::~EventListHandler` (`EventListHandler.cpp:33-36`) with `Event::~Event` (`Event.cpp:25-35`): each event
removes itself from the lists of its collidables -/
def destroyEvents {α : Type} (h : Heap) (events : List (Nat × Nat)) (r : Res α) : Res α :=
  h.touch (events.flatMap fun e => [e.1, e.2]) r

/-- The members of `GeometryConcrete` (`GeometryConcrete.h:107-127`) that decide about objects and exceptions: `mSpecimen` and
whether it is a cylinder, `mParticleHandler` with its `mParticles`, whether `mGradingCurve` has entries, the growth rates and
`mContinueOnException` -/
structure State where
  heap : Heap
  specimen : Option (Nat × Bool) := none
  handler : Option (Nat × List Nat) := none
  curve : Bool := false
  absoluteRate : ℚ := 0
  relativeRate : ℚ := 0
  continueOnException : Bool := false
deriving DecidableEq

/-- `GeometryConcrete::GeometryConcrete`, `GeometryConcrete.cpp:20-22` -/
def State.initial : State := { heap := ⟨[], 0⟩ }

/-- `ParticleHandler` with `n` particles, `ParticleHandler.cpp:42-48,293-310` -/
def newHandler (h : Heap) (n : Nat) : (Nat × List Nat) × Heap :=
  ((h.next, (Heap.news ⟨h.next :: h.live, h.next + 1⟩ n).1), (Heap.news ⟨h.next :: h.live, h.next + 1⟩ n).2)

/-- `delete` of a `ParticleHandler`, `ParticleHandler.cpp:60-65` -/
def deleteHandler (h : Heap) (p : Nat × List Nat) : Res Heap :=
  Res.require (p.1 ∈ h.live) ((h.frees p.2).bind fun h' => h'.free p.1)

/-- `delete` of a pointer that may be null -/
def deleteSpecimen (h : Heap) : Option (Nat × Bool) → Res Heap
  | none => .ok h
  | some p => h.free p.1

/-- `SetSpecimenBox`, `GeometryConcrete.cpp:134-142` -/
def setSpecimenBox (s : State) : Res State :=
  (deleteSpecimen s.heap s.specimen).bind fun h =>
    .ok { s with heap := (h.news 1).2, specimen := some (h.next, false) }

/-- `SetSpecimenCylinder`, `GeometryConcrete.cpp:144-154` -/
def setSpecimenCylinder (s : State) : Res State :=
  .ok { s with heap := (s.heap.news 1).2, specimen := some (s.heap.next, true) }

/-- `SetParticles`, `GeometryConcrete.cpp:205-209` -/
def setParticles (s : State) (n : Nat) : State :=
  { s with heap := (newHandler s.heap n).2, handler := some (newHandler s.heap n).1 }

/-- `GeometryConcrete::~GeometryConcrete`, `GeometryConcrete.cpp:24-28` -/
def destruct (s : State) : Res Heap :=
  ((match s.handler with | none => .ok s.heap | some p => deleteHandler s.heap p) : Res Heap).bind fun h =>
    deleteSpecimen h s.specimen

/-- The constructor of `SubBoxHandler`, `SubBoxHandler.cpp:32-41,60-81,209-262`: the sub boxes, or `none` if
`AddSpheresToBoxes` throws; the sub boxes are destroyed then.  It accesses the particles and the specimen. -/
def newSubBoxes (m : Simulation) (cylinder : Bool) (h : Heap) : Res (Option (List (List Nat)) × Heap) :=
  if cylinder then
    let boxes := buildSubBoxes m.plans (h.news 1).2
    if m.fits then
      let more := addCylinders (m.plans.zip boxes.1) boxes.2
      (removeSides more.2 (m.plans.zip more.1)).bind fun r => .ok (some r.1, r.2)
    else (deleteBoxes boxes.2 boxes.1).bind fun h' => .ok (none, h')
  else
    let boxes := buildSubBoxes m.plans h
    if m.fits then .ok (some boxes.1, boxes.2)
    else (deleteBoxes boxes.2 boxes.1).bind fun h' => .ok (none, h')

/-- What both simulations do up to the end of `Simulate`, `GeometryConcrete.cpp:39-60,81-101`: the state, the sub boxes and
the events in the list; `none` for the latter: an exception left the function and destroyed them -/
def simulate (s : State) (m : Simulation) : Res (State × Option (List (List Nat) × List (Nat × Nat))) :=
  match s.specimen with
  | none => .ok (s, none)
  | some sp => s.heap.touch [sp.1] <|
    match m.spheres with
    | none => .ok (s, none)
    | some n =>
      let s1 := setParticles s n
      let p := (newHandler s.heap n).1
      s1.heap.touch (sp.1 :: p.1 :: p.2) <|
        (newSubBoxes m sp.2 s1.heap).bind fun r =>
          match r.1 with
          | none => .ok ({ s1 with heap := r.2 }, none)
          | some boxes => r.2.touch (p.1 :: p.2 ++ boxes.flatten) <|
            if m.threw && !s.continueOnException then
              destroyEvents r.2 (m.events p.2 boxes.flatten) <|
                (deleteBoxes r.2 boxes).bind fun h => .ok ({ s1 with heap := h }, none)
            else .ok ({ s1 with heap := r.2 }, some (boxes, m.events p.2 boxes.flatten))

/-- The objects that `GetAbsoluteMininimalDistance` and `GetParticles` access, `ParticleHandler.cpp:67-75,186-291` -/
def State.used (s : State) : List Nat :=
  (match s.specimen with | none => [] | some p => [p.1]) ++ (match s.handler with | none => [] | some p => p.1 :: p.2)

/-- The state after a call and whether it threw an exception -/
abbrev Done := State × Bool

/-- `CheckParameters` and the check of the growth rate, `GeometryConcrete.cpp:33-37,75-79,188-195` -/
def State.ready (s : State) (rate : ℚ) : Bool := s.specimen.isSome && s.curve && decide (0 < rate)

/-- `MaximizeParticleVolumeFraction`, `GeometryConcrete.cpp:72-106`; at the end the event list and the sub boxes are
destroyed, in this order -/
def maximizeVolume (s : State) (m : Simulation) : Res Done :=
  if s.ready s.relativeRate then
    (simulate s m).bind fun r => match r.2 with
      | none => .ok (r.1, true)
      | some x => r.1.heap.touch r.1.used <| destroyEvents r.1.heap x.2 <|
          (deleteBoxes r.1.heap x.1).bind fun h => .ok ({ r.1 with heap := h }, false)
  else .ok (s, true)

/-- The end of `MaximizeParticleDistance`, `GeometryConcrete.cpp:64-69`: a new particle handler, `delete old` -/
def renewParticles (s : State) : Res State :=
  match s.handler with
  | none => .ub
  | some old => (deleteHandler (newHandler s.heap old.2.length).2 old).bind fun h =>
      .ok { s with heap := h, handler := some (newHandler s.heap old.2.length).1 }

/-- `MaximizeParticleDistance`, `GeometryConcrete.cpp:30-70`; at the end the event list and the sub boxes are destroyed, in
this order -/
def maximizeDistance (s : State) (m : Simulation) : Res Done :=
  if s.ready s.absoluteRate then
    (simulate s m).bind fun r => match r.2 with
      | none => .ok (r.1, true)
      | some x => r.1.heap.touch r.1.used <| (renewParticles r.1).bind fun s' =>
          destroyEvents s'.heap x.2 <|
            (deleteBoxes s'.heap x.1).bind fun h => .ok ({ s' with heap := h }, false)
  else .ok (s, true)

/-- `GetParticles`, `GeometryConcrete.cpp:197-203` -/
def getParticles (s : State) : Res Done :=
  match s.handler with
  | none => .ok (s, true)
  | some p => s.heap.touch (p.1 :: p.2) (.ok (s, false))

/-- `ExportGmshGeo2D` and `ExportGmshGeo3D`, `GeometryConcrete.cpp:109-132`; `cuts`: the slice intersects the specimen.  (Files
that cannot be written are left out.)  Dereferencing `mSpecimen` needs a specimen. -/
def exportGmsh (s : State) (cuts : Bool) : Res Done :=
  match s.handler with
  | none => .ok (s, true)
  | some p => match s.specimen with
    | none => .ub
    | some sp => s.heap.touch [sp.1] <| if cuts then s.heap.touch (p.1 :: p.2) (.ok (s, false)) else .ok (s, true)

/-- The public calls that create, release or access objects, or decide about exceptions -/
inductive Call where
  | setSpecimenBox
  | setSpecimenCylinder
  | setGradingCurve (entries : Bool)
  | setAbsoluteGrowthRate (rate : ℚ)
  | setRelativeGrowthRate (rate : ℚ)
  | setContinueOnException (value : Bool)
  | setParticles (n : Nat)
  | getParticles
  | exportGmsh (cuts : Bool)
  | maximizeVolume (m : Simulation)
  | maximizeDistance (m : Simulation)

/-- A call on a `GeometryConcrete`; `GeometryConcrete.cpp:156-185,212-222,264-267` for the setters -/
def call (s : State) : Call → Res Done
  | .setSpecimenBox => (setSpecimenBox s).bind fun s' => .ok (s', false)
  | .setSpecimenCylinder => (setSpecimenCylinder s).bind fun s' => .ok (s', false)
  | .setGradingCurve b => .ok ({ s with curve := b }, false)
  | .setAbsoluteGrowthRate r => .ok ({ s with absoluteRate := r, relativeRate := 0 }, false)
  | .setRelativeGrowthRate r => .ok ({ s with relativeRate := r, absoluteRate := 0 }, false)
  | .setContinueOnException b => .ok ({ s with continueOnException := b }, false)
  | .setParticles n => .ok (setParticles s n, false)
  | .getParticles => getParticles s
  | .exportGmsh cuts => exportGmsh s cuts
  | .maximizeVolume m => maximizeVolume s m
  | .maximizeDistance m => maximizeDistance s m

/-- Calls one after the other; the caller catches exceptions -/
def session (s : State) (cs : List Call) : Res State :=
  Res.foldlM (fun s c => (call s c).bind fun r => .ok r.1) s cs

/-- `std::vector<SubBox>`: the walls of its elements, and its capacity -/
structure BoxVector where
  boxes : List (List Nat)
  capacity : Nat

/-- `SubBoxHandler::AddSubBox`, `SubBoxHandler.cpp:186-189`: `push_back` of a copy.  `SubBox` has a destructor and therefore no
move constructor: when the vector grows to the capacity `grown`, the elements are copied and the originals destroyed. -/
def addSubBox (v : BoxVector) (grown : Nat) (walls : List Nat) (h : Heap) : Res (BoxVector × Heap) :=
  if v.boxes.length < v.capacity then .ok (⟨v.boxes ++ [walls], v.capacity⟩, h)
  else (deleteBoxes h v.boxes).bind fun h' => .ok (⟨v.boxes ++ [walls], grown⟩, h')

end NuTo.Ownership
