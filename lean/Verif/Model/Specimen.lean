import Verif.Model.TakePhase

/-!
The specimens of `nuto/geometryConcrete/Specimen.cpp` and the object `NuTo::GeometryConcrete`
(`nuto/geometryConcrete/GeometryConcrete.cpp`) that owns one, with the memory it uses.

`double` is `ℝ`.  Reading a matrix outside of its size, a deleted or a null object is undefined (`Res.ub`).  The objects that
live only during a simulation (sub boxes, walls, events) are left out here; `Model/Ownership` has them, and there
`MaximizeParticleDistance` turns out to be undefined if an event is left in the list.
-/

namespace NuTo.Specimens

open TakePhase (GradingClass)

/-- `Eigen::MatrixXd` -/
structure Bounds where
  rows : Nat
  cols : Nat
  entry : Nat → Nat → ℝ

/-- `eSpecimenType`, `Specimen.h:19-24` -/
inductive SpecimenType where
  | box
  | dogbone
  | cylinder
deriving DecidableEq

/-- The members, `Specimen.h:52-54` -/
structure Specimen where
  boundingBox : Bounds
  length : Nat → ℝ
  type : SpecimenType

/-- The loop of `CalculateLength`, `Specimen.cpp:80-85`, from `i` on (`n` rounds) -/
noncomputable def checkLengths (b : Bounds) : Nat → Nat → Res PUnit
  | 0, _ => .ok ()
  | n + 1, i =>
    if ¬ (i < b.rows ∧ 1 < b.cols) then .ub
    else if b.entry i 1 - b.entry i 0 ≤ 0 then .throw
    else checkLengths b n (i + 1)

/-- `CalculateLength`, `Specimen.cpp:74-86`: the specimen with its lengths -/
noncomputable def calculateLength (b : Bounds) (t : SpecimenType) : Res Specimen :=
  (checkLengths b 3 0).bind fun _ => .ok ⟨b, fun i => b.entry i 1 - b.entry i 0, t⟩

/-- The constructor, `Specimen.cpp:11-17`, with `CheckBoundingBox`, `Specimen.cpp:113-116` -/
noncomputable def Specimen.make (b : Bounds) (t : SpecimenType) : Res Specimen :=
  if b.rows ≠ 3 ∧ b.cols ≠ 2 then .throw else calculateLength b t

/-- The copy constructor, `Specimen.cpp:19-24` -/
noncomputable def Specimen.copy (s : Specimen) : Res Specimen := calculateLength s.boundingBox s.type

/-- The volume before the last test, `Specimen.cpp:33-66` -/
noncomputable def Specimen.rawVolume (s : Specimen) : Res ℝ :=
  match s.type with
  | .box => .ok (s.length 0 * s.length 1 * s.length 2)
  | .dogbone =>
    let v := s.length 0 * s.length 1 * s.length 2
    let d := s.length 0
    if |s.length 1 - 3 / 2 * d| > 1 / 10 ^ 10 then .throw
    else
      let radius := 725 / 1000 * d
      let deltaAngle := 2 * (2 / 10) / (525 / 1000)
      .ok (v - 2 * (deltaAngle / (2 * Real.pi) * Real.pi * radius * radius) * s.length 2)
  | .cylinder =>
    if |s.length 0 - s.length 1| > 1 / 10 ^ 10 then .throw
    else if s.length 0 < 1 / 10 ^ 10 then .throw
    else .ok (Real.pi * (1 / 4) * s.length 0 * s.length 0 * s.length 2)

/-- `GetVolume`, `Specimen.cpp:26-72` -/
noncomputable def Specimen.getVolume (s : Specimen) : Res ℝ :=
  if s.type ≠ .box ∧ s.type ≠ .cylinder then .throw
  else s.rawVolume.bind fun v => if v < 1 / 10 ^ 14 then .throw else .ok v

/-! ### The object `GeometryConcrete` -/

/-- The bounds passed to the constructor of the specimen, `GeometryConcrete.cpp:139-141`, `:146-148` -/
def boundsOf (lower upper : Fin 3 → ℝ) : Bounds :=
  ⟨3, 2, fun i j => if h : i < 3 then (if j = 0 then lower ⟨i, h⟩ else upper ⟨i, h⟩) else 0⟩

/-- `eGradingCurve`, `GeometryConcrete.h:22-27` -/
inductive Grading where
  | a16
  | b16
  | c16
deriving DecidableEq

/-- The tables, `GeometryConcrete.cpp:158-173` -/
noncomputable def fullGradingCurve : Grading → List GradingClass
  | .a16 => [⟨8, 16, 40 / 100⟩, ⟨4, 8, 24 / 100⟩, ⟨2, 4, 15 / 100⟩, ⟨1, 2, 9 / 100⟩, ⟨5 / 10, 1, 4 / 100⟩,
      ⟨25 / 100, 5 / 10, 5 / 100⟩]
  | .b16 => [⟨8, 16, 24 / 100⟩, ⟨4, 8, 20 / 100⟩, ⟨2, 4, 14 / 100⟩, ⟨1, 2, 10 / 100⟩, ⟨5 / 10, 1, 12 / 100⟩,
      ⟨25 / 100, 5 / 10, 12 / 100⟩]
  | .c16 => [⟨8, 16, 12 / 100⟩, ⟨4, 8, 14 / 100⟩, ⟨2, 4, 12 / 100⟩, ⟨1, 2, 13 / 100⟩, ⟨5 / 10, 1, 15 / 100⟩,
      ⟨25 / 100, 5 / 10, 16 / 100⟩]

/-- `SetGradingCurve`, `GeometryConcrete.cpp:156-180`: the new value of `mGradingCurve` -/
noncomputable def setGradingCurve (g : Grading) (numClasses : ℤ) : Res (List GradingClass) :=
  if numClasses < 1 ∨ numClasses > 6 then .throw else .ok ((fullGradingCurve g).take numClasses.toNat)

/-- The members that decide which memory is used, `GeometryConcrete.h:107-123`; pointers are addresses. -/
structure Geometry where
  specimen : Option Nat := none
  handler : Option Nat := none
  curve : Nat := 0
  relativeGrowthRate : ℝ := 0
  absoluteGrowthRate : ℝ := 0
  continueOnException : Bool := false

/-- The objects made by `new` and not yet deleted, and the next address -/
structure Heap where
  specimens : List Nat := []
  handlers : List Nat := []
  next : Nat := 0

/-- How a simulation goes on after the parameters are accepted: placing the particles throws, building the sub boxes
throws, `Simulate` throws, or it returns. -/
inductive SimOutcome where
  | placeThrows
  | boxesThrow
  | simulateThrows
  | returns
deriving DecidableEq

/-- The calls of a user.  `curve` is `mGradingCurve.size()`. -/
inductive Call where
  | setSpecimenBox (lower upper : Fin 3 → ℝ)
  | setSpecimenCylinder (lower upper : Fin 3 → ℝ)
  | setGradingCurve (size : Nat)
  | setAbsoluteGrowthRate (rate : ℝ)
  | setRelativeGrowthRate (rate : ℝ)
  | setContinueOnException (value : Bool)
  | setParticles
  | getParticles
  | maximizeParticleDistance (o : SimOutcome)
  | maximizeParticleVolumeFraction (o : SimOutcome)
  | exportGmshGeo

/-- The object and the heap -/
structure World where
  geo : Geometry := {}
  heap : Heap := {}

/-- `delete p` of a specimen: undefined unless it lives -/
def World.deleteSpecimen (w : World) (p : Nat) : Res World :=
  if p ∈ w.heap.specimens then .ok { w with heap := { w.heap with specimens := w.heap.specimens.erase p } } else .ub

/-- `delete p` of a particle handler -/
def World.deleteHandler (w : World) (p : Nat) : Res World :=
  if p ∈ w.heap.handlers then .ok { w with heap := { w.heap with handlers := w.heap.handlers.erase p } } else .ub

/-- `mSpecimen = new Specimen(...)`; the constructor may throw, which leaves everything as it was.  The second component
tells if the call ended with an exception. -/
noncomputable def World.newSpecimen (w : World) (lower upper : Fin 3 → ℝ) (t : SpecimenType) : Res (World × Bool) :=
  match Specimen.make (boundsOf lower upper) t with
  | .ub => .ub
  | .throw => .ok (w, true)
  | .ok _ => .ok ({ geo := { w.geo with specimen := some w.heap.next }
                    heap := { w.heap with specimens := w.heap.next :: w.heap.specimens, next := w.heap.next + 1 } }, false)

/-- `mParticleHandler = new ParticleHandler(...)`, `GeometryConcrete.cpp:205-209` -/
def World.newHandler (w : World) : World :=
  { geo := { w.geo with handler := some w.heap.next }
    heap := { w.heap with handlers := w.heap.next :: w.heap.handlers, next := w.heap.next + 1 } }

/-- `*p` for an object that has to live -/
def useSpecimen (w : World) (p : Option Nat) : Res PUnit :=
  match p with
  | some q => if q ∈ w.heap.specimens then .ok () else .ub
  | none => .ub

/-- `p->` for a particle handler -/
def useHandler (w : World) (p : Option Nat) : Res PUnit :=
  match p with
  | some q => if q ∈ w.heap.handlers then .ok () else .ub
  | none => .ub

/-- `MaximizeParticleDistance`, `GeometryConcrete.cpp:64-69`: a new handler in place of the old one, which is deleted -/
def World.replaceHandler (w : World) : Res World :=
  (useHandler w w.geo.handler).bind fun _ =>
    match w.geo.handler with
    | some old => w.newHandler.deleteHandler old
    | none => .ub

/-- `MaximizeParticleDistance` and `MaximizeParticleVolumeFraction`, `GeometryConcrete.cpp:30-106`, with the rate they test
and what they do at the end -/
noncomputable def World.maximize (w : World) (rate : ℝ) (o : SimOutcome) (finish : World → Res World) :
    Res (World × Bool) :=
  if w.geo.specimen = none ∨ w.geo.curve = 0 then .ok (w, true)
  else if rate ≤ 0 then .ok (w, true)
  else (useSpecimen w w.geo.specimen).bind fun _ =>
    if o = .placeThrows then .ok (w, true)
    else
      let w := w.newHandler
      if o = .boxesThrow then .ok (w, true)
      else if o = .simulateThrows ∧ ¬ w.geo.continueOnException then .ok (w, true)
      else (useSpecimen w w.geo.specimen).bind fun _ => (finish w).bind fun w => .ok (w, false)

/-- One call on the object, `GeometryConcrete.cpp:30-267` -/
noncomputable def World.call (w : World) : Call → Res (World × Bool)
  | .setSpecimenBox lower upper =>
    -- `GeometryConcrete.cpp:134-142`
    match w.geo.specimen with
    | some p => (w.deleteSpecimen p).bind fun w => w.newSpecimen lower upper .box
    | none => w.newSpecimen lower upper .box
  | .setSpecimenCylinder lower upper => w.newSpecimen lower upper .cylinder
  | .setGradingCurve size => .ok ({ w with geo := { w.geo with curve := size } }, false)
  | .setAbsoluteGrowthRate rate =>
    .ok ({ w with geo := { w.geo with absoluteGrowthRate := rate, relativeGrowthRate := 0 } }, false)
  | .setRelativeGrowthRate rate =>
    .ok ({ w with geo := { w.geo with relativeGrowthRate := rate, absoluteGrowthRate := 0 } }, false)
  | .setContinueOnException value => .ok ({ w with geo := { w.geo with continueOnException := value } }, false)
  | .setParticles => .ok (w.newHandler, false)
  | .getParticles =>
    match w.geo.handler with
    | none => .ok (w, true)
    | some p => (useHandler w (some p)).bind fun _ => .ok (w, false)
  | .maximizeParticleDistance o => w.maximize w.geo.absoluteGrowthRate o World.replaceHandler
  | .maximizeParticleVolumeFraction o => w.maximize w.geo.relativeGrowthRate o .ok
  | .exportGmshGeo =>
    match w.geo.handler with
    | none => .ok (w, true)
    | some p => (useSpecimen w w.geo.specimen).bind fun _ => (useHandler w (some p)).bind fun _ => .ok (w, false)

/-- The destructor, `GeometryConcrete.cpp:24-28` (`delete` of a null pointer does nothing) -/
def World.destroy (w : World) : Res Heap :=
  (match w.geo.handler with | some p => w.deleteHandler p | none => .ok w).bind fun w =>
    (match w.geo.specimen with | some p => w.deleteSpecimen p | none => .ok w).bind fun w => .ok w.heap

/-- A sequence of calls on a new object; calls that throw are caught. -/
noncomputable def World.calls : List Call → World → Res World
  | [], w => .ok w
  | c :: cs, w => (w.call c).bind fun r => World.calls cs r.1

/-- A new object, a sequence of calls and the destructor: what is left on the heap -/
noncomputable def session (cs : List Call) : Res Heap := (World.calls cs {}).bind World.destroy

end NuTo.Specimens
