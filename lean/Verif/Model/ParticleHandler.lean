import Verif.Model.Serialize
import Verif.Model.Visualize
import Verif.Model.Chars
import Mathlib.Algebra.Order.Field.Basic
import Mathlib.Data.Fin.VecNotation

/-!
The list of particles of a collision simulation: `nuto/geometryConcrete/collision/handler/ParticleHandler.cpp` with the
particles of `nuto/geometryConcrete/collision/collidables/CollidableParticleSphere.cpp`.

`double` is an ordered field `K`, `int` is unbounded.  The random engine is a parameter: a state and the next number of
the unit interval.  Numbers in text files are handled by the library (`Serialize.Codec`) by their object representations,
with `bits : K → ℕ` and `value : ℕ → K` between the two.
-/

namespace NuTo.Particles

open NuTo.Serialize NuTo.Visualize

variable {K S : Type}

/-- Members of `CollidableParticleSphere`, `CollidableParticleSphere.h:117-134`, `CollidableParticleBase.h:36-39` and
`CollidableBase.h`; the local event list is left out -/
structure Particle (K : Type) where
  position : Fin 3 → K
  velocity : Fin 3 → K
  radius : K
  radiusGrowth : K
  radius0 : K
  growthRate : K
  timeOfLastUpdate : K
  timeOfGrowthReset : K
  index : Int

/-- `Eigen::MatrixXd`: the numbers of rows and columns and the entries -/
structure Mat (K : Type) where
  rows : Nat
  cols : Nat
  entry : Nat → Nat → K

/-- `m(i, j)`: an index outside of the matrix is undefined -/
def Mat.at (m : Mat K) (i j : Nat) : Res K := if i < m.rows ∧ j < m.cols then .ok (m.entry i j) else .ub

/-- The entries in storage order, column by column -/
def Mat.data (m : Mat K) : List K :=
  (List.range m.cols).flatMap fun j => (List.range m.rows).map fun i => m.entry i j

/-- The matrix with these numbers of rows and columns and these entries in storage order -/
def Mat.ofData [Zero K] (rows cols : Nat) (data : List K) : Mat K :=
  ⟨rows, cols, fun i j => (data[i + j * rows]?).getD 0⟩

/-- `ParticleHandler.h:110-127` -/
structure Handler (K S : Type) where
  particles : List (Particle K)
  visualizationFileName : List Char
  rng : S

section create
variable [Field K] [LinearOrder K]

/-- The constructor, `CollidableParticleSphere.cpp:21-31` -/
def Particle.make (position velocity : Fin 3 → K) (radius growthRate : K) (index : Int) : Particle K :=
  ⟨position, velocity, radius, radius, radius, growthRate, 0, 0, index⟩

/-- `std::uniform_real_distribution<double>(a, b)` applied to the engine: undefined unless `a ≤ b` -/
def uniform (next : S → K × S) (a b : K) (s : S) : Res (K × S) :=
  if a ≤ b then .ok (a + (next s).1 * (b - a), (next s).2) else .ub

/-- `GetRandomVector(rStart, rEnd)`, `ParticleHandler.cpp:312-321` -/
def randomVector (next : S → K × S) (a b : K) (s : S) : Res ((Fin 3 → K) × S) :=
  (uniform next a b s).bind fun x => (uniform next a b x.2).bind fun y => (uniform next a b y.2).bind fun z =>
    .ok (![x.1, y.1, z.1], z.2)

/-- `GetRandomVector(rBounds)`, `ParticleHandler.cpp:329-339`, assigned to a `Vector3d`: bounds with another number of
rows than three or less than two columns are undefined -/
def randomVectorIn (next : S → K × S) (bounds : Mat K) (s : S) : Res ((Fin 3 → K) × S) :=
  let component (i : Nat) (s : S) : Res (K × S) :=
    (bounds.at i 0).bind fun a => (bounds.at i 1).bind fun b => uniform next a b s
  if bounds.rows = 3 then
    (component 0 s).bind fun x => (component 1 x.2).bind fun y => (component 2 y.2).bind fun z =>
      .ok (![x.1, y.1, z.1], z.2)
  else .ub

/-- The two random vectors of `ParticleHandler.cpp:34-36`: the compiler chooses which argument is evaluated first -/
def randomArguments (next : S → K × S) (positionFirst : Bool) (bounds : Mat K) (range : K) (s : S) :
    Res (((Fin 3 → K) × (Fin 3 → K)) × S) :=
  if positionFirst then
    (randomVectorIn next bounds s).bind fun x => (randomVector next (-range / 2) (range / 2) x.2).bind fun v =>
      .ok ((x.1, v.1), v.2)
  else
    (randomVector next (-range / 2) (range / 2) s).bind fun v => (randomVectorIn next bounds v.2).bind fun x =>
      .ok ((x.1, v.1), x.2)

/-- The loop body, `ParticleHandler.cpp:32-37` -/
def randomStep (next : S → K × S) (positionFirst : Bool) (bounds : Mat K) (range growthRate : K)
    (st : List (Particle K) × S) (i : Nat) : Res (List (Particle K) × S) :=
  (randomArguments next positionFirst bounds range st.2).bind fun r =>
    .ok (st.1 ++ [Particle.make r.1.1 r.1.2 0 growthRate (100000 + i)], r.2)

/-- `ParticleHandler(rNumParticles, rParticleBoundingBox, rVelocityRange, rGrowthRate, rSeed)`, `ParticleHandler.cpp:24-40` -/
def fromRandom (next : S → K × S) (positionFirst : Bool) (num : Nat) (bounds : Mat K) (range growthRate : K) (seed : S) :
    Res (Handler K S) :=
  (Res.foldlM (randomStep next positionFirst bounds range growthRate) ([], seed) (List.range num)).bind fun r =>
    .ok ⟨r.1, chars! "spheres", r.2⟩

/-- The loop body, `ParticleHandler.cpp:301-309` -/
def matrixStep (next : S → K × S) (spheres : Mat K) (range relative absolute : K)
    (st : List (Particle K) × S) (i : Nat) : Res (List (Particle K) × S) :=
  (spheres.at i 0).bind fun x => (spheres.at i 1).bind fun y => (spheres.at i 2).bind fun z =>
  (randomVector next (-range / 2) (range / 2) st.2).bind fun v =>
  (spheres.at i 3).bind fun radius =>
    .ok (st.1 ++ [Particle.make ![x, y, z] v.1 radius (radius * relative + absolute) (100000 + i)], v.2)

/-- `CreateParticlesFromMatrix`, `ParticleHandler.cpp:293-310` -/
def createParticles (next : S → K × S) (spheres : Mat K) (range relative absolute : K) (seed : S) :
    Res (List (Particle K) × S) :=
  Res.foldlM (matrixStep next spheres range relative absolute) ([], seed) (List.range spheres.rows)

/-- `ParticleHandler(rSpheres, rVelocityRange, rRelativeGrowthRate, rAbsoluteGrowthRate, rSeed)`,
`ParticleHandler.cpp:42-48` -/
def fromMatrix (next : S → K × S) (spheres : Mat K) (range relative absolute : K) (seed : S) : Res (Handler K S) :=
  (createParticles next spheres range relative absolute seed).bind fun r => .ok ⟨r.1, chars! "spheres", r.2⟩

/-- Reading a matrix from a stream: `SerializeStreamIn.h:64-73` (`Serialize.readText`), which reads as many numbers as the
matrix already has entries -/
def loadMatrix (c : Codec) (bits : K → Nat) (value : Nat → K) (file : TextIn) (old : Mat K) : Res (Mat K × TextIn) :=
  (readText c file (.matrix .double old.rows old.cols (old.data.map bits))).bind fun r =>
    match r.1 with
    | .matrix _ rows cols data => .ok (Mat.ofData rows cols (data.map value), r.2)
    | _ => .ub

/-- `Eigen::MatrixXd particles;` has no rows and no columns -/
def Mat.default : Mat K := ⟨0, 0, fun _ _ => 0⟩

/-- `ParticleHandler(rFileName, rVelocityRange, rRelativeGrowthRate, rAbsoluteGrowthRate, rSeed)`,
`ParticleHandler.cpp:50-58`: a file that does not exist is `none` (`SerializeStreamIn.cpp:12-13` raises).  The name of the
visualisation files is not set. -/
def fromFile (c : Codec) (bits : K → Nat) (value : Nat → K) (next : S → K × S) (file : Option (List Char))
    (range relative absolute : K) (seed : S) : Res (Handler K S) :=
  match file with
  | none => .throw
  | some text =>
    (loadMatrix c bits value ⟨text, true⟩ Mat.default).bind fun m =>
    (createParticles next m.1 range relative absolute seed).bind fun r => .ok ⟨r.1, [], r.2⟩

end create

section use
variable [Field K] [LinearOrder K]

/-- `MoveAndGrow`, `CollidableParticleSphere.cpp:33-42` -/
def Particle.moveAndGrow (p : Particle K) (time : K) : Particle K :=
  { p with
    position := fun i => p.position i + p.velocity i * (time - p.timeOfLastUpdate)
    radius := p.radiusGrowth + p.growthRate * (time - p.timeOfGrowthReset)
    timeOfLastUpdate := time }

/-- `ExportRow`, `CollidableParticleSphere.cpp:180-186` -/
def Particle.exportRow (p : Particle K) (initialRadius : Bool) : Fin 4 → K :=
  ![p.position 0, p.position 1, p.position 2, if initialRadius then p.radius0 else p.radius]

/-- `GetKineticEnergy`, `CollidableParticleSphere.cpp:235-238` -/
def Particle.kineticEnergy (p : Particle K) : K :=
  1 / 2 * p.radius * p.radius * p.radius *
    (p.velocity 0 * p.velocity 0 + p.velocity 1 * p.velocity 1 + p.velocity 2 * p.velocity 2)

/-- `GetVolume`, `CollidableParticleSphere.cpp:240-243` -/
def Particle.volume (pi : K) (p : Particle K) : K := 4 / 3 * pi * p.radius * p.radius * p.radius

/-- `GetParticles`, `ParticleHandler.cpp:67-75` -/
def Handler.getParticles (h : Handler K S) (initialRadius : Bool) : Mat K :=
  ⟨h.particles.length, 4, fun i j =>
    match h.particles[i]? with
    | some p => if hj : j < 4 then p.exportRow initialRadius ⟨j, hj⟩ else 0
    | none => 0⟩

/-- `ExportParticlesToFile`, `ParticleHandler.cpp:77-81`: the text of the file (`SerializeStreamOut.h:65-71`) -/
def Handler.exportToFile (c : Codec) (bits : K → Nat) (h : Handler K S) (initialRadius : Bool) : List Char :=
  let m := h.getParticles initialRadius
  writeText c (.matrix .double m.rows m.cols (m.data.map bits))

/-- `Sync`, `ParticleHandler.cpp:154-158` -/
def Handler.sync (h : Handler K S) (time : K) : Handler K S :=
  { h with particles := h.particles.map fun p => p.moveAndGrow time }

/-- `ResetVelocities`, `ParticleHandler.cpp:323-327`, `CollidableParticleSphere.cpp:245-248` -/
def Handler.resetVelocities (h : Handler K S) : Handler K S :=
  { h with particles := h.particles.map fun p => { p with velocity := fun _ => 0 } }

/-- `GetKineticEnergy`, `ParticleHandler.cpp:160-166` -/
def Handler.kineticEnergy (h : Handler K S) : K := h.particles.foldl (fun e p => e + p.kineticEnergy) 0

/-- `GetVolume`, `ParticleHandler.cpp:168-174` -/
def Handler.volume (pi : K) (h : Handler K S) : K := h.particles.foldl (fun v p => v + p.volume pi) 0

/-- `GetParticle`, `ParticleHandler.cpp:176-179` -/
def Handler.getParticle (h : Handler K S) (i : Int) : Res (Particle K) :=
  if i < 0 then .ub else
    match h.particles[i.toNat]? with
    | some p => .ok p
    | none => .ub

/-- `VisualizationDynamic`, `CollidableParticleSphere.cpp:225-232` -/
def visualizeParticle (final : Bool) (g : Grid K) (p : Particle K) : Res (Grid K) :=
  (g.addPoint [p.position 0, p.position 1, p.position 2]).bind fun r =>
  (r.1.setPointData r.2 "Radius" [if final then p.radius0 else p.radius]).bind fun g1 =>
  g1.setPointData r.2 "Velocity" [p.velocity 0, p.velocity 1, p.velocity 2]

/-- The grid of `ExportParticlesToVTU3D`, `ParticleHandler.cpp:89-93` -/
def Handler.grid (h : Handler K S) (final : Bool) : Res (Grid K) :=
  Res.foldlM (visualizeParticle final)
    ((Grid.empty.definePointData "Radius").definePointData "Velocity") h.particles

/-- The names of the files of a time step, `ParticleHandler.cpp:95-96`, `:127` -/
def vtuFile (name : List Char) (step : Nat) : List Char := vtuName (name ++ ['_']) step

/-- `ExportParticlesToVTU3D`, `ParticleHandler.cpp:83-131`: the files of the output directory after the call, and how it
ends.  `print` is the formatted time, `vtu` the content of the exported grid.  A collection that does not exist can only be
opened for the time step zero.  Seeking to a position before the start of the file fails and nothing is written. -/
def Handler.exportVTU3D (print : K → List Char) (vtu : Grid K → List Char) (h : Handler K S) (d : Dir) (step : Nat)
    (globalTime : K) (final : Bool) : Res (Dir × Res Unit) :=
  (h.grid final).bind fun g =>
    let d1 := d.set (vtuFile h.visualizationFileName step) (vtu g)
    let pvd := pvdName h.visualizationFileName
    let text := pvdEntry (print (globalTime + step * (1 / 10 ^ 10))) (vtuFile h.visualizationFileName step) ++ pvdFooter
    if step = 0 then .ok (d1.set pvd (pvdHeader ++ text), .ok ())
    else
      match d1 pvd with
      | none => .ok (d1, .throw)
      | some old =>
        .ok (d1.set pvd (if pvdFooter.length ≤ old.length then writeAt old (old.length - pvdFooter.length) text else old),
          .ok ())

end use

end NuTo.Particles
