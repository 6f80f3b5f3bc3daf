import Mathlib.Algebra.Order.Floor.Ring
import Mathlib.Algebra.Order.Field.Basic
import Mathlib.Algebra.BigOperators.Group.List.Basic
import Mathlib.Data.Rat.Floor
import Mathlib.Data.Fin.VecNotation
import Verif.Model.Basic

/-!
The place phase of `NuTo::ParticleCreator` (`nuto/geometryConcrete/takeAndPlace/ParticleCreator.cpp`).

`double` is an ordered field with a floor function, `int` is unbounded.  The random numbers are an argument: a list of
triples in `[0, 1]`, one for each attempt to place a particle.  Rows of `rParticles` are the list of radii and the
list of the particles placed so far (in the order of the rows); the sub boxes hold the rows themselves instead of
their numbers, since a row is not changed after it was inserted.  Output to `std::cout` is left out.
-/

namespace NuTo.Placement

variable {K : Type} [Field K] [LinearOrder K] [FloorRing K]

/-- Conversion of a `double` to `int` -/
def toInt (x : K) : ℤ := if 0 ≤ x then ⌊x⌋ else ⌈x⌉

/-- Three coordinates -/
abbrev V (K : Type) := Fin 3 → K

/-- A row of `rParticles` -/
structure Particle (K : Type) where
  pos : V K
  radius : K

/-- `NuTo::Specimen`: lower corner of the bounding box, lengths, and whether it is a cylinder.  A dog bone cannot occur:
the constructor of `ParticleCreator` (`ParticleCreator.cpp:16-22`) calls `GetVolume`, which throws
(`Specimen.cpp:28-29`). -/
structure Specimen (K : Type) where
  lower : V K
  length : V K
  isCylinder : Bool

/-- Parameters of the place phase -/
structure Params (K : Type) where
  specimen : Specimen K
  shrinkage : K
  maxTries : ℕ
  relativeDistance : K
  absoluteDistance : K

/-- What a run with the given random numbers does: it may need more of them. -/
inductive Outcome (K α : Type) where
  | done (a : α) (rest : List (V K))
  | throw
  | ub
  | more

/-- Sequencing -/
def Outcome.bind {α β : Type} (x : Outcome K α) (f : α → List (V K) → Outcome K β) : Outcome K β :=
  match x with
  | .done a rest => f a rest
  | .throw => .throw
  | .ub => .ub
  | .more => .more

/-- The loop of `GetSizeClasses`, `ParticleCreator.cpp:340-344`; `fuel` bounds the number of passes
(`Placement.doubling_enough` proves that it is not used up). -/
def doubling : ℕ → K → K → List K
  | 0, _, _ => []
  | fuel + 1, diameter, endDiameter =>
    if diameter * 2 < endDiameter then diameter * 2 :: doubling fuel (diameter * 2) endDiameter
    else [diameter * 2]

/-- `GetSizeClasses`, `ParticleCreator.cpp:331-357`, of the column of radii.  Reading the last row of an empty matrix is
undefined.  If the last radius is not positive the loop does not end; this is counted as undefined, too. -/
def sizeClasses (radii : List K) : Res (List K) :=
  match radii with
  | [] => .ub
  | first :: rest =>
    let last := (first :: rest).getLast (List.cons_ne_nil _ _)
    if last ≤ 0 then .ub
    else
      let reverse := doubling (⌈first / last⌉₊ + 1) (2 * last) (2 * first)
      .ok (2 * first :: reverse.reverse.tail)

/-- The loop of `GetNumParticlesPerSizeClass`, `ParticleCreator.cpp:373-391`: the remaining diameters,
`rSizes[sizeClass + 1]` and the sizes after it, and `sizeCount`.  The result holds the numbers of the current and the
following classes; entries that are not assigned keep their initial value zero. -/
def countLoop : List K → K → List K → ℕ → List ℕ
  | [], _, ts, _ => List.replicate (ts.length + 2) 0
  | d :: ds, t, ts, count =>
    if t ≤ d then countLoop ds t ts (count + 1)
    else
      match ts with
      | [] => [count, ds.length + 1]
      | t' :: ts' => count :: countLoop ds t' ts' 1

/-- `GetNumParticlesPerSizeClass`, `ParticleCreator.cpp:359-393` -/
def numPerClass (radii sizes : List K) : List ℕ :=
  match sizes with
  | [] => []
  | [_] => [radii.length]
  | _ :: t :: ts => countLoop (radii.map (2 * ·)) t ts 0

/-- `nSubBox`, `ParticleCreator.cpp:165-169` -/
def nSubBox (P : Params K) (size : K) (i : Fin 3) : ℤ :=
  ⌊P.specimen.length i / (size / (1 - P.shrinkage))⌋

/-- `lSubBox`, `ParticleCreator.cpp:170`.  For `nSubBox = 0` the code divides by zero and gets an infinite length; here
the length is zero and the coordinate quotients are zero in both cases. -/
def lSubBox (P : Params K) (size : K) (i : Fin 3) : K := P.specimen.length i / (nSubBox P size i : K)

/-- `theBox`, `ParticleCreator.cpp:212,435` -/
def boxIndex (n : Fin 3 → ℤ) (c : Fin 3 → ℤ) : ℤ := c 0 * n 1 * n 2 + c 1 * n 2 + c 2

/-- The values of `for (int i = lo; i <= hi; i++)` -/
def intRange (lo hi : ℤ) : List ℤ := (List.range (hi + 1 - lo).toNat).map fun k : ℕ => lo + (k : ℤ)

/-- `cSubBoxMin`, `ParticleCreator.cpp:407-426` -/
def cMin (P : Params K) (size : K) (p : Particle K) (i : Fin 3) : ℤ :=
  max (toInt ((p.pos i - p.radius - P.specimen.lower i) / lSubBox P size i) - 1) 0

/-- `cSubBoxMax`, `ParticleCreator.cpp:407-427` -/
def cMax (P : Params K) (size : K) (p : Particle K) (i : Fin 3) : ℤ :=
  min (toInt ((p.pos i + p.radius - P.specimen.lower i) / lSubBox P size i) + 1) (nSubBox P size i - 1)

/-- `InsertParticleIntoBox`, `ParticleCreator.cpp:396-438`: the boxes the particle is appended to -/
def insertParticle (P : Params K) (size : K) (p : Particle K) : List (ℤ × Particle K) :=
  (intRange (cMin P size p 0) (cMax P size p 0)).flatMap fun iX =>
    (intRange (cMin P size p 1) (cMax P size p 1)).flatMap fun iY =>
      (intRange (cMin P size p 2) (cMax P size p 2)).map fun iZ =>
        (boxIndex (nSubBox P size) ![iX, iY, iZ], p)

/-- `CollidesWithBoundary` for cylinders, `ParticleCreator.cpp:312-324`; boxes are not checked (`:206`) -/
def collides (P : Params K) (p : Particle K) : Res Bool :=
  if P.specimen.isCylinder then
    let D := P.specimen.length 0
    let deltaX := p.pos 0 - (P.specimen.lower 0 + D / 2)
    let deltaY := p.pos 1 - (P.specimen.lower 1 + D / 2)
    let sumR := D / 2 - p.radius * (1 + P.relativeDistance) - P.absoluteDistance
    if sumR < 0 then .throw
    else .ok (decide (deltaX * deltaX + deltaY * deltaY > sumR * sumR))
  else .ok false

/-- Squared distance of two centres -/
def dist2 (p q : Particle K) : K :=
  (p.pos 0 - q.pos 0) * (p.pos 0 - q.pos 0) + (p.pos 1 - q.pos 1) * (p.pos 1 - q.pos 1) +
    (p.pos 2 - q.pos 2) * (p.pos 2 - q.pos 2)

/-- The overlap check, `ParticleCreator.cpp:218-223` -/
def overlaps (P : Params K) (p other : Particle K) : Bool :=
  let sumR := p.radius * (1 + P.relativeDistance) + P.absoluteDistance + other.radius
  decide (dist2 p other < sumR * sumR)

/-- The random position, `ParticleCreator.cpp:196-200` -/
def candidate (P : Params K) (radius : K) (u : V K) : Particle K :=
  ⟨fun i => radius + P.specimen.lower i + (P.specimen.length i - 2 * radius) * u i, radius⟩

/-- `cSubBox`, `ParticleCreator.cpp:201-202` -/
def cSubBox (P : Params K) (size : K) (p : Particle K) (i : Fin 3) : ℤ :=
  toInt ((p.pos i - P.specimen.lower i) / lSubBox P size i)

/-- The loop `while (!inserted)`, `ParticleCreator.cpp:188-257`; `tries` is `numTries`.  `subBox[theBox]` is undefined
for numbers that are not in the vector. -/
def placeOne (P : Params K) (size : K) (boxes : List (ℤ × Particle K)) (radius : K) :
    ℕ → List (V K) → Outcome K (Particle K)
  | _, [] => .more
  | tries, u :: us =>
    let p := candidate P radius u
    match collides P p with
    | .throw => .throw
    | .ub => .ub
    | .ok true => placeOne P size boxes radius tries us
    | .ok false =>
      let n := nSubBox P size
      let theBox := boxIndex n (cSubBox P size p)
      if theBox < 0 ∨ n 0 * n 1 * n 2 ≤ theBox then .ub
      else if boxes.any fun x => x.1 = theBox && overlaps P p x.2 then
        if P.maxTries < tries + 1 then .throw else placeOne P size boxes radius (tries + 1) us
      else .done p us

/-- The loop over the particles of a size class, `ParticleCreator.cpp:185-258` -/
def placeRadii (P : Params K) (size : K) :
    List K → List (ℤ × Particle K) → List (Particle K) → List (V K) → Outcome K (List (Particle K))
  | [], _, placed, rand => .done placed rand
  | r :: rs, boxes, placed, rand =>
    (placeOne P size boxes r 0 rand).bind fun p rest =>
      placeRadii P size rs (boxes ++ insertParticle P size p) (placed ++ [p]) rest

/-- The loop over the size classes, `ParticleCreator.cpp:154-260`; `radii` are the rows that are not yet placed.  Reading
a row after the last one is undefined. -/
def placeClasses (P : Params K) :
    List (K × ℕ) → List K → List (Particle K) → List (V K) → Outcome K (List (Particle K))
  | [], _, placed, rand => .done placed rand
  | (size, count) :: classes, radii, placed, rand =>
    if radii.length < count then .ub
    else
      (placeRadii P size (radii.take count) (placed.flatMap (insertParticle P size)) placed rand).bind fun placed' rest =>
        placeClasses P classes (radii.drop count) placed' rest

/-- `PerformPlacePhase`, `ParticleCreator.cpp:143-261`: the rows whose coordinates were set -/
def placePhase (P : Params K) (radii : List K) (rand : List (V K)) : Outcome K (List (Particle K)) :=
  match sizeClasses radii with
  | .ok sizes => placeClasses P (sizes.zip (numPerClass radii sizes)) radii [] rand
  | .throw => .throw
  | .ub => .ub

/-- `CreateSpheresInSpecimen`, `ParticleCreator.cpp:24-42`, with `taken` the radii found in the take phase: the end of
`PerformTakePhase` (`:120-134`) sorts the column of the radii of all rows, those of the given boundary spheres
included, and shrinks them; the first rows are cut off at the end.  (For runs that place every row.) -/
def createSpheres (P : Params K) (boundary : List (Particle K)) (taken : List K) (rand : List (V K)) :
    Outcome K (List (Particle K)) :=
  let radii := ((boundary.map Particle.radius ++ taken).mergeSort (fun a b => decide (b ≤ a))).map (· * (1 - P.shrinkage))
  (placePhase P radii rand).bind fun placed rest => .done (placed.drop boundary.length) rest

end NuTo.Placement
