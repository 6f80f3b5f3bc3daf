import Verif.Model.Basic
import Mathlib.Algebra.Field.Defs
import Mathlib.Algebra.Order.Round
import Mathlib.Data.Int.Log
import Mathlib.Data.Fin.VecNotation
import Mathlib.Data.Rat.Floor

/-!
`GmshWriter`: the gmsh geometry file of a concrete structure, as the geometry gmsh builds from it.

The gmsh functions of the file are Lean functions on the entity tables of gmsh.  `newp` is one more than the largest point
number; `newl`, `newll`, `news`, `newsl`, `newv` and `newreg` are one more than the largest number of any other entity
(gmsh's default `Geometry.OldNewReg = 1`).  Lines, loops, surfaces, surface loops and volumes have separate tables, so a
surface loop and a volume may have the same number.  Mesh options, mesh sizes and names of the physical groups are left out.
-/
namespace NuTo.GeoFile

variable {K : Type*}

abbrev P3 (K : Type*) := Fin 3 → K

/-- The entities of a gmsh model: points; lines (start, centre for circle arcs, end); line loops of signed lines; surfaces
with their loops; surface loops; volumes with their surface loops; the largest numbers in use.  The variables `theBox`,
`theMatrix`, `theAggregates[]` and `theOuterInterface[]` of the file. -/
structure Geo (K : Type*) where
  points : ℕ → Option (P3 K)
  lastPoint : ℕ
  lines : ℕ → Option (ℕ × Option ℕ × ℕ)
  loops : ℕ → Option (List ℤ)
  surfaces : ℕ → Option (List ℕ)
  surfaceLoops : ℕ → Option (List ℕ)
  volumes : ℕ → Option (List ℕ)
  last : ℕ
  theBox : ℕ
  theMatrix : ℕ
  theAggregates : List ℕ
  theOuterInterface : List ℕ

/-- An empty gmsh model -/
def Geo.empty : Geo K :=
  ⟨fun _ => none, 0, fun _ => none, fun _ => none, fun _ => none, fun _ => none, fun _ => none, 0, 0, 0, [], []⟩

/-- A table after the entities `l` got the numbers after `last` -/
def extend {α : Type*} (old : ℕ → Option α) (last : ℕ) (l : List α) (id : ℕ) : Option α :=
  if id ≤ last then old id else l[id - last - 1]?

/-- Consecutive statements `p = newp; Point(p) = …` -/
def Geo.addPoints (g : Geo K) (l : List (P3 K)) : Geo K :=
  { g with points := extend g.points g.lastPoint l, lastPoint := g.lastPoint + l.length }

/-- Consecutive statements `c = newl; Circle(c) = {start, centre, end}` or `l = newreg; Line(l) = {start, end}` -/
def Geo.addLines (g : Geo K) (l : List (ℕ × Option ℕ × ℕ)) : Geo K :=
  { g with lines := extend g.lines g.last l, last := g.last + l.length }

/-- Consecutive statements `l = newll; Line Loop(l) = {…}` -/
def Geo.addLoops (g : Geo K) (l : List (List ℤ)) : Geo K :=
  { g with loops := extend g.loops g.last l, last := g.last + l.length }

/-- Consecutive statements `s = news; Ruled Surface(s) = {l}` or `Plane Surface(s) = {l, …}` -/
def Geo.addSurfaces (g : Geo K) (l : List (List ℕ)) : Geo K :=
  { g with surfaces := extend g.surfaces g.last l, last := g.last + l.length }

/-- `l = newreg; Line Loop(l) = {…}; Plane Surface(newreg) = {l};` -/
def Geo.addFace (g : Geo K) (l : List ℤ) : Geo K := (g.addLoops [l]).addSurfaces [[g.last + 1]]

/-- The six points around a centre: `p1 … p6` of `Aggregate` (GmshWriter.cpp:7-12) -/
def aggregatePoints [Field K] (xC yC zC R : K) : List (P3 K) :=
  [![xC, yC, zC], ![xC + R, yC, zC], ![xC, yC + R, zC], ![xC, yC, zC + R], ![xC - R, yC, zC], ![xC, yC - R, zC],
    ![xC, yC, zC - R]]

/-- The arcs `c0 … c11` (GmshWriter.cpp:14-19) as numbers of the points `p0 … p6` -/
def aggregateArcs : List (ℕ × ℕ) :=
  [(1, 6), (6, 4), (4, 3), (3, 1), (1, 2), (2, 4), (4, 5), (5, 1), (6, 2), (2, 3), (3, 5), (5, 6)]

/-- The line loops `l0 … l7` (GmshWriter.cpp:21-28): signs and numbers of the arcs -/
def aggregateLoops : List (List (Bool × ℕ)) :=
  [[(true, 4), (true, 9), (true, 3)], [(true, 8), (false, 4), (true, 0)], [(true, 11), (false, 7), (false, 0)],
    [(true, 7), (false, 3), (true, 10)], [(false, 9), (true, 5), (true, 2)], [(false, 10), (false, 2), (true, 6)],
    [(false, 1), (false, 6), (false, 11)], [(false, 5), (false, 8), (true, 1)]]

/-- A signed line of a loop: the first line of the block has the number `first` -/
def signed (first : ℕ) (e : Bool × ℕ) : ℤ := if e.1 then ((first + e.2 : ℕ) : ℤ) else -((first + e.2 : ℕ) : ℤ)

/-- `Function Aggregate` without interface (GmshWriter.cpp:4-47).  Numbers: arcs from `last + 1`, loops from `last + 13`,
surfaces from `last + 21`; `newsl` and `newv` are both evaluated before the surface loop exists and give the same number. -/
def aggregate [Field K] (g : Geo K) (xC yC zC R : K) : Geo K :=
  let p0 := g.lastPoint + 1
  let c0 := g.last + 1
  let l0 := g.last + 13
  let s0 := g.last + 21
  let g1 := g.addPoints (aggregatePoints xC yC zC R)
  let g2 := g1.addLines (aggregateArcs.map fun a => (p0 + a.1, some p0, p0 + a.2))
  let g3 := g2.addLoops (aggregateLoops.map fun l => l.map (signed c0))
  let g4 := g3.addSurfaces ((List.range 8).map fun j => [l0 + j])
  let theInnerInterface := g4.last + 1
  let theAggregate := g4.last + 1
  { g4 with
    surfaceLoops := extend g4.surfaceLoops g4.last [(List.range 8).map fun j => s0 + j]
    volumes := extend g4.volumes g4.last [[theInnerInterface]]
    last := g4.last + 1
    theAggregates := g4.theAggregates ++ [theAggregate]
    theOuterInterface := g4.theOuterInterface ++ [theInnerInterface] }

/-- The corner points of `Box3D` (GmshWriter.cpp:117-126) -/
def boxPoints (s e : P3 K) : List (P3 K) :=
  [![s 0, s 1, e 2], ![s 0, e 1, e 2], ![e 0, e 1, e 2], ![e 0, s 1, e 2],
    ![s 0, s 1, s 2], ![s 0, e 1, s 2], ![e 0, e 1, s 2], ![e 0, s 1, s 2]]

/-- The lines `lT0 … lT3, lB0 … lB3, lC0 … lC3` (GmshWriter.cpp:128-142) as numbers of the points `p0 … p7` -/
def boxLines : List (ℕ × ℕ) :=
  [(0, 1), (1, 2), (2, 3), (3, 0), (4, 5), (5, 6), (6, 7), (7, 4), (0, 4), (1, 5), (2, 6), (3, 7)]

/-- The loops `lxS, lxE, lyS, lyE, lzS, lzE` (GmshWriter.cpp:144-153) -/
def boxLoops : List (List (Bool × ℕ)) :=
  [[(false, 3), (true, 11), (true, 7), (false, 8)], [(false, 1), (true, 9), (true, 5), (false, 10)],
    [(false, 0), (true, 8), (true, 4), (false, 9)], [(false, 2), (true, 10), (true, 6), (false, 11)],
    [(true, 0), (true, 1), (true, 2), (true, 3)], [(false, 7), (false, 6), (false, 5), (false, 4)]]

/-- `Function Box3D` (GmshWriter.cpp:115-158).  The surface of a loop is taken to be the number of the loop plus one. -/
def box3D (g : Geo K) (s e : P3 K) : Geo K :=
  let p0 := g.lastPoint + 1
  let l0 := g.last + 1
  let g1 := g.addPoints (boxPoints s e)
  let g2 := g1.addLines (boxLines.map fun a => (p0 + a.1, none, p0 + a.2))
  let g3 := (boxLoops.map fun l => l.map (signed l0)).foldl Geo.addFace g2
  let lxS := g2.last + 1
  let lxE := g2.last + 3
  let lyS := g2.last + 5
  let lyE := g2.last + 7
  let lzS := g2.last + 9
  let lzE := g2.last + 11
  { g3 with
    theBox := g3.last + 1
    surfaceLoops := extend g3.surfaceLoops g3.last [[lxS + 1, lyS + 1, lxE + 1, lyE + 1, lzS + 1, lzE + 1]]
    last := g3.last + 1 }

/-- The points of `Cylinder3D` (GmshWriter.cpp:163-165,171-173) -/
def cylinderPoints [Field K] (radius height : K) : List (P3 K) :=
  [![0, 0, 0], ![0, radius, 0], ![0, -radius, 0], ![0, 0, height], ![0, radius, height], ![0, -radius, height]]

/-- `Function Cylinder3D` (GmshWriter.cpp:160-189).  Numbers: `c0, c1, baseLoop, baseSurface, c2, c3, topLoop, topSurface,
verticalOne, verticalTwo, barrelLoopOne, barrelLoopTwo, barrelSurfaceOne, barrelSurfaceTwo, theBox` from `last + 1`. -/
def cylinder3D [Field K] (g : Geo K) (radius height : K) : Geo K :=
  let p := fun j => g.lastPoint + 1 + j
  let n := g.last
  let g1 := g.addPoints (cylinderPoints radius height)
  let g2 := (g1.addLines [(p 1, some (p 0), p 2), (p 2, some (p 0), p 1)]).addFace [((n + 1 : ℕ) : ℤ), ((n + 2 : ℕ) : ℤ)]
  let g3 := (g2.addLines [(p 4, some (p 3), p 5), (p 5, some (p 3), p 4)]).addFace [((n + 5 : ℕ) : ℤ), ((n + 6 : ℕ) : ℤ)]
  let g4 := g3.addLines [(p 2, none, p 5), (p 1, none, p 4)]
  let g5 := g4.addLoops [[((n + 1 : ℕ) : ℤ), ((n + 9 : ℕ) : ℤ), -((n + 5 : ℕ) : ℤ), -((n + 10 : ℕ) : ℤ)],
    [((n + 2 : ℕ) : ℤ), ((n + 10 : ℕ) : ℤ), -((n + 6 : ℕ) : ℤ), -((n + 9 : ℕ) : ℤ)]]
  let g6 := g5.addSurfaces [[n + 11], [n + 12]]
  { g6 with
    theBox := g6.last + 1
    surfaceLoops := extend g6.surfaceLoops g6.last [[n + 13, n + 14, n + 4, n + 8]]
    last := g6.last + 1 }

/-- The volume of the matrix (GmshWriter.cpp:265-268): bounded by `theBox` and all of `theOuterInterface[]` -/
def footer3D (g : Geo K) : Geo K :=
  { g with
    theMatrix := g.last + 1
    volumes := extend g.volumes g.last [g.theBox :: g.theOuterInterface]
    last := g.last + 1 }

/-- A row `x y z r` of the aggregate matrix, printed, as a call of `Aggregate` (GmshWriter.cpp:301-310).  `pr` is what is
read back from a printed number. -/
def callAggregate [Field K] (pr : K → K) (g : Geo K) (row : P3 K × K) : Geo K :=
  aggregate g (pr (row.1 0)) (pr (row.1 1)) (pr (row.1 2)) (pr row.2)

/-- `GmshWriter::Write` of a 3D box without interfaces (GmshWriter.cpp:347-362) -/
def writeBox [Field K] (pr : K → K) (mStart mEnd : P3 K) (rows : List (P3 K × K)) : Geo K :=
  footer3D (box3D (rows.foldl (callAggregate pr) Geo.empty) (fun i => pr (mStart i)) (fun i => pr (mEnd i)))

/-- `GmshWriter::Write` of a cylinder without interfaces (GmshWriter.cpp:364-375) -/
def writeCylinder [Field K] (pr : K → K) (radius height : K) (rows : List (P3 K × K)) : Geo K :=
  footer3D (cylinder3D (rows.foldl (callAggregate pr) Geo.empty) (pr radius) (pr height))

/-- `Function Aggregate2D` without interface (GmshWriter.cpp:208-219).  Numbers: `c1, c2, l1, s1` from `last + 1`. -/
def aggregate2D [Field K] (g : Geo K) (xC yC R : K) : Geo K :=
  let p1 := g.lastPoint + 1
  let c1 := g.last + 1
  let g1 := g.addPoints [![xC, yC, 0], ![xC + R, yC, 0], ![xC - R, yC, 0]]
  let g2 := g1.addLines [(p1 + 1, some p1, p1 + 2), (p1 + 2, some p1, p1 + 1)]
  let g3 := g2.addFace [((c1 : ℕ) : ℤ), ((c1 + 1 : ℕ) : ℤ)]
  { g3 with
    theAggregates := g3.theAggregates ++ [c1 + 3]
    theOuterInterface := g3.theOuterInterface ++ [c1 + 2] }

/-- `Function Box2D` (GmshWriter.cpp:191-206) -/
def box2D [Field K] (g : Geo K) (xS yS xE yE : K) : Geo K :=
  let p0 := g.lastPoint + 1
  let l0 := g.last + 1
  let g1 := g.addPoints [![xS, yS, 0], ![xE, yS, 0], ![xE, yE, 0], ![xS, yE, 0]]
  let g2 := g1.addLines [(p0, none, p0 + 1), (p0 + 1, none, p0 + 2), (p0 + 2, none, p0 + 3), (p0 + 3, none, p0)]
  let g3 := g2.addLoops [[((l0 : ℕ) : ℤ), ((l0 + 1 : ℕ) : ℤ), ((l0 + 2 : ℕ) : ℤ), ((l0 + 3 : ℕ) : ℤ)]]
  { g3 with theBox := l0 + 4 }

/-- The surface of the matrix (GmshWriter.cpp:275-278) -/
def footer2D (g : Geo K) : Geo K :=
  { g with
    theMatrix := g.last + 1
    surfaces := extend g.surfaces g.last [g.theBox :: g.theOuterInterface]
    last := g.last + 1 }

/-- `GmshWriter::Write` of a 2D box without interfaces (GmshWriter.cpp:313-345); a row is `x y r` -/
def writeBox2D [Field K] (pr : K → K) (xS yS xE yE : K) (rows : List (K × K × K)) : Geo K :=
  footer2D (box2D (rows.foldl (fun g row => aggregate2D g (pr row.1) (pr row.2.1) (pr row.2.2)) Geo.empty)
    (pr xS) (pr yS) (pr xE) (pr yE))

/-- A `double` printed to a stream with the default precision of six significant digits and read back, exact otherwise;
`round` rounds halves up.  (`out << a(i, 0)`, GmshWriter.cpp:304-307.) -/
def sixDigits (x : ℚ) : ℚ :=
  if x = 0 then 0
  else (round (x / (10 : ℚ) ^ (Int.log 10 |x| - 5)) : ℚ) * (10 : ℚ) ^ (Int.log 10 |x| - 5)

/-- Inner and outer radius of the interface around an aggregate of radius `R` in 3D: `R = R - 0.5 * h` and an extrusion by
`h` (GmshWriter.cpp:51,92-99) -/
def interfaceRadii3D [Field K] (R h : K) : K × K := (R - 1 / 2 * h, R - 1 / 2 * h + h)

/-- Inner and outer radius of the interface in 2D (GmshWriter.cpp:224-244) -/
def interfaceRadii2D [Field K] (R h : K) : K × K := (R, R + h)

/-- Radius and height that `ExportParticlesToGmsh3D` passes for a cylinder specimen (ParticleHandler.cpp:403-409) -/
def exportedCylinder (lower upper : P3 K) : K × K :=
  let _ := lower
  (upper 0, upper 2)

/-- Corners that `ExportParticlesToGmsh2D` passes, for box and cylinder specimens alike (ParticleHandler.cpp:424-432) -/
def exportedRectangle (lower upper : P3 K) : (K × K) × (K × K) := ((lower 0, lower 1), (upper 0, upper 1))

/-- `ExportGmshGeo2D` (GeometryConcrete.cpp:108-121): throws unless the slice lies inside -/
def exportSlice {α : Type*} [LinearOrder K] (lower upper : P3 K) (z : K) (write : α) : Res α :=
  if z ≤ lower 2 ∨ upper 2 ≤ z then .throw else .ok write

end NuTo.GeoFile
