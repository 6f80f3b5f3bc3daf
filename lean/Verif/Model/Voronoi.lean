import Verif.Model.Legendre

/-!
# Sub cells for the visualisation of integration point values

`nuto/visualize/VoronoiGeometries.cpp` (lines, quadrilaterals and bricks).  Numbers are exact.
-/

namespace NuTo

namespace Voronoi

/-- `nuto/visualize/VoronoiHandler.h` 10-19: `VoronoiGeometry`; the cell types are left out. -/
structure Geometry (K : Type) where
  points : List (List K)
  cells : List (List Nat)
  deriving DecidableEq, Repr

/-- `nuto/visualize/VoronoiGeometries.h` 11-16: `Spacing`; `unknown` is any other number. -/
inductive Spacing where
  | equidistant
  | lobatto
  | gauss
  | unknown
  deriving DecidableEq, Repr

variable {K : Type} [Field K]

/-- `nuto/visualize/VoronoiGeometries.cpp` 9-15: `Linspace`.  For one point the code divides zero by
zero; the coordinate is not a number, which is outside of the model. -/
def linspace (s e : K) (num : Nat) : Res (List K) :=
  if num = 1 then .ub
  else .ok ((List.range num).map fun (i : Nat) => s + (e - s) * (i : K) / ((num : K) - 1))

/-- `nuto/visualize/VoronoiGeometries.cpp` 17-25: `CenteredPointsWithBoundary`.  For no points
`pts.size() - 1` is the largest number and the loop reads outside of the vector. -/
def centered (pts : List K) : Res (List K) :=
  if pts.length = 0 then .ub
  else .ok (-1 :: ((List.range (pts.length - 1)).map fun (i : Nat) =>
    (pts.getD i 0 + pts.getD (i + 1) 0) / 2) ++ [1])

/-- `nuto/visualize/VoronoiGeometries.cpp` 27-31: `Gaussspaced`, given the roots of the Legendre
polynomial. -/
def gaussSpaced (num : Int) (roots : List K) : Res (List K) := do
  let r ← Quadrature.gauss num roots
  centered r.2

/-- `nuto/visualize/VoronoiGeometries.cpp` 33-37: `Lobattospaced`, given the roots of the derivative of
the Legendre polynomial. -/
def lobattoSpaced (num : Int) (roots : List K) : Res (List K) := do
  let r ← Quadrature.lobatto num roots
  centered r.2

/-- `nuto/visualize/VoronoiGeometries.cpp` 40-52: `VoronoiGeometryLineHelper`. -/
def lineHelper (grid : List K) : Geometry K :=
  let num := grid.length - 1
  { points := grid.map fun x => [x]
    cells := (List.range num).map fun (i : Nat) => [i, i + 1] }

/-- `nuto/visualize/VoronoiGeometries.cpp` 54-73: `VoronoiGeometryQuadHelper`. -/
def quadHelper (grid : List K) : Geometry K :=
  let num := grid.length - 1
  { points := grid.flatMap fun y => grid.map fun x => [x, y]
    cells := (List.range num).flatMap fun (row : Nat) => (List.range num).map fun (col : Nat) =>
      let start := row * (num + 1) + col
      [start, start + 1, start + num + 2, start + num + 1] }

/-- `nuto/visualize/VoronoiGeometries.cpp` 75-99: `VoronoiGeometryBrickHelper`. -/
def brickHelper (grid : List K) : Geometry K :=
  let num := grid.length - 1
  { points := grid.flatMap fun z => grid.flatMap fun y => grid.map fun x => [x, y, z]
    cells := (List.range num).flatMap fun (height : Nat) => (List.range num).flatMap fun (row : Nat) =>
      (List.range num).map fun (col : Nat) =>
        let start1 := row * (num + 1) + col + height * ((num + 1) * (num + 1))
        let start2 := row * (num + 1) + col + (height + 1) * ((num + 1) * (num + 1))
        [start1, start1 + 1, start1 + num + 2, start1 + num + 1,
          start2, start2 + 1, start2 + num + 2, start2 + num + 1] }

/-- `nuto/visualize/VoronoiGeometries.cpp` 104-115, 119-130, 134-145: the choice of the grid, which the
three functions share.  `num + 1` is converted to an unsigned number: a negative one asks for more memory
than there is and throws. -/
def grid (num : Int) (s : Spacing) (roots : List K) : Res (List K) :=
  match s with
  | .equidistant => if num + 1 < 0 then .throw else linspace (-1) 1 (num + 1).toNat
  | .lobatto => lobattoSpaced num roots
  | .gauss => gaussSpaced num roots
  | .unknown => .throw

/-- `nuto/visualize/VoronoiGeometries.cpp` 104-115: `VoronoiGeometryLine`. -/
def line (num : Int) (s : Spacing) (roots : List K) : Res (Geometry K) := do
  let g ← grid num s roots
  pure (lineHelper g)

/-- `nuto/visualize/VoronoiGeometries.cpp` 119-130: `VoronoiGeometryQuad`. -/
def quad (num : Int) (s : Spacing) (roots : List K) : Res (Geometry K) := do
  let g ← grid num s roots
  pure (quadHelper g)

/-- `nuto/visualize/VoronoiGeometries.cpp` 134-145: `VoronoiGeometryBrick`. -/
def brick (num : Int) (s : Spacing) (roots : List K) : Res (Geometry K) := do
  let g ← grid num s roots
  pure (brickHelper g)

end Voronoi

end NuTo
