import Verif.Model.Basic
import Mathlib.Analysis.SpecialFunctions.Pow.Real

/-!
Model of the Voronoi cells of the integration points of a triangle (/repo/nuto/visualize/VoronoiGeometries.cpp 156-278).

Numbers are real.  The diagram of `boost::polygon` is a parameter: a list of cells, each with the index of its site and the first
points of its edges, `none` for an edge without one (an infinite edge).  boost cuts the coordinates of the sites to integers, an error of
less than 10⁻⁶ of the edge of the triangle in each coordinate that is not part of the model (see `C97_rounded`).
-/
namespace NuTo
namespace VoronoiTriangle

open Classical

/-- `Eigen::Vector2d` -/
abbrev Point := ℝ × ℝ

/-- `dot` -/
def dot (v w : Point) : ℝ := v.1 * w.1 + v.2 * w.2

/-- `normalized` of Eigen: a zero vector stays as it is -/
noncomputable def normalized (v : Point) : Point := if 0 < dot v v then (1 / Real.sqrt (dot v v)) • v else v

/-- `Eigen::Matrix2d`, row by row -/
structure Matrix where
  a : ℝ
  b : ℝ
  c : ℝ
  d : ℝ

/-- `T * p` -/
def Matrix.mul (t : Matrix) (p : Point) : Point := (t.a * p.1 + t.b * p.2, t.c * p.1 + t.d * p.2)

/-- `T.inverse() * p` -/
noncomputable def Matrix.solve (t : Matrix) (p : Point) : Point :=
  ((t.d * p.1 - t.b * p.2) / (t.a * t.d - t.b * t.c), (t.a * p.2 - t.c * p.1) / (t.a * t.d - t.b * t.c))

/-- `T *= s` -/
def Matrix.scale (t : Matrix) (s : ℝ) : Matrix := ⟨s * t.a, s * t.b, s * t.c, s * t.d⟩

/-- `AddUnique`, VoronoiGeometries.cpp 161-168 -/
noncomputable def addUnique (existing : List Point) (new : Point) : List Point × Nat :=
  match existing.findIdx? fun q => dot (new - q) (new - q) < 1e-4 with
  | some i => (existing, i)
  | none => (existing ++ [new], existing.length)

/-- The mirror image of `p` on the line through `a` and `b`, VoronoiGeometries.cpp 197-200 -/
noncomputable def reflect (a b p : Point) : Point :=
  let n := normalized (b - a)
  a + (2 * dot n (p - a)) • n - (p - a)

/-- `ReflectPointsOnHull`, VoronoiGeometries.cpp 190-206 -/
noncomputable def reflectPointsOnHull (points hull : List Point) : List Point :=
  points ++ (List.range hull.length).flatMap fun e =>
    points.map fun p => reflect (hull.getD e 0) (hull.getD ((e + 1) % hull.length) 0) p

/-- A cell of the diagram: the index of its site, and the first points of its edges -/
abbrev Cell := Nat × List (Option Point)

/-- The coordinates of the corners, and the corners of each cell -/
abbrev Geometry := List Point × List (List Nat)

/-- Body of the loop over the edges of a cell, VoronoiGeometries.cpp 254-261 -/
noncomputable def addCorner (t : Matrix) (s : List Point × List Nat) (v : Option Point) : Res (List Point × List Nat) :=
  match v with
  | none => .ub
  | some v =>
    let r := addUnique s.1 (t.solve v)
    .ok (r.1, s.2 ++ [r.2])

/-- Body of the loop over the cells, VoronoiGeometries.cpp 246-263 -/
noncomputable def addCell (n : Nat) (t : Matrix) (g : Geometry) (c : Cell) : Res Geometry :=
  if n ≤ c.1 then .ok g
  else (Res.foldlM (addCorner t) (g.1, g.2.getD c.1 []) c.2).bind fun r => .ok (r.1, g.2.set c.1 r.2)

/-- `TransformedVoronoi`, VoronoiGeometries.cpp 230-265; `TransformedHull` and `TransformedIps` (170-188) apply the matrix to all points -/
noncomputable def transformedVoronoi (diagram : List Point → List Cell) (ips hullpoints : List Point) (t : Matrix) : Res Geometry :=
  let t := t.scale 1e6
  let hull := hullpoints.map t.mul
  let points := ips.map t.mul
  Res.foldlM (addCell points.length t) ([], List.replicate points.length []) (diagram (reflectPointsOnHull points hull))

/-- The matrix `ToEquilateral`, VoronoiGeometries.cpp 277 -/
noncomputable def toEquilateral : Matrix := ⟨1, 0.5, 0, Real.sqrt 0.75⟩

/-- `VoronoiGeometryTriangle`, VoronoiGeometries.cpp 267-279; other shapes raise an exception (269-270), not part of the model -/
noncomputable def voronoiGeometryTriangle (diagram : List Point → List Cell) (ips : List Point) : Res Geometry :=
  transformedVoronoi diagram ips [(0, 0), (1, 0), (0, 1)] toEquilateral

end VoronoiTriangle
end NuTo
