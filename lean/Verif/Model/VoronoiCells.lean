import Verif.Model.Polygon

/-!
The class `DelaunayVoronoi` of `nuto/math/DelaunayVoronoi.h`: Voronoi cells inside of a boundary, and the cells for the
visualisation.

`double` is an ordered field.  What does not come from this file is a parameter (`Env`): the iteration order of
`std::unordered_map`, `atan2`, `std::sqrt(0.75)`, and the triangulation (`Model/Delaunay.lean` has its code; that code uses
removed list elements, C91, so that the parameter stands for what it is meant to leave).
-/

namespace NuTo.Delaunay

variable {K : Type} [Field K] [LinearOrder K]

/-- `edgeToTriangle[edge]`, `DelaunayVoronoi.h:611-614`: the triangles in the order of `mTriangulation` -/
def trianglesOf (tris : List (Triangle K)) (e : Edge K) : List (Triangle K) :=
  tris.flatMap fun t => (t.edges.filter fun f => f.same e).map fun _ => t

/-- The keys of `edgeToTriangle`, `DelaunayVoronoi.h:611-614`: of equal edges the first stays. -/
def edgeKeys (tris : List (Triangle K)) : List (Edge K) :=
  (tris.flatMap Triangle.edges).foldl (fun ks e => if ks.any fun k => k.same e then ks else ks ++ [e]) []

/-- `n` before it is reversed, `DelaunayVoronoi.h:643-652`: from the circumcentre `c` to the edge, or perpendicular to it -/
def bisectorDir (q : Edge K) (c : Pt K) : Pt K :=
  let ex := q.p1.x - q.p0.x
  let ey := q.p1.y - q.p0.y
  let s := (ex * (c.x - q.p0.x) + ey * (c.y - q.p0.y)) / (ex * ex + ey * ey)
  let nx := q.p0.x + s * ex - c.x
  let ny := q.p0.y + s * ey - c.y
  if |nx * nx + ny * ny| < 1 / 100000000 then ⟨ey, -ex⟩ else ⟨nx, ny⟩

/-- `intersectsAgain`, `DelaunayVoronoi.h:660-670` -/
def intersectsAgain (t : Triangle K) (q : Edge K) (c n : Pt K) : Bool :=
  t.edges.any fun f => !f.same q && above (f.lineParameter c n) 1

/-- The points of an edge that belongs to one triangle, `DelaunayVoronoi.h:637-688` with 715-716; `[]` is the `continue`. -/
def pointsOne (b : Polygon K) (t : Triangle K) (q : Edge K) (c : Pt K) : List (Pt K) :=
  let n0 := bisectorDir q c
  let again := intersectsAgain t q c n0
  let n : Pt K := if again then ⟨-n0.x, -n0.y⟩ else n0
  if b.pointIsInside c then [c, b.closestIntersection c n]
  else if again then []
  else [b.closestIntersection c n, b.closestIntersection (b.closestIntersection c n) n]

/-- The second half for two triangles, `DelaunayVoronoi.h:707-716`, when `p0` is fixed -/
def pointsTwoEnd (b : Polygon K) (p0 p1 : Pt K) : List (Pt K) :=
  if b.pointIsInside p1 then [p0, p1] else [p0, b.closestIntersection p1 ⟨p0.x - p1.x, p0.y - p1.y⟩]

/-- The points of an edge that belongs to two triangles, `DelaunayVoronoi.h:690-716` -/
def pointsTwo (b : Polygon K) (p0 p1 : Pt K) : List (Pt K) :=
  if b.pointIsInside p0 then pointsTwoEnd b p0 p1
  else if b.segmentIntersects p0 p1 then pointsTwoEnd b (b.closestIntersection p0 ⟨p1.x - p0.x, p1.y - p0.y⟩) p1
  else []

/-- One round of the loop over the edges of a point, `DelaunayVoronoi.h:629-717` -/
def edgePoints (b : Polygon K) (tris : List (Triangle K)) (q : Edge K) : Res (List (Pt K)) :=
  match trianglesOf tris q with
  | [t] => t.circumcenter.bind fun c => .ok (pointsOne b t q c)
  | [t, u] => t.circumcenter.bind fun c => u.circumcenter.bind fun d => .ok (pointsTwo b c d)
  | _ => .ub

/-- `voronoiPoints`, `DelaunayVoronoi.h:627-717` -/
def voronoiPoints (b : Polygon K) (tris : List (Triangle K)) : List (Edge K) → Res (List (Pt K))
  | [] => .ok []
  | q :: qs => (edgePoints b tris q).bind fun l => (voronoiPoints b tris qs).bind fun r => .ok (l ++ r)

/-- `Polygon::GetOtherPointsOnBoundary`, `DelaunayVoronoi.h:363-371` -/
def Polygon.otherPoints (g : Polygon K) (p : Pt K) : Res (List (Pt K)) :=
  if p ∈ g.points then .ok (g.points.erase p) else .ub

/-- One round of the loop of `AddIntersectionWithBoundary`, `DelaunayVoronoi.h:392-423`; the flag is the `break`. -/
def addStep (angle : Pt K → Pt K → K) (b : Polygon K) (ip : Pt K) (num : Nat) (g : Polygon K) (i : Nat) :
    Res (Polygon K × Bool) :=
  match g.points[i]?, g.points[(i + 1) % num]? with
  | some u, some v =>
    let e0 := b.edgeIndex u
    let e1 := b.edgeIndex v
    if e0 = -1 ∨ e1 = -1 ∨ e0 = e1 then .ok (g, false) else
    (b.pointOnBothEdges e0 e1).bind fun w =>
      let g' := Polygon.make angle (g.points ++ [w])
      if g'.pointIsInside ip then .ok (g', true) else
      (b.otherPoints w).bind fun others => .ok (Polygon.make angle (g.points ++ others), false)
  | _, _ => .ub

/-- The loop of `AddIntersectionWithBoundary`, `DelaunayVoronoi.h:390-424` -/
def addLoop (angle : Pt K → Pt K → K) (b : Polygon K) (ip : Pt K) (num : Nat) : List Nat → Polygon K → Res (Polygon K)
  | [], g => .ok g
  | i :: is, g => (addStep angle b ip num g i).bind fun r => if r.2 then .ok r.1 else addLoop angle b ip num is r.1

/-- `Polygon::AddIntersectionWithBoundary`, `DelaunayVoronoi.h:376-425` -/
def addIntersection (angle : Pt K → Pt K → K) (b : Polygon K) (ip : Pt K) (g : Polygon K) : Res (Polygon K) :=
  if (g.points.filter fun p => b.edgeIndex p ≠ -1).length ≠ 2 then .ok g
  else addLoop angle b ip g.points.length (List.range g.points.length) g

/-- What the class uses from outside -/
structure Env (K : Type) where
  /-- `atan2(p.x() - c.x(), p.y() - c.y())` -/
  angle : Pt K → Pt K → K
  /-- iteration order of `std::unordered_map` -/
  order : List (Edge K) → List (Edge K)
  /-- `std::sqrt(0.75)` -/
  root : K
  /-- what `CalculateDelaunayTriangulation` leaves in `mTriangulation` -/
  triangulate : List (Pt K) → Res (List (Triangle K))

/-- The members, `DelaunayVoronoi.h:788-793` -/
structure Obj (K : Type) where
  points : List (Pt K)
  triangulation : List (Triangle K)
  cells : List (Polygon K)
  boundary : Polygon K
  transformed : Bool

/-- `Transform`, `DelaunayVoronoi.h:472-482` -/
def transform (E : Env K) (l : List (Pt K)) : List (Pt K) := l.map fun p => ⟨p.x + 1 / 2 * p.y, E.root * p.y⟩

/-- `TransformInverse`, `DelaunayVoronoi.h:484-496`: the inverse of a 2x2 matrix by its adjugate and determinant -/
def transformInverse (E : Env K) (l : List (Pt K)) : List (Pt K) :=
  let det := 1 * E.root - 1 / 2 * 0
  l.map fun p => ⟨E.root / det * p.x + -(1 / 2) / det * p.y, -0 / det * p.x + 1 / det * p.y⟩

/-- The constructor, `DelaunayVoronoi.h:439-445` -/
def Obj.make (E : Env K) (pts : List (Pt K)) (transformed : Bool) : Obj K :=
  ⟨if transformed then transform E pts else pts, [], [], ⟨[], []⟩, transformed⟩

/-- `SetBoundary`, `DelaunayVoronoi.h:447-454` -/
def Obj.setBoundary (E : Env K) (o : Obj K) (pts : List (Pt K)) : Obj K :=
  { o with boundary := Polygon.make E.angle (if o.transformed then transform E pts else pts) }

/-- The cell of one point, `DelaunayVoronoi.h:616-722` -/
def cell (E : Env K) (b : Polygon K) (tris : List (Triangle K)) (p : Pt K) : Res (Polygon K) :=
  (voronoiPoints b tris ((E.order (edgeKeys tris)).filter fun e => e.contains p)).bind fun l =>
    addIntersection E.angle b p (Polygon.make E.angle l)

/-- The loop over the points, `DelaunayVoronoi.h:616-723`: the cells so far, and how it ended.  After an exception the
remaining cells are the empty polygons of the `resize`. -/
def cellsLoop (E : Env K) (b : Polygon K) (tris : List (Triangle K)) : List (Pt K) → List (Polygon K) × Res Unit
  | [] => ([], .ok ())
  | p :: ps => match cell E b tris p with
    | .ok g => let r := cellsLoop E b tris ps; (g :: r.1, r.2)
    | .throw => (List.replicate (ps.length + 1) ⟨[], []⟩, .throw)
    | .ub => ([], .ub)

/-- `CalculateVoronoiPolygons`, `DelaunayVoronoi.h:592-724`: the object afterwards, and how it ended -/
def Obj.calculateVoronoi (E : Env K) (o : Obj K) : Obj K × Res Unit :=
  if o.boundary.points.length = 0 then (o, .throw) else
  match (if o.triangulation.length = 0 then E.triangulate o.points else .ok o.triangulation) with
  | .ok tris => let r := cellsLoop E o.boundary tris o.points
      ({ o with triangulation := tris, cells := r.1 }, r.2)
  | .throw => ({ o with cells := List.replicate o.points.length ⟨[], []⟩ }, .throw)
  | .ub => (o, .ub)

/-- `if (mVoronoiPolygons.size() == 0) CalculateVoronoiPolygons()`, `DelaunayVoronoi.h:466-467`, 729-730 -/
def Obj.ensure (E : Env K) (o : Obj K) : Obj K × Res Unit :=
  if o.cells.length = 0 then o.calculateVoronoi E else (o, .ok ())

/-- `GetVoronoiCells`, `DelaunayVoronoi.h:464-470` -/
def Obj.getCells (E : Env K) (o : Obj K) : Obj K × Res (List (Polygon K)) :=
  let r := o.ensure E
  (r.1, r.2.bind fun _ => .ok r.1.cells)

/-- `rVisuPoints`, `DelaunayVoronoi.h:735-738` -/
def visuPoints (cells : List (Polygon K)) : List (Pt K) :=
  (cells.flatMap Polygon.points).foldl (fun l p => if p ∈ l then l else l ++ [p]) []

/-- `rVisuCellIndices`, `DelaunayVoronoi.h:740-750`: `std::find(...) - begin()`; `mVoronoiPolygons[iIP]` beyond the end is
undefined. -/
def visuCells (cells : List (Polygon K)) (pts : List (Pt K)) (num : Nat) : Res (List (List Nat)) :=
  if num ≤ cells.length then .ok ((cells.take num).map fun g => g.points.map fun p => pts.idxOf p) else .ub

/-- `CalculateVisualizationCellsPolygon`, `DelaunayVoronoi.h:726-754` -/
def Obj.visuPolygon (E : Env K) (o : Obj K) : Obj K × Res (List (Pt K) × List (List Nat)) :=
  let r := o.ensure E
  let pts := visuPoints r.1.cells
  (r.1, r.2.bind fun _ => (visuCells r.1.cells pts r.1.points.length).bind fun ix =>
    .ok (if r.1.transformed then transformInverse E pts else pts, ix))

/-- The triangles of one cell, `DelaunayVoronoi.h:771-783`; for an empty cell `polygon[0]` is out of range. -/
def fan (iIP : Nat) : List Nat → Res (List ((Nat × Nat × Nat) × Nat))
  | [] => .ub
  | p0 :: rest => .ok ((rest.zip rest.tail).map fun q => ((p0, q.1, q.2), iIP))

/-- The loop over the cells, `DelaunayVoronoi.h:769-784`: `rVisuCellIndices` and `rCellIPIndex` grow together. -/
def fans : Nat → List (List Nat) → Res (List ((Nat × Nat × Nat) × Nat))
  | _, [] => .ok []
  | i, g :: gs => (fan i g).bind fun l => (fans (i + 1) gs).bind fun r => .ok (l ++ r)

/-- `CalculateVisualizationCellsTriangle`, `DelaunayVoronoi.h:761-785` -/
def Obj.visuTriangle (E : Env K) (o : Obj K) : Obj K × Res (List (Pt K) × List ((Nat × Nat × Nat) × Nat)) :=
  let r := o.visuPolygon E
  (r.1, r.2.bind fun q => (fans 0 q.2).bind fun l => .ok (q.1, l))

end NuTo.Delaunay
