import Verif.Model.Delaunay

/-!
The class `Polygon` and the geometric queries of `Edge` in `nuto/math/DelaunayVoronoi.h`.

`double` is an ordered field.  A division by zero gives an infinite value or no number; all callers treat the line
parameters that come from it like "no intersection", which the model represents by `none`.
-/

namespace NuTo.Delaunay

variable {K : Type} [Field K] [LinearOrder K]

/-- `Edge::GetIntersectionLineParameter`, `DelaunayVoronoi.h:75-92`.  `none`: the direction is parallel to the edge (or one
of them is zero), the result is not a finite number.  (For an edge that is not zero and a direction that is parallel to it the
edge parameter is infinite, then -1 is returned, or both parameters are 0/0.) -/
def Edge.lineParameter (q : Edge K) (p n : Pt K) : Option K :=
  let ex := q.p1.x - q.p0.x
  let ey := q.p1.y - q.p0.y
  let exn := ex * n.y - ey * n.x
  let dx := p.x - q.p0.x
  let dy := p.y - q.p0.y
  if exn = 0 then none
  else if (dx * n.y - dy * n.x) / exn < 0 ∨ (dx * n.y - dy * n.x) / exn > 1 then some (-1)
  else some ((dy * ex - dx * ey) / -exn)

/-- `lineParameter > bound`; comparisons with NaN are false, and so are those of the infinite values that can occur here -/
def above (l : Option K) (bound : K) : Bool :=
  match l with
  | some x => decide (x > bound)
  | none => false

/-- `Edge::GetDistance(point) < 1e-8`, `DelaunayVoronoi.h:95-101` with 344: the norm is compared by its square; for an edge
of length zero the distance is not a number. -/
def Edge.near (q : Edge K) (p : Pt K) : Bool :=
  let ex := q.p1.x - q.p0.x
  let ey := q.p1.y - q.p0.y
  let ax := p.x - q.p0.x
  let ay := p.y - q.p0.y
  let s := (ax * ex + ay * ey) / (ex * ex + ey * ey)
  if ex * ex + ey * ey = 0 then false
  else decide ((ax - s * ex) * (ax - s * ex) + (ay - s * ey) * (ay - s * ey) < 1 / 10000000000000000)

/-- `Polygon::mEdges`, `mPoints`, `DelaunayVoronoi.h:431-432` -/
structure Polygon (K : Type) where
  points : List (Pt K)
  edges : List (Edge K)

/-- `Polygon::UpdateEdges`, `DelaunayVoronoi.h:288-294` -/
def updateEdges (pts : List (Pt K)) : List (Edge K) :=
  (List.range pts.length).map fun i => ⟨pts.getD i ⟨0, 0⟩, pts.getD ((i + 1) % pts.length) ⟨0, 0⟩⟩

/-- `DelaunayVoronoi.h:254-258`: the mean of the points; for no points the value is not used -/
def center (pts : List (Pt K)) : Pt K :=
  ⟨(pts.map fun p => p.x).sum / (pts.length : K), (pts.map fun p => p.y).sum / (pts.length : K)⟩

/-- `DelaunayVoronoi.h:260-267`: the map from angles to points -/
def anglesPoints (angle : Pt K → K) (pts : List (Pt K)) : OMap K (Pt K) :=
  pts.foldl (fun m p => OMap.set m (angle p) p) []

/-- `DelaunayVoronoi.h:271-283`: state is the last kept angle and the kept points -/
def keepStep (s : K × List (Pt K)) (a : K × Pt K) : K × List (Pt K) :=
  if a.1 - s.1 > 1 / 1000000 then (a.1, s.2 ++ [a.2]) else s

/-- `Polygon::SortAndRemoveDoublicates`, `DelaunayVoronoi.h:252-286` without the edges; `angle c p` is
`atan2(p.x() - c.x(), p.y() - c.y())` -/
def sortUnique (angle : Pt K → Pt K → K) (pts : List (Pt K)) : List (Pt K) :=
  ((anglesPoints (angle (center pts)) pts).foldl keepStep (-10, [])).2

/-- `Polygon::Polygon`, `DelaunayVoronoi.h:241-245` with 284-285 -/
def Polygon.make (angle : Pt K → Pt K → K) (pts : List (Pt K)) : Polygon K :=
  ⟨sortUnique angle pts, updateEdges (sortUnique angle pts)⟩

/-- `Polygon::PointIsInside`, `DelaunayVoronoi.h:297-307` -/
def Polygon.pointIsInside (g : Polygon K) (p : Pt K) : Bool :=
  (g.edges.filter fun e => above (e.lineParameter p ⟨1, 0⟩) 0).length % 2 == 1

/-- `Polygon::SegmentIntersects`, `DelaunayVoronoi.h:310-319` -/
def Polygon.segmentIntersects (g : Polygon K) (p0 p1 : Pt K) : Bool :=
  g.edges.any fun e => match e.lineParameter p0 ⟨p1.x - p0.x, p1.y - p0.y⟩ with
    | some l => decide (l > 0 ∧ l < 1)
    | none => false

/-- `DelaunayVoronoi.h:328-333` -/
def closestStep (p n : Pt K) (best : K) (e : Edge K) : K :=
  match e.lineParameter p n with
  | some l => if l > 1 / 10000000000 then min best l else best
  | none => best

/-- `Polygon::GetClosestIntersection`, `DelaunayVoronoi.h:323-338` -/
def Polygon.closestIntersection (g : Polygon K) (p n : Pt K) : Pt K :=
  let l := g.edges.foldl (closestStep p n) 10000000000
  ⟨p.x + n.x * l, p.y + n.y * l⟩

/-- `Polygon::GetEdgeIndex`, `DelaunayVoronoi.h:341-347` -/
def Polygon.edgeIndex (g : Polygon K) (p : Pt K) : Int :=
  match g.edges.findIdx? fun e => e.near p with
  | some i => i
  | none => -1

/-- `Polygon::GetPointOnBothEdges`, `DelaunayVoronoi.h:350-360` -/
def Polygon.pointOnBothEdges (g : Polygon K) (i j : Int) : Res (Pt K) :=
  if i < 0 ∨ j < 0 then .ub else
  match g.edges[i.toNat]?, g.edges[j.toNat]? with
  | some e1, some e2 => if e2.contains e1.p0 then .ok e1.p0 else if e2.contains e1.p1 then .ok e1.p1 else .throw
  | _, _ => .ub

end NuTo.Delaunay
