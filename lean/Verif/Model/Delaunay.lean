import Mathlib.Algebra.Order.Field.Basic
import Verif.Model.Basic

/-!
The triangulation of `nuto/math/DelaunayVoronoi.h` (Bowyer–Watson).

`double` is an ordered field.  The elements of a `std::list` are nodes with an address; a pointer is an address and using
one whose node was removed is undefined.
-/

namespace NuTo.Delaunay

/-- `Eigen::Vector2d` -/
structure Pt (K : Type) where
  x : K
  y : K
deriving DecidableEq

/-- `Edge::mPoints`, `DelaunayVoronoi.h:104` -/
structure Edge (K : Type) where
  p0 : Pt K
  p1 : Pt K
deriving DecidableEq

/-- `Triangle::mEdges`, `DelaunayVoronoi.h:231` -/
structure Triangle (K : Type) where
  e0 : Edge K
  e1 : Edge K
  e2 : Edge K
deriving DecidableEq

/-- An element of `std::list<Triangle>` at its address -/
structure Node (K : Type) where
  id : Nat
  tri : Triangle K
deriving DecidableEq

variable {K : Type} [Field K] [LinearOrder K]

/-- `Edge::operator==`, `DelaunayVoronoi.h:49-53` -/
def Edge.same (e f : Edge K) : Bool := decide ((e.p0 = f.p0 ∧ e.p1 = f.p1) ∨ (e.p0 = f.p1 ∧ e.p1 = f.p0))

/-- `Edge::Contains`, `DelaunayVoronoi.h:55-60` -/
def Edge.contains (e : Edge K) (p : Pt K) : Bool := decide (e.p0 = p ∨ e.p1 = p)

/-- `Triangle::GetEdges`, `DelaunayVoronoi.h:135-138` -/
def Triangle.edges (t : Triangle K) : List (Edge K) := [t.e0, t.e1, t.e2]

/-- `Triangle::GetUniquePoints`, `DelaunayVoronoi.h:117-133` -/
def Triangle.uniquePoints (t : Triangle K) : Res (Pt K × Pt K × Pt K) :=
  let c := if t.e0.contains t.e1.p0 then t.e1.p1 else t.e1.p0
  if t.e0.p0 ≠ t.e0.p1 ∧ t.e0.p0 ≠ c ∧ t.e0.p1 ≠ c then .ok (t.e0.p0, t.e0.p1, c) else .ub

/-- `Triangle::Contains(point)`, `DelaunayVoronoi.h:140-146` -/
def Triangle.contains (t : Triangle K) (p : Pt K) : Bool := t.edges.any fun e => e.contains p

/-- `Triangle::Contains(edge)`, `DelaunayVoronoi.h:148-154` -/
def Triangle.containsEdge (t : Triangle K) (f : Edge K) : Bool := t.edges.any fun e => f.same e

/-- `Triangle::operator==`, `DelaunayVoronoi.h:156-163` -/
def Triangle.same (t o : Triangle K) : Res Bool :=
  o.uniquePoints.bind fun q => .ok (t.contains q.1 && t.contains q.2.1 && t.contains q.2.2)

/-- `Triangle::GetCircumcenter`, `DelaunayVoronoi.h:166-179` -/
def Triangle.circumcenter (t : Triangle K) : Res (Pt K) :=
  t.uniquePoints.bind fun q =>
    let a := q.1
    let b := q.2.1
    let c := q.2.2
    let d := 2 * (a.x * (b.y - c.y) + b.x * (c.y - a.y) + c.x * (a.y - b.y))
    let aa := a.x * a.x + a.y * a.y
    let bb := b.x * b.x + b.y * b.y
    let cc := c.x * c.x + c.y * c.y
    let x := aa * (b.y - c.y) + bb * (c.y - a.y) + cc * (a.y - b.y)
    let y := aa * (c.x - b.x) + bb * (a.x - c.x) + cc * (b.x - a.x)
    .ok ⟨x / d, y / d⟩

/-- The determinant of `matr`, `DelaunayVoronoi.h:205-219` -/
def determinant (a b c d : Pt K) : K :=
  let m (p : Pt K) := p.x * p.x - d.x * d.x + p.y * p.y - d.y * d.y
  (a.x - d.x) * ((b.y - d.y) * m c - (c.y - d.y) * m b) - (a.y - d.y) * ((b.x - d.x) * m c - (c.x - d.x) * m b) +
    m a * ((b.x - d.x) * (c.y - d.y) - (c.x - d.x) * (b.y - d.y))

/-- `Triangle::CircumcircleContainsPoint`, `DelaunayVoronoi.h:181-220` -/
def Triangle.circumcircleContains (t : Triangle K) (d : Pt K) : Res Bool :=
  t.uniquePoints.bind fun q =>
    let a := q.1
    let dir := (q.2.1.x - a.x) * (q.2.2.y - a.y) - (q.2.1.y - a.y) * (q.2.2.x - a.x)
    let b := if dir < 0 then q.2.2 else q.2.1
    let c := if dir < 0 then q.2.1 else q.2.2
    if a = d ∨ b = d ∨ c = d then .ok false else .ok (decide (determinant a b c d > 0))

/-- The loop over all triangles that collects the bad ones, `DelaunayVoronoi.h:529-534` -/
def badTriangles (p : Pt K) : List (Node K) → Res (List (Node K))
  | [] => .ok []
  | n :: ns => (n.tri.circumcircleContains p).bind fun b =>
      (badTriangles p ns).bind fun r => .ok (if b then n :: r else r)

/-- The loop over the other bad triangles: does one of them contain the edge, `DelaunayVoronoi.h:541-552` -/
def edgeShared (t : Triangle K) (e : Edge K) : List (Node K) → Res Bool
  | [] => .ok false
  | o :: os => (o.tri.same t).bind fun s =>
      if s then edgeShared t e os else if o.tri.containsEdge e then .ok true else edgeShared t e os

/-- The loop over the edges of one bad triangle, `DelaunayVoronoi.h:539-555` -/
def openEdges (bad : List (Node K)) (t : Triangle K) : List (Edge K) → Res (List (Edge K))
  | [] => .ok []
  | e :: es => (edgeShared t e bad).bind fun s =>
      (openEdges bad t es).bind fun r => .ok (if s then r else e :: r)

/-- The loop over the bad triangles that collects the edges that only one of them has, `DelaunayVoronoi.h:536-556` -/
def cavityEdges (bad : List (Node K)) : List (Node K) → Res (List (Edge K))
  | [] => .ok []
  | n :: ns => (openEdges bad n.tri n.tri.edges).bind fun l => (cavityEdges bad ns).bind fun r => .ok (l ++ r)

/-- `std::list::remove(value)`: all elements that are `==` go -/
def removeEqual (v : Triangle K) : List (Node K) → Res (List (Node K))
  | [] => .ok []
  | n :: ns => (n.tri.same v).bind fun s => (removeEqual v ns).bind fun r => .ok (if s then r else n :: r)

/-- `mTriangulation.remove(*pointer)`: the pointer has to point to an element that is still there. -/
def removePointer (l : List (Node K)) (id : Nat) : Res (List (Node K)) :=
  match l.find? fun n => n.id == id with
  | some n => removeEqual n.tri l
  | none => .ub

/-- The new triangle over an edge, `DelaunayVoronoi.h:563` -/
def newTriangle (p : Pt K) (e : Edge K) : Triangle K := ⟨e, ⟨p, e.p0⟩, ⟨p, e.p1⟩⟩

/-- `mTriangulation` and the address of the next element -/
structure State (K : Type) where
  nodes : List (Node K)
  next : Nat
deriving DecidableEq

/-- `push_back` of the new triangles, `DelaunayVoronoi.h:562-563` -/
def pushAll (p : Pt K) : List (Edge K) → State K → State K
  | [], s => s
  | e :: es, s => pushAll p es ⟨s.nodes ++ [⟨s.next, newTriangle p e⟩], s.next + 1⟩

/-- One round of the loop over the points, `DelaunayVoronoi.h:527-564` -/
def insertPoint (s : State K) (p : Pt K) : Res (State K) :=
  (badTriangles p s.nodes).bind fun bad =>
    (cavityEdges bad bad).bind fun polygon =>
      (Res.foldlM removePointer s.nodes (bad.map Node.id)).bind fun l => .ok (pushAll p polygon ⟨l, s.next⟩)

/-- The bounds of the points, `DelaunayVoronoi.h:504-510` -/
def bounds (p : Pt K) (ps : List (Pt K)) : Pt K × Pt K :=
  ps.foldl (fun b q => (⟨min b.1.x q.x, min b.1.y q.y⟩, ⟨max b.2.x q.x, max b.2.y q.y⟩)) (p, p)

/-- `superMin` and `superMax` after `DelaunayVoronoi.h:512-514`.  `auto size` is an expression, not a value: it is evaluated
again, with the new `superMin`, when `superMax` is moved. -/
def superBounds (b : Pt K × Pt K) : Pt K × Pt K :=
  let lo : Pt K := ⟨b.1.x - 3 * (b.2.x - b.1.x), b.1.y - 3 * (b.2.y - b.1.y)⟩
  (lo, ⟨b.2.x + 3 * (b.2.x - lo.x), b.2.y + 3 * (b.2.y - lo.y)⟩)

/-- `sP`, `DelaunayVoronoi.h:516-520` -/
def superPoints (b : Pt K × Pt K) : List (Pt K) := [b.1, ⟨b.2.x, b.1.y⟩, b.2, ⟨b.1.x, b.2.y⟩]

/-- The two super triangles, `DelaunayVoronoi.h:522-523` -/
def superState (b : Pt K × Pt K) : State K :=
  let s0 := b.1
  let s1 : Pt K := ⟨b.2.x, b.1.y⟩
  let s2 := b.2
  let s3 : Pt K := ⟨b.1.x, b.2.y⟩
  ⟨[⟨0, ⟨⟨s0, s1⟩, ⟨s1, s2⟩, ⟨s2, s0⟩⟩⟩, ⟨1, ⟨⟨s0, s2⟩, ⟨s2, s3⟩, ⟨s3, s0⟩⟩⟩], 2⟩

/-- The triangulation with the super points, `DelaunayVoronoi.h:501-564`; without points `mPoints[0]` is read out of range. -/
def withSuperPoints : List (Pt K) → Res (State K)
  | [] => .ub
  | p :: ps => Res.foldlM insertPoint (superState (superBounds (bounds p (p :: ps)))) (p :: ps)

/-- `trianglesToErase`, `DelaunayVoronoi.h:566-572`: a pointer for every super point of the triangle -/
def trianglesToErase (sP : List (Pt K)) (l : List (Node K)) : List Nat :=
  l.flatMap fun n => (sP.filter fun s => n.tri.contains s).map fun _ => n.id

/-- `CalculateDelaunayTriangulation`, `DelaunayVoronoi.h:499-575` -/
def calculate : List (Pt K) → Res (List (Node K))
  | [] => .ub
  | p :: ps => (withSuperPoints (p :: ps)).bind fun s =>
      Res.foldlM removePointer s.nodes (trianglesToErase (superPoints (superBounds (bounds p (p :: ps)))) s.nodes)

end NuTo.Delaunay
