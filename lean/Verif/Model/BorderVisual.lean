import Verif.Model.CylinderRun
import Verif.Model.Visualize
import Mathlib.Analysis.SpecialFunctions.Trigonometric.Basic

/-!
The pictures of the walls of a particle simulation: `VisualizationStatic` of `CollidableWallBase` and
`CollidableWallCylinder` (`nuto/geometryConcrete/collision/collidables`) and `SubBoxHandler::VisualizeBorders`
(`nuto/geometryConcrete/collision/handler/SubBoxHandler.cpp`).

`double` is `ℝ`, `std::cos`, `std::sin`, `M_PI` are the functions and the number; the grid is the one of
`Verif/Model/Visualize.lean`.  Writing the file is left out.
-/

namespace NuTo.Collision

/-- Eigen's `cross` -/
def cross (u v : V3) : V3 := ![u 1 * v 2 - u 2 * v 1, u 2 * v 0 - u 0 * v 2, u 0 * v 1 - u 1 * v 0]

/-- A `Vector3d` handed over as `VectorXd` -/
def coordsOf (v : V3) : List ℝ := [v 0, v 1, v 2]

/-- What `VisualizationStatic` uses of a plane wall: `mPosition`, `mDirection`, `mBoxes` and `mOutsideBox`
(`CollidableWallBase.h:99-119`, `CollidableBase.h:107-108`); a null pointer is `none`. -/
structure DrawnWall where
  position : V3
  direction : V3
  boxes : List ℤ
  outside : Option ℤ

/-- `SetBoxes`, `CollidableWallBase.cpp:109-114` -/
def DrawnWall.setBoxes (w : DrawnWall) (inside outside : ℤ) : DrawnWall :=
  { w with boxes := w.boxes ++ [inside], outside := some outside }

/-- `CollidableWallBase.cpp:75-80` -/
noncomputable def someOther (direction : V3) : V3 :=
  if |dot ![1, 0, 0] direction| = 1 then ![0, 1, 0] else ![1, 0, 0]

/-- `transversal`, `CollidableWallBase.cpp:82,86,89` -/
noncomputable def transversal (direction : V3) (size : ℝ) : V3 :=
  (size / 2) • normalize (cross (someOther direction) direction)

/-- `transversal2`, `CollidableWallBase.cpp:83,87,90`: made from `transversal` before that is normalised -/
noncomputable def transversal2 (direction : V3) (size : ℝ) : V3 :=
  (size / 2) • normalize (cross (cross (someOther direction) direction) direction)

/-- `corners`, `CollidableWallBase.cpp:92-95` -/
noncomputable def wallCorners (position direction : V3) (size : ℝ) : List V3 :=
  let t := transversal direction size
  let u := transversal2 direction size
  [position + t + u, position + t - u, position - t - u, position - t + u]

/-- A loop that adds points and keeps their numbers: `CollidableWallBase.cpp:98-102`, `CollidableWallCylinder.cpp:117-118` -/
noncomputable def addPoints (g : Visualize.Grid ℝ) (points : List V3) : Res (Visualize.Grid ℝ × List Int) :=
  Res.foldlM (fun a p => (a.1.addPoint (coordsOf p)).bind fun b => .ok (b.1, a.2 ++ [(b.2 : Int)])) (g, []) points

/-- `AddCell` and `SetCellData(insertIndex, "Direction", …)`: `CollidableWallBase.cpp:103-105`,
`CollidableWallCylinder.cpp:146-152,165-169` -/
noncomputable def addDirected (g : Visualize.Grid ℝ) (ids : List Int) (t : Visualize.CellType) (direction : V3) :
    Res (Visualize.Grid ℝ) :=
  (g.addCell ids t).bind fun b => b.1.setCellData b.2 "Direction" (coordsOf direction)

/-- `CollidableWallBase::VisualizationStatic`, `CollidableWallBase.cpp:65-106`; `*mBoxes.begin()` of an empty vector is
undefined -/
noncomputable def DrawnWall.draw (w : DrawnWall) (g : Visualize.Grid ℝ) : Res (Visualize.Grid ℝ) :=
  match w.boxes with
  | [] => .ub
  | b :: _ =>
    (addPoints g (wallCorners w.position w.direction (if some b = w.outside then 2 else 1))).bind fun a =>
      addDirected a.1 a.2 .quad w.direction

/-- A wall made by `BuildSubBoxes`, `SubBoxHandler.cpp:131-137` -/
noncomputable def BoxWall.drawn (w : BoxWall ℝ) : DrawnWall :=
  DrawnWall.setBoxes ⟨w.toWall.position, w.toWall.direction, [], none⟩ w.inside w.outside

/-- `VisualizeBorders`, `SubBoxHandler.cpp:335-343`, of a box shaped specimen -/
noncomputable def Grid.visualizeBorders (g : Grid ℝ) : Res (Visualize.Grid ℝ) :=
  Res.foldlM (fun v b => Res.foldlM (fun v (w : BoxWall ℝ) => w.drawn.draw v) v (g.buildSubBoxes b))
    (Visualize.Grid.empty.defineCellData "Direction") (intSpan 0 (g.size - 1))

/-- `nonCoLin`, `CollidableWallCylinder.cpp:93-95` -/
noncomputable def nonCoLin (n : V3) : V3 := if ![1, 0, 0] = n then ![0, 1, 0] else ![1, 0, 0]

/-- `pointCircle.row(i)`, `CollidableWallCylinder.cpp:97-110` -/
noncomputable def circlePoint (n : V3) (radius : ℝ) (i : ℕ) : V3 :=
  let s := normalize (cross n (nonCoLin n))
  let alpha := (i : ℝ) * (2 * Real.pi / 40)
  radius • (dot n s • n + Real.cos alpha • cross (cross n s) n + Real.sin alpha • cross n s)

/-- The points in the order in which they are added, `CollidableWallCylinder.cpp:115-128` -/
noncomputable def cylinderPoints (w : Cylinder) (height : ℝ) : List V3 :=
  let top := w.position + (height / 2) • w.direction
  let bot := w.position - (height / 2) • w.direction
  [top, bot] ++ (List.range 41).flatMap fun i =>
    [circlePoint w.direction w.radius i + top, circlePoint w.direction w.radius i + bot]

/-- `dir`, `CollidableWallCylinder.cpp:166-168` -/
noncomputable def sideDirection (w : Cylinder) (i : ℕ) : V3 :=
  normalize (cross (circlePoint w.direction w.radius i - circlePoint w.direction w.radius (i + 1)) w.direction)

/-- One round of the loop over the triangles, `CollidableWallCylinder.cpp:133-153`.  `k` is the number of the first point;
the points of the top circle are `k + 2, k + 4, …`, those of the bottom circle `k + 3, k + 5, …`. -/
noncomputable def drawTriangles (w : Cylinder) (k : Int) (g : Visualize.Grid ℝ) (i : ℕ) : Res (Visualize.Grid ℝ) :=
  (g.addCell [k, k + 2 + 2 * i, k + 2 + 2 * (i + 1)] .triangle).bind fun a =>
    (a.1.addCell [k + 1, k + 3 + 2 * i, k + 3 + 2 * (i + 1)] .triangle).bind fun b =>
      (b.1.setCellData a.2 "Direction" (coordsOf (-w.direction))).bind fun c =>
        c.setCellData b.2 "Direction" (coordsOf w.direction)

/-- One round of the loop over the side surface, `CollidableWallCylinder.cpp:157-170` -/
noncomputable def drawSide (w : Cylinder) (k : Int) (g : Visualize.Grid ℝ) (i : ℕ) : Res (Visualize.Grid ℝ) :=
  addDirected g [k + 3 + 2 * i, k + 3 + 2 * (i + 1), k + 2 + 2 * (i + 1), k + 2 + 2 * i] .quad (sideDirection w i)

/-- `CollidableWallCylinder::VisualizationStatic`, `CollidableWallCylinder.cpp:85-171` -/
noncomputable def drawCylinder (w : Cylinder) (height : ℝ) (g : Visualize.Grid ℝ) : Res (Visualize.Grid ℝ) :=
  (addPoints g (cylinderPoints w height)).bind fun a =>
    (Res.foldlM (drawTriangles w g.points.length) a.1 (List.range 40)).bind fun b =>
      Res.foldlM (drawSide w g.points.length) b (List.range 40)

end NuTo.Collision
