import Verif.Model.Interpolation
import Verif.Model.Lobatto

/-!
# Shapes and the functions that create interpolations and integration types

`nuto/math/shapes`, `nuto/mechanics/interpolation/InterpolationCompanion.cpp`,
`nuto/mechanics/integrationtypes/IntegrationCompanion.cpp`.  Exact arithmetic.
-/

namespace NuTo

/-- `nuto/math/shapes/Shape.h` 9-18: `eShape`. -/
inductive EShape where
  | line | triangle | quadrilateral | tetrahedron | hexahedron | prism | pyramid
  deriving DecidableEq

namespace EShape

/-- `nuto/math/shapes/*.h`: `IsWithinShape(xi, e)` of each class (`Line.h` 16-20, `Triangle.h` 16-21, `Quadrilateral.h` 16-21,
`Tetrahedron.h` 16-22, `Hexahedron.h` 16-22, `Prism.h` 16-22, `Pyramid.h` 16-22). -/
def isWithinShape {K : Type} [Field K] [LinearOrder K] : EShape → (Nat → K) → K → Prop
  | line, xi, e => -1 - e < xi 0 ∧ xi 0 < 1 + e
  | triangle, xi, e => 0 - e < xi 0 ∧ xi 0 < 1 + e ∧ 0 - e < xi 1 ∧ xi 1 < 1 + e ∧ xi 0 + xi 1 < 1 + e
  | quadrilateral, xi, e => -1 - e < xi 0 ∧ xi 0 < 1 + e ∧ -1 - e < xi 1 ∧ xi 1 < 1 + e
  | tetrahedron, xi, e =>
    0 - e < xi 0 ∧ xi 0 < 1 + e ∧ 0 - e < xi 1 ∧ xi 1 < 1 + e ∧ 0 - e < xi 2 ∧ xi 2 < 1 + e ∧ xi 0 + xi 1 + xi 2 < 1 + e
  | hexahedron, xi, e => -1 - e < xi 0 ∧ xi 0 < 1 + e ∧ -1 - e < xi 1 ∧ xi 1 < 1 + e ∧ -1 - e < xi 2 ∧ xi 2 < 1 + e
  | prism, xi, e =>
    0 - e < xi 0 ∧ xi 0 < 1 + e ∧ 0 - e < xi 1 ∧ xi 1 < 1 + e ∧ -1 - e < xi 2 ∧ xi 2 < 1 + e ∧ xi 0 + xi 1 < 1 + e
  | pyramid, xi, e => -(1 - xi 2) - e < xi 0 ∧ xi 0 < (1 - xi 2) + e ∧ -(1 - xi 2) - e < xi 1 ∧ xi 1 < (1 - xi 2) + e

/-- the dimension of the space of the natural coordinates: the number of entries of `xi` that `IsWithinShape` reads (same lines) -/
def dim : EShape → Nat
  | line => 1
  | triangle | quadrilateral => 2
  | tetrahedron | hexahedron | prism | pyramid => 3

end EShape

namespace Factory

open Interpolation

variable {K : Type} [Field K]

/-- an object of an interpolation class: its formulas and the member `mShape` that `GetShape` returns
(`nuto/mechanics/interpolation/Interpolation*.h`, the last member of each class) -/
structure Object (K : Type) where
  getShape : EShape
  interp : Interpolation K

/-- `nuto/mechanics/interpolation/InterpolationCompanion.cpp` 23-33: `LagrangeLine`. -/
def lagrangeLine (order : Int) : Res (Object K) :=
  if order = 1 then .ok ⟨.line, trussLinear⟩ else .throw

/-- `nuto/mechanics/interpolation/InterpolationCompanion.cpp` 36-48: `LagrangeTriangle`. -/
def lagrangeTriangle (order : Int) : Res (Object K) :=
  if order = 1 then .ok ⟨.triangle, triangleLinear⟩ else if order = 2 then .ok ⟨.triangle, triangleQuadratic⟩ else .throw

/-- `nuto/mechanics/interpolation/InterpolationCompanion.cpp` 51-63: `LagrangeQuadrilateral`. -/
def lagrangeQuadrilateral (order : Int) : Res (Object K) :=
  if order = 1 then .ok ⟨.quadrilateral, quadLinear⟩ else if order = 2 then .ok ⟨.quadrilateral, quadSerendipity⟩ else .throw

/-- `nuto/mechanics/interpolation/InterpolationCompanion.cpp` 66-78: `LagrangeTetrahedron`. -/
def lagrangeTetrahedron (order : Int) : Res (Object K) :=
  if order = 1 then .ok ⟨.tetrahedron, tetrahedronLinear⟩ else if order = 2 then .ok ⟨.tetrahedron, tetrahedronQuadratic⟩ else .throw

/-- `nuto/mechanics/interpolation/InterpolationCompanion.cpp` 81-91: `LagrangeHex`. -/
def lagrangeHex (order : Int) : Res (Object K) :=
  if order = 1 then .ok ⟨.hexahedron, brickLinear⟩ else .throw

/-- `nuto/mechanics/interpolation/InterpolationCompanion.cpp` 94-106: `LagrangePrism`. -/
def lagrangePrism (order : Int) : Res (Object K) :=
  if order = 1 then .ok ⟨.prism, prismLinear⟩ else if order = 2 then .ok ⟨.prism, prismQuadratic⟩ else .throw

/-- `nuto/mechanics/interpolation/InterpolationCompanion.cpp` 109-119: `LagrangePyramid`. -/
def lagrangePyramid [DecidableEq K] (order : Int) : Res (Object K) :=
  if order = 1 then .ok ⟨.pyramid, pyramidLinear⟩ else .throw

/-- `nuto/mechanics/interpolation/InterpolationCompanion.cpp` 122-143: `CreateLagrangeInterpolation`. -/
def createLagrange [DecidableEq K] (shape : EShape) (order : Int) : Res (Object K) :=
  match shape with
  | .line => lagrangeLine order
  | .triangle => lagrangeTriangle order
  | .quadrilateral => lagrangeQuadrilateral order
  | .tetrahedron => lagrangeTetrahedron order
  | .hexahedron => lagrangeHex order
  | .prism => lagrangePrism order
  | .pyramid => lagrangePyramid order

variable [LinearOrder K]

/-- the truss, quad and brick classes of `nuto/mechanics/interpolation/Interpolation*Lobatto.cpp` for given nodes in one direction -/
def lobattoTruss (nodes : List K) : Interpolation K :=
  ⟨1, nodes.length, nodes.map fun x => [x], fun x => Lobatto.shape nodes (x 0), fun x => (Lobatto.deriv nodes (x 0)).map fun d => [d]⟩

/-- see `lobattoTruss` -/
def lobattoQuad (nodes : List K) : Interpolation K :=
  ⟨2, nodes.length * nodes.length, (List.range nodes.length).flatMap fun j => (List.range nodes.length).map fun i =>
    [Lobatto.node nodes i, Lobatto.node nodes j], Lobatto.quadShape nodes, Lobatto.quadDeriv nodes⟩

/-- see `lobattoTruss` -/
def lobattoBrick (nodes : List K) : Interpolation K :=
  ⟨3, nodes.length * nodes.length * nodes.length, (List.range nodes.length).flatMap fun k => (List.range nodes.length).flatMap fun j =>
    (List.range nodes.length).map fun i => [Lobatto.node nodes i, Lobatto.node nodes j, Lobatto.node nodes k],
    Lobatto.brickShape nodes, Lobatto.brickDeriv nodes⟩

/-- `nuto/mechanics/interpolation/InterpolationCompanion.cpp` 146-177: `CreateLobattoInterpolation`; `roots` is
`LegendreDerivRoots`. -/
def createLobatto (roots : Int → List K) (shape : EShape) (order : Int) : Res (Object K) :=
  match shape with
  | .line => (Lobatto.localCoords roots order).bind fun nodes => .ok ⟨.line, lobattoTruss nodes⟩
  | .quadrilateral => (Lobatto.localCoords roots order).bind fun nodes => .ok ⟨.quadrilateral, lobattoQuad nodes⟩
  | .hexahedron => (Lobatto.localCoords roots order).bind fun nodes => .ok ⟨.hexahedron, lobattoBrick nodes⟩
  | _ => .throw

end Factory

end NuTo
