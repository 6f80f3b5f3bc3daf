import Verif.Model.Basic
import Verif.Model.Visualize
import Verif.Model.TriangleTable
import Verif.Model.TetrahedronTable
import Mathlib.Data.Rat.Defs

/-!
The integration rules of triangle, tetrahedron and prism and the functions that choose a rule:
`nuto/mechanics/integrationtypes/IntegrationTypeTriangle.cpp`, `IntegrationTypeTetrahedron.cpp`,
`IntegrationType3D6NGauss1Ip.cpp`, `IntegrationType3D6NGauss2x3Ip.cpp`, `IntegrationCompanion.cpp`.
`double` is replaced by `ℚ`; decimal literals have the value they are written with.
-/
namespace NuTo.SimplexRule

/-- `std::vector::operator[]` with an `int` argument: a negative index is converted to a huge one -/
def vecAt {α : Type _} (l : List α) (i : Int) : Res α :=
  if i < 0 then .ub else match l[i.toNat]? with
    | some a => .ok a
    | none => .ub

/-- a tabulated coordinate -/
def coord (n : ℤ) : ℚ := n / 10 ^ 19

/-- `quadratureData[mOrder - 1]`, `IntegrationTypeTriangle.cpp:661`; the constructor 653-656 stores the order
unchecked -/
def triangleRule (order : Int) : Res (List (ℤ × ℤ × ℤ)) := vecAt triangleTable (order - 1)

/-- `IntegrationTypeTriangle::GetNumIntegrationPoints`, `IntegrationTypeTriangle.cpp:665-668` -/
def triangleNum (order : Int) : Res Nat := (triangleRule order).bind fun r => .ok r.length

/-- `IntegrationTypeTriangle::GetLocalIntegrationPointCoordinates`, `IntegrationTypeTriangle.cpp:658-662` -/
def triangleCoords (order i : Int) : Res (ℚ × ℚ) :=
  (triangleRule order).bind fun r => (vecAt r i).bind fun p => .ok (coord p.1, coord p.2.1)

/-- `IntegrationTypeTriangle::GetIntegrationPointWeight`, `IntegrationTypeTriangle.cpp:671-675` -/
def triangleWeight (order i : Int) : Res ℚ :=
  (triangleRule order).bind fun r => (vecAt r i).bind fun p => .ok (p.2.2 / 10 ^ 20)

/-- `orderToIndex`, `IntegrationTypeTetrahedron.cpp:3083-3084` -/
def orderToIndex : List Int := [0, 0, 1, 2, 3, 4, 5, 6, 7, 8, 9, 9, 10, 10, 11, 11, 12, 12, 13, 13, 14, 14]

/-- `quadratureData[mDataIndex]` with `mDataIndex` from the constructor, `IntegrationTypeTetrahedron.cpp:3086-3089` -/
def tetrahedronRule (order : Int) : Res (List (ℤ × ℤ × ℤ × ℤ)) :=
  (vecAt orderToIndex order).bind fun k => vecAt tetrahedronTable k

/-- `IntegrationTypeTetrahedron::GetNumIntegrationPoints`, `IntegrationTypeTetrahedron.cpp:3098-3101` -/
def tetrahedronNum (order : Int) : Res Nat := (tetrahedronRule order).bind fun r => .ok r.length

/-- `IntegrationTypeTetrahedron::GetLocalIntegrationPointCoordinates`, `IntegrationTypeTetrahedron.cpp:3091-3095` -/
def tetrahedronCoords (order i : Int) : Res (ℚ × ℚ × ℚ) :=
  (tetrahedronRule order).bind fun r => (vecAt r i).bind fun p =>
    .ok (coord p.1, coord p.2.1, coord p.2.2.1)

/-- `IntegrationTypeTetrahedron::GetIntegrationPointWeight`, `IntegrationTypeTetrahedron.cpp:3104-3108` -/
def tetrahedronWeight (order i : Int) : Res ℚ :=
  (tetrahedronRule order).bind fun r => (vecAt r i).bind fun p => .ok (p.2.2.2 / 10 ^ 26)

/-- `IntegrationType3D6NGauss1Ip`, `IntegrationType3D6NGauss1Ip.cpp:4-19`: the point number is not looked at -/
def prism1Num : Nat := 1
@[inherit_doc prism1Num] def prism1Coords (_i : Int) : Res (ℚ × ℚ × ℚ) := .ok (1 / 3, 1 / 3, 0)
@[inherit_doc prism1Num] def prism1Weight (_i : Int) : Res ℚ := .ok 1

/-- `IntegrationType3D6NGauss2x3Ip::GetLocalIntegrationPointCoordinates`, `IntegrationType3D6NGauss2x3Ip.cpp:9-34`;
the `assert` in line 16 comes before the `throw` of the `default` branch -/
def prism2Coords (i : Int) : Res (ℚ × ℚ × ℚ) :=
  Res.require (0 ≤ i ∧ i < 6) <|
    if i = 0 then .ok (1 / 6, 1 / 6, -0.577350269189626)
    else if i = 1 then .ok (4 / 6, 1 / 6, -0.577350269189626)
    else if i = 2 then .ok (1 / 6, 4 / 6, -0.577350269189626)
    else if i = 3 then .ok (1 / 6, 1 / 6, 0.577350269189626)
    else if i = 4 then .ok (4 / 6, 1 / 6, 0.577350269189626)
    else if i = 5 then .ok (1 / 6, 4 / 6, 0.577350269189626)
    else .throw

/-- `GetNumIntegrationPoints`, `IntegrationType3D6NGauss2x3Ip.cpp:39-42` -/
def prism2Num : Nat := 6

/-- `GetIntegrationPointWeight`, `IntegrationType3D6NGauss2x3Ip.cpp:47-50`: the point number is not looked at -/
def prism2Weight (_i : Int) : Res ℚ := .ok (1 / 6)

/-- The objects the two functions of `IntegrationCompanion.cpp` create (the constructor of the tensor product rule may
still throw; it is modelled in `Model/Legendre`). -/
inductive Rule where
  | tensorGauss (dim : Nat) (order : Int)
  | tensorLobatto (dim : Nat) (order : Int)
  | triangle (order : Int)
  | tetrahedron (order : Int)
  | prism1
  | prism2
deriving DecidableEq, Repr

/-- `CreateGaussIntegrationType`, `IntegrationCompanion.cpp:18-78` (helpers) and 96-117 -/
def createGauss (shape : Visualize.Shape) (order : Int) : Res Rule :=
  match shape with
  | .line => .ok (.tensorGauss 1 order)
  | .triangle => if 0 < order ∧ order < 21 then .ok (.triangle order) else .throw
  | .quadrilateral => .ok (.tensorGauss 2 order)
  | .tetrahedron => if 0 < order ∧ order < 21 then .ok (.tetrahedron order) else .throw
  | .hexahedron => .ok (.tensorGauss 3 order)
  | .prism => if order = 1 then .ok .prism1 else if order = 2 then .ok .prism2 else .throw
  | .pyramid => .throw

/-- `CreateLobattoIntegrationType`, `IntegrationCompanion.cpp:80-93` (helpers) and 119-137 -/
def createLobatto (shape : Visualize.Shape) (order : Int) : Res Rule :=
  match shape with
  | .line => .ok (.tensorLobatto 1 order)
  | .quadrilateral => .ok (.tensorLobatto 2 order)
  | .hexahedron => .ok (.tensorLobatto 3 order)
  | .triangle | .tetrahedron | .prism | .pyramid => .throw

end NuTo.SimplexRule
