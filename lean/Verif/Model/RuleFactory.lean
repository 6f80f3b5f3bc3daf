import Verif.Model.SimplexRule
import Verif.Model.Legendre
import Mathlib.Data.Real.Basic

/-!
Model of the integration types that the factory of /repo/nuto/mechanics/integrationtypes/IntegrationCompanion.cpp returns, as a user of the
factory sees them: the list of weights and coordinates.

`order` is an `int` that becomes the `size_t nIps` of the constructor of `IntegrationTypeTensorProduct` and an `int` again in
`ComputeWeightsAndPoints1D…`, so it does not change.  The list of roots that `LegendreRoots` and `LegendreDerivRoots` return is a parameter
(`Model/Legendre` has the iteration).  Numbers are exact; memory is not limited, and `std::pow(nIps, TDim)` fits an `int`.
-/
namespace NuTo
namespace RuleFactory

open SimplexRule

/-- All points of an integration type, read with `GetNumIntegrationPoints`, `GetIntegrationPointWeight` and
`GetLocalIntegrationPointCoordinates` (/repo/nuto/mechanics/integrationtypes/IntegrationTypeBase.h) -/
noncomputable def collect {α : Type} (num : Res Nat) (weight : Int → Res ℚ) (coords : Int → Res α) (toList : α → List ℝ) :
    Res (List (ℝ × List ℝ)) :=
  num.bind fun n => (List.range n).mapM fun (i : Nat) => (weight i).bind fun w => (coords i).bind fun c => .ok ((w : ℝ), toList c)

/-- The points of a rule.  Tensor products: constructor in IntegrationTypeTensorProduct.cpp 4-39; the others: see `Model/SimplexRule` -/
noncomputable def contents (gaussRoots lobattoRoots : Int → List ℝ) : Rule → Res (List (ℝ × List ℝ))
  | .tensorGauss dim nIps => (Quadrature.gauss nIps (gaussRoots nIps)).bind fun wp => .ok (Quadrature.tensor dim nIps.toNat wp.1 wp.2)
  | .tensorLobatto dim nIps =>
    (Quadrature.lobatto nIps (lobattoRoots (nIps - 1))).bind fun wp => .ok (Quadrature.tensor dim nIps.toNat wp.1 wp.2)
  | .triangle order => collect (triangleNum order) (triangleWeight order) (triangleCoords order) fun c => [(c.1 : ℝ), (c.2 : ℝ)]
  | .tetrahedron order =>
    collect (tetrahedronNum order) (tetrahedronWeight order) (tetrahedronCoords order) fun c => [(c.1 : ℝ), (c.2.1 : ℝ), (c.2.2 : ℝ)]
  | .prism1 => collect (.ok prism1Num) prism1Weight prism1Coords fun c => [(c.1 : ℝ), (c.2.1 : ℝ), (c.2.2 : ℝ)]
  | .prism2 => collect (.ok prism2Num) prism2Weight prism2Coords fun c => [(c.1 : ℝ), (c.2.1 : ℝ), (c.2.2 : ℝ)]

/-- `CreateGaussIntegrationType` (IntegrationCompanion.cpp 96-117) and reading all points of the result -/
noncomputable def gauss (gaussRoots : Int → List ℝ) (shape : Visualize.Shape) (order : Int) : Res (List (ℝ × List ℝ)) :=
  (createGauss shape order).bind (contents gaussRoots gaussRoots)

/-- `CreateLobattoIntegrationType` (IntegrationCompanion.cpp 119-137) and reading all points of the result -/
noncomputable def lobatto (lobattoRoots : Int → List ℝ) (shape : Visualize.Shape) (order : Int) : Res (List (ℝ × List ℝ)) :=
  (createLobatto shape order).bind (contents lobattoRoots lobattoRoots)

end RuleFactory
end NuTo
