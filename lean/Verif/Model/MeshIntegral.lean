/-
Integrals of functions of the position over the cells of a mesh.

Simplifications: exact real arithmetic; a rule is its list of weights and points (`Model/RuleFactory`); the loop over the cells is the code of
the user, one cell after the other.
-/
import Verif.Model.Cell

namespace NuTo

namespace Cell

/-- `nuto/mechanics/cell/CellIpData.h` 33-36: `GlobalCoordinates`, the interpolated coordinates of the nodes; `junk` is the content of an
uninitialised matrix. -/
noncomputable def globalCoordinates (junk : Nat → Nat → ℝ) (c : Cell) (d : IpData) : Res (List ℝ) :=
  c.coordElement.interpolate junk fun k => d.coords.getD k 0

/-- `nuto/mechanics/cell/Cell.h` 42-45: `Integrate` of a function that evaluates `f` at `GlobalCoordinates()`. -/
noncomputable def integratePosition (junk : Nat → Nat → ℝ) (c : Cell) (f : List ℝ → ℝ) : Res ℝ :=
  c.integrateScalar fun d => (c.globalCoordinates junk d).bind fun x => .ok (f x)

end Cell

/-- `result += cell.Integrate(f)` for all cells -/
noncomputable def integrateCells (junk : Nat → Nat → ℝ) (cells : List Cell) (f : List ℝ → ℝ) : Res ℝ :=
  Res.foldlM (fun (r : ℝ) (c : Cell) => (c.integratePosition junk f).bind fun x => .ok (r + x)) 0 cells

end NuTo
