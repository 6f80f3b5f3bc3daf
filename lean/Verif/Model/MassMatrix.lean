/-
The diagonally lumped mass matrix of a mesh: the integrand, the integration and the assembly.

Simplifications: as in `Model/Balance`.
-/
import Verif.Model.Balance
import Mathlib.Data.Real.Basic

namespace NuTo

namespace Balance

/-- `nuto/mechanics/cell/SimpleAssembler.cpp` 67-98: `BuildDiagonallyLumpedMatrix` for cells with one dof element each;
`num` is `dof.GetNum()`, `threads` as in `Assembly.buildVector`. -/
noncomputable def assembleLumped (s : Assembly.DofSizes) (dof : Nat) (num : ℝ) (f : FemElement ℝ → IpData → Res (DofDMat ℝ))
    (threads : List (List (Cell × FemElement ℝ))) : Res (DofVec ℝ) :=
  (threads.mapM fun (t : List (Cell × FemElement ℝ)) => t.mapM (matCell dof f)).bind fun ts =>
    Assembly.buildLumped (fun _ => num) s [dof] ts

end Balance

end NuTo
