/-
The stiffness matrix of a mesh: the tangent of the law between the strain operators at an integration point.  Integration
and assembly as in `Model/Balance`.

Simplifications: exact real arithmetic; one dof type.  The time step and the identifiers of the point are part of the
function `tangent`.
-/
import Verif.Model.Balance
import Verif.Model.Constitutive

namespace NuTo

namespace Balance

/-- `nuto/mechanics/integrands/MomentumBalance.h` 37-46: `Hessian0`; `tangent` is `mLaw.Tangent` for a time step. -/
noncomputable def stiffness (dof : Nat) (tangent : List ℝ → IpData → Res (DMat ℝ)) (e : FemElement ℝ) (d : IpData) :
    Res (DofDMat ℝ) :=
  (bMatrix e d).bind fun B => (e.extractNodeValues 0).bind fun u => (B.mulVec u).bind fun eps =>
    (tangent eps d).bind fun D => (B.transpose.mul D).bind fun BD => (BD.mul B).bind fun k =>
      .ok [(toLex (dof, dof), k)]

/-- An Eigen matrix of fixed size. -/
def ofMatrix {n : Nat} (C : Matrix (Fin n) (Fin n) ℝ) : DMat ℝ :=
  ⟨n, n, fun i j => if h : i < n ∧ j < n then C ⟨i, h.1⟩ ⟨j, h.2⟩ else 0⟩

/-- `nuto/mechanics/constitutive/LinearElastic.h` 28-31 and 70-123: `Tangent` of `LinearElastic<TDim>`. -/
noncomputable def elasticTangent (dim : Nat) (E nu : ℝ) (ps : PlaneState) : DMat ℝ :=
  match dim with
  | 1 => ofMatrix (LinearElastic.calculateC1 E)
  | 2 => ofMatrix (LinearElastic.calculateC2 E nu ps)
  | _ => ofMatrix (LinearElastic.calculateC3 E nu)

/-- `nuto/mechanics/constitutive/LinearElastic.h` 23-26: `Stress` of `LinearElastic<TDim>`; a strain with another number
of components does not compile. -/
noncomputable def elasticStress (dim : Nat) (E nu : ℝ) (ps : PlaneState) (eps : List ℝ) : Res (List ℝ) :=
  (elasticTangent dim E nu ps).mulVec eps

end Balance

end NuTo
