/-
Internal forces, loads and masses of a mesh: the integrands on the matrices of an integration point, the integration
over a cell and the assembly over all cells.

Simplifications: exact real arithmetic; one dof type.  The matrices N and B and the node values are computed at each
request; `Props/Memoizers` treats the memoisation.  A law is a function of the strain and the data of the integration
point that gives the stress.
-/
import Verif.Model.Cell

namespace NuTo

namespace DMat

variable {K : Type _} [Field K]

/-- `a * b` of Eigen; the sizes have to match -/
def mul (a b : DMat K) : Res (DMat K) :=
  Res.require (a.cols = b.rows)
    (.ok ⟨a.rows, b.cols, fun i j => ((List.range a.cols).map fun (k : Nat) => a.coef i k * b.coef k j).sum⟩)

end DMat

namespace Balance

/-- `nuto/mechanics/cell/CellIpData.h` 89-95 and 108-113: `B(dofType, Nabla::Strain())`.  The product with the inverse
Jacobian needs as many columns of derivatives as the inverse has rows. -/
noncomputable def bMatrix (e : FemElement ℝ) (d : IpData) : Res (DMat ℝ) :=
  Res.require (e.interp.dim = d.jacobian.cols)
    (Nabla.strain ⟨e.interp.numNodes, d.jacobian.rows,
      d.jacobian.transform (e.interp.deriv fun k => d.coords.getD k 0)⟩)

/-- `nuto/mechanics/integrands/MomentumBalance.h` 26-35: `Gradient`; `stress` is `mLaw.Stress` for a time step. -/
noncomputable def momentum (dof : Nat) (stress : List ℝ → IpData → Res (List ℝ)) (e : FemElement ℝ) (d : IpData) :
    Res (DofVec ℝ) :=
  (bMatrix e d).bind fun B => (e.extractNodeValues 0).bind fun u => (B.mulVec u).bind fun eps =>
    (stress eps d).bind fun s => (B.transpose.mulVec s).bind fun f => .ok [(dof, f)]

/-- `nuto/mechanics/integrands/NeumannBc.h` 29-37: `ExternalLoad`; `junk` is the content of an uninitialised
matrix. -/
noncomputable def load (junk : Nat → Nat → ℝ) (dof : Nat) (factor : List ℝ) (e : FemElement ℝ) (d : IpData) :
    Res (DofVec ℝ) :=
  (e.nMatrix junk fun k => d.coords.getD k 0).bind fun N =>
    (N.transpose.mulVec factor).bind fun f => .ok [(dof, f)]

/-- `nuto/mechanics/integrands/DynamicMomentumBalance.h` 22-30: `Hessian2` -/
noncomputable def mass (junk : Nat → Nat → ℝ) (dof : Nat) (rho : ℝ) (e : FemElement ℝ) (d : IpData) :
    Res (DofDMat ℝ) :=
  (e.nMatrix junk fun k => d.coords.getD k 0).bind fun N =>
    (N.transpose.mul N).bind fun m => .ok [(toLex (dof, dof), m.scale rho)]

/-- `nuto/mechanics/cell/Cell.h` 60-63 and 32-35: what a cell delivers to the assembler for a vector function. -/
noncomputable def vecCell (dof : Nat) (f : FemElement ℝ → IpData → Res (DofVec ℝ)) (x : Cell × FemElement ℝ) :
    Res (Assembly.VecCell ℝ) :=
  (x.1.integrateVector (f x.2)).bind fun g => x.2.dofNumbering.bind fun nums =>
    .ok ⟨g, fun d => if d = dof then nums else []⟩

/-- `nuto/mechanics/cell/Cell.h` 60-63 and 37-40: what a cell delivers to the assembler for a matrix function. -/
noncomputable def matCell (dof : Nat) (f : FemElement ℝ → IpData → Res (DofDMat ℝ)) (x : Cell × FemElement ℝ) :
    Res (Assembly.MatCell ℝ) :=
  (x.1.integrateMatrix (f x.2)).bind fun g => x.2.dofNumbering.bind fun nums =>
    .ok ⟨g, fun d => if d = dof then nums else []⟩

/-- `nuto/mechanics/cell/SimpleAssembler.cpp` 38-65: `BuildVector` for cells with one dof element each; `threads` as in
`Assembly.buildVector`. -/
noncomputable def assembleVector (s : Assembly.DofSizes) (dof : Nat) (f : FemElement ℝ → IpData → Res (DofVec ℝ))
    (threads : List (List (Cell × FemElement ℝ))) : Res (DofVec ℝ) :=
  (threads.mapM fun (t : List (Cell × FemElement ℝ)) => t.mapM (vecCell dof f)).bind fun ts =>
    Assembly.buildVector s [dof] ts

/-- `nuto/mechanics/cell/SimpleAssembler.cpp` 100-156: `BuildMatrix` for cells with one dof element each. -/
noncomputable def assembleMatrix (s : Assembly.DofSizes) (dof : Nat) (f : FemElement ℝ → IpData → Res (DofDMat ℝ))
    (threads : List (List (Cell × FemElement ℝ))) : Res (DofSpMat ℝ) :=
  (threads.mapM fun (t : List (Cell × FemElement ℝ)) => t.mapM (matCell dof f)).bind fun ts =>
    Assembly.buildMatrix s [dof] ts

end Balance

end NuTo
