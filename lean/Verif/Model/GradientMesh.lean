/-
Gradient enhanced damage on a mesh: cells with an element for the displacements and an element for the nonlocal equivalent
strains, the integrand `GradientDamage` on the matrices of an integration point, integration and assembly of both blocks.

Simplifications: exact real arithmetic; one integrand for all cells.  The matrices N and B and the node values are computed at
each request; `Props/Memo` treats the memoisation.  The integrand itself is the function of `Model/Integrands`.
-/
import Verif.Model.ElasticStep
import Verif.Model.DamageRun
import Verif.Model.Integrands

namespace NuTo

open Balance ElasticStep Integrands

namespace GradientMesh

variable {N : Nat}

/-- `nuto/mechanics/elements/ElementCollection.h` 45-77: a cell with the elements of the two dof types -/
structure Part where
  cell : Cell
  disp : FemElement ℝ
  eeq : FemElement ℝ

/-- `nuto/mechanics/cell/CellIpData.h` 89-95 and 108-113: `B(dofType, Nabla::Gradient())` -/
noncomputable def gMatrix (e : FemElement ℝ) (d : IpData) : Res (DMat ℝ) :=
  Res.require (e.interp.dim = d.jacobian.cols)
    (.ok (Nabla.gradient ⟨e.interp.numNodes, d.jacobian.rows,
      d.jacobian.transform (e.interp.deriv fun k => d.coords.getD k 0)⟩))

/-- What the integrand reads at an integration point, `nuto/mechanics/cell/CellIpData.h` 39-100.  `N(disp)` is not read. -/
noncomputable def point (Bd Be Ne : DMat ℝ) (u e : List ℝ) (d : IpData) :
    GradientDamage.Ip N Be.rows Bd.cols Be.cols where
  disp := ⟨0, fun i j => Bd.coef i j, fun j => u.getD j 0⟩
  eeq := ⟨fun i j => Ne.coef i j, fun i j => Be.coef i j, fun j => e.getD j 0⟩
  cellId := d.cellId
  ipId := d.ipId

/-- `nuto/mechanics/integrands/GradientDamage.h` 70-90: `Gradient` at an integration point; `junk` is the content of an
uninitialised matrix.  A strain with another number of components does not compile; the other sizes are checked by Eigen. -/
noncomputable def gradient (junk : Nat → Nat → ℝ) (disp eeq : Nat) (g : GradientDamage N) (x : Part) (d : IpData) :
    Res (DofVec ℝ) :=
  (bMatrix x.disp d).bind fun Bd => (gMatrix x.eeq d).bind fun Be =>
    (x.eeq.nMatrix junk fun k => d.coords.getD k 0).bind fun Ne =>
      (x.disp.extractNodeValues 0).bind fun u => (x.eeq.extractNodeValues 0).bind fun e =>
        Res.require (Bd.rows = N ∧ Bd.cols = u.length ∧ Be.cols = e.length ∧ Ne.rows = 1 ∧ Ne.cols = e.length)
          ((g.gradient (point Bd Be Ne u e d)).bind fun r =>
            .ok (((OMap.set [] disp (List.ofFn r.1)).set eeq (List.ofFn r.2))))

/-- `nuto/mechanics/cell/Cell.h` 60-63 and 32-35: what a cell delivers to the assembler -/
noncomputable def vecCell (disp eeq : Nat) (f : Part → IpData → Res (DofVec ℝ)) (x : Part) : Res (Assembly.VecCell ℝ) :=
  (x.cell.integrateVector (f x)).bind fun g => x.disp.dofNumbering.bind fun a => x.eeq.dofNumbering.bind fun b =>
    .ok ⟨g, fun d => if d = disp then a else if d = eeq then b else []⟩

/-- `nuto/mechanics/cell/SimpleAssembler.cpp` 38-65: `BuildVector` for both dof types; `threads` as in
`Assembly.buildVector` -/
noncomputable def assemble (s : Assembly.DofSizes) (disp eeq : Nat) (f : Part → IpData → Res (DofVec ℝ))
    (threads : List (List Part)) : Res (DofVec ℝ) :=
  (threads.mapM fun (t : List Part) => t.mapM (vecCell disp eeq f)).bind fun ts => Assembly.buildVector s [disp, eeq] ts

/-- `nuto/mechanics/tools/NodalValueMerger.cpp` 18-28: the cell after `Merge` of displacements `U` and nonlocal strains `E` -/
noncomputable def movedPart (U E : List ℝ) (x : Part) : Part := ⟨x.cell, moved U x.disp, moved E x.eeq⟩

/-- `nuto/mechanics/tools/TimeDependentProblem.cpp` 56-65: `Gradient` of the state `U`, `E` -/
noncomputable def residual (s : Assembly.DofSizes) (junk : Nat → Nat → ℝ) (disp eeq : Nat) (g : GradientDamage N)
    (threads : List (List Part)) (U E : List ℝ) : Res (DofVec ℝ) :=
  assemble s disp eeq (gradient junk disp eeq g) (threads.map fun t => t.map (movedPart U E))

end GradientMesh

end NuTo
