/-
Gradient enhanced damage on a mesh, continued: `Hessian0` of the integrand `GradientDamage` at an integration point, its
integration and the assembly of the four blocks.

Simplifications as in `Model/GradientMesh`.
-/
import Verif.Model.GradientMesh

namespace NuTo

open Balance ElasticStep Integrands

namespace GradientMesh

variable {N : Nat}

/-- a matrix of `Model/Integrands` as a dense matrix -/
noncomputable def dense {m n : Nat} (A : Matrix (Fin m) (Fin n) ℝ) : DMat ℝ :=
  ⟨m, n, fun i j => if h : i < m ∧ j < n then A ⟨i, h.1⟩ ⟨j, h.2⟩ else 0⟩

/-- `nuto/mechanics/integrands/GradientDamage.h` 108-117: the assignments to `hessian0(row, column)` -/
noncomputable def setBlocks (disp eeq : Nat) (dd ed ee de : DMat ℝ) : DofDMat ℝ :=
  (((OMap.set [] (toLex (disp, disp)) dd).set (toLex (eeq, disp)) ed).set (toLex (eeq, eeq)) ee).set (toLex (disp, eeq)) de

/-- `nuto/mechanics/integrands/GradientDamage.h` 92-120: `Hessian0` at an integration point; the reads and their checks are
those of `gradient` -/
noncomputable def hessian (junk : Nat → Nat → ℝ) (disp eeq : Nat) (g : GradientDamage N) (x : Part) (d : IpData) :
    Res (DofDMat ℝ) :=
  (bMatrix x.disp d).bind fun Bd => (gMatrix x.eeq d).bind fun Be =>
    (x.eeq.nMatrix junk fun k => d.coords.getD k 0).bind fun Ne =>
      (x.disp.extractNodeValues 0).bind fun u => (x.eeq.extractNodeValues 0).bind fun e =>
        Res.require (Bd.rows = N ∧ Bd.cols = u.length ∧ Be.cols = e.length ∧ Ne.rows = 1 ∧ Ne.cols = e.length)
          ((g.hessian0 (point Bd Be Ne u e d)).bind fun H =>
            .ok (setBlocks disp eeq (dense H.dd) (dense H.ed) (dense H.ee) (dense H.de)))

/-- `nuto/mechanics/cell/Cell.h` 37-40 and 60-63: what a cell delivers to the assembler -/
noncomputable def matCell2 (disp eeq : Nat) (f : Part → IpData → Res (DofDMat ℝ)) (x : Part) : Res (Assembly.MatCell ℝ) :=
  (x.cell.integrateMatrix (f x)).bind fun g => x.disp.dofNumbering.bind fun a => x.eeq.dofNumbering.bind fun b =>
    .ok ⟨g, fun d => if d = disp then a else if d = eeq then b else []⟩

/-- `nuto/mechanics/cell/SimpleAssembler.cpp` 100-156: `BuildMatrix` for both dof types -/
noncomputable def assembleMatrix2 (s : Assembly.DofSizes) (disp eeq : Nat) (f : Part → IpData → Res (DofDMat ℝ))
    (threads : List (List Part)) : Res (DofSpMat ℝ) :=
  (threads.mapM fun (t : List Part) => t.mapM (matCell2 disp eeq f)).bind fun ts => Assembly.buildMatrix s [disp, eeq] ts

/-- `nuto/mechanics/tools/TimeDependentProblem.cpp` 67-76: `Hessian0` of the state `U`, `E` -/
noncomputable def tangent (s : Assembly.DofSizes) (junk : Nat → Nat → ℝ) (disp eeq : Nat) (g : GradientDamage N)
    (threads : List (List Part)) (U E : List ℝ) : Res (DofSpMat ℝ) :=
  assembleMatrix2 s disp eeq (hessian junk disp eeq g) (threads.map fun t => t.map (movedPart U E))

end GradientMesh

end NuTo
