import Verif.Model.SpMat
import Verif.Model.Constraints

/-!
Model of `/repo/nuto/mechanics/solver/Solve.cpp`.
-/
namespace NuTo
variable {K : Type _} [Field K]

/-- sparse matrix product (Eigen: inner dimensions must agree) -/
def SpMat.mul (a b : SpMat K) : Res (SpMat K) :=
  Res.require (a.cols = b.rows) (.ok ⟨a.rows, b.cols, a.entries.flatMap fun s =>
    (b.entries.filter fun t => s.col = t.row).map fun t => ⟨s.row, t.col, s.val * t.val⟩⟩)

/-- sum / difference of dense vectors of equal size -/
def vecAdd (x y : List K) : Res (List K) := Res.require (x.length = y.length) (.ok (List.zipWith (· + ·) x y))
def vecSub (x y : List K) : Res (List K) := Res.require (x.length = y.length) (.ok (List.zipWith (· - ·) x y))

/-- what `Solve` uses of `Constraint::Constraints`: `BuildUnitConstraintMatrix(dof, numDofs)` and
`GetSparseGlobalRhs(dof, numDofs, time)` -/
structure Bcs (K : Type _) where
  unit : Nat → Nat → Res (SpMat K)
  rhs : Nat → Nat → K → Res (List K)

/-- the real constraints -/
def Constraints.bcs [LinearOrder K] (toFloat : K → K) (st : NodeStore K) (c : Constraints K) : Bcs K :=
  ⟨fun d n => c.buildUnitConstraintMatrix st d n, fun d n t => c.getSparseGlobalRhs toFloat st d n t⟩

namespace Solve

/-- Solve.cpp 15-16 / 45-46.  `f[rdof]` is the const access: throws if the block is missing. -/
def diagStep (bcs : Bcs K) (f : DofVec K) (c : DofSpMat K) (d : Nat) : Res (DofSpMat K) :=
  (f.at' d).bind fun x => (bcs.unit d x.length).bind fun m => .ok (c.set (toLex (d, d)) m)

/-- Solve.cpp 18-21 / 48-51: zero blocks of matching size.  The non-const accesses create absent blocks as 0x0 (cannot
happen after the first loop). -/
def offDiagStep (c : DofSpMat K) (p : Nat × Nat) : DofSpMat K :=
  if p.1 ≠ p.2 then
    c.set (toLex p) ⟨((c.find? (toLex (p.1, p.1))).getD ⟨0, 0, []⟩).rows, ((c.find? (toLex (p.2, p.2))).getD ⟨0, 0, []⟩).cols, []⟩
  else c

/-- the nested loop `for rdof : dofs, for cdof : dofs` -/
def allPairs (dofs : List Nat) : List (Nat × Nat) := dofs.flatMap fun r => dofs.map fun c => (r, c)

/-- Solve.cpp 14-21 / 44-51 -/
def unitMatrix (bcs : Bcs K) (f : DofVec K) (dofs : List Nat) : Res (DofSpMat K) :=
  (Res.foldlM (diagStep bcs f) [] dofs).bind fun c => .ok ((allPairs dofs).foldl offDiagStep c)

/-- `Solve`, Solve.cpp 8-34.  `lin` is `EigenSparseSolve(A, b, solver)`. -/
def solve (lin : SpMat K → List K → Res (List K)) (bcs : Bcs K) (Kmat : DofSpMat K) (f : DofVec K) (dofs : List Nat) :
    Res (DofVec K) :=
  (Kmat.toEigen dofs).bind fun Kfull => (f.toEigen dofs).bind fun ffull =>
  (unitMatrix bcs f dofs).bind fun cdof => (cdof.toEigen dofs).bind fun C =>
  (SpMat.mul C.transpose Kfull).bind fun a => (SpMat.mul a C).bind fun Kmod =>
  (C.transpose.mulVec ffull).bind fun fmod =>
  (lin Kmod fmod).bind fun x => (C.mulVec x).bind fun u =>
  DofVec.fromEigen u f.dofTypes f

/-- Solve.cpp 56-61: `deltaBrhs[dof] += rhs(newTime) - rhs(oldTime)` -/
def deltaStep (bcs : Bcs K) (f : DofVec K) (oldTime newTime : K) (v : DofVec K) (d : Nat) : Res (DofVec K) :=
  (f.at' d).bind fun x => (bcs.rhs d x.length newTime).bind fun a => (bcs.rhs d x.length oldTime).bind fun b =>
    (vecSub a b).bind fun ab => (vecAdd ((v.find? d).getD []) ab).bind fun y => .ok (v.set d y)

/-- `SolveTrialState`, Solve.cpp 36-81 -/
def solveTrialState (lin : SpMat K → List K → Res (List K)) (bcs : Bcs K) (Kmat : DofSpMat K) (f : DofVec K)
    (oldTime newTime : K) (dofs : List Nat) : Res (DofVec K) :=
  (Kmat.toEigen dofs).bind fun Kfull => (f.toEigen dofs).bind fun ffull =>
  (unitMatrix bcs f dofs).bind fun cdof => (cdof.toEigen dofs).bind fun C =>
  (Res.foldlM (deltaStep bcs f oldTime newTime) (DofVec.setZero f) dofs).bind fun delta =>
  (SpMat.mul C.transpose Kfull).bind fun a => (SpMat.mul a C).bind fun Kmod =>
  (delta.toEigen dofs).bind fun db =>
  (Kfull.mulVec db).bind fun kdb => (vecAdd ffull kdb).bind fun g =>
  (C.transpose.mulVec g).bind fun fmod =>
  (lin Kmod fmod).bind fun x => (C.mulVec x).bind fun cx => (vecSub cx db).bind fun u =>
  DofVec.fromEigen u f.dofTypes f

end Solve
end NuTo
