import Verif.Model.Constraints
import Verif.Model.Assembler

/-!
`TimeDependentProblem` (/repo/nuto/mechanics/tools/TimeDependentProblem.cpp) with the node groups remembered by
`NodalValueMerger` (/repo/nuto/mechanics/tools/NodalValueMerger.cpp), and the parts of `QuasistaticSolver`
(/repo/nuto/mechanics/tools/QuasistaticSolver.cpp) that hand over constraints and print results.
-/
namespace NuTo
namespace TimeProblem

/-- the members changed by `RenumberDofs`: the nodes of the mesh, the node groups `mMerger.mNodes` (NodalValueMerger.h 32) and
the dof info of `mAssembler` -/
structure State (K : Type _) where
  store : NodeStore K
  memo : OMap Nat (List Nat)
  infos : OMap Nat DofNumbering.DofInfo

variable {K : Type _}

/-- `NodalValueMerger::Nodes`, NodalValueMerger.cpp 10-16: the group of the first call is kept for ever.  `mesh d` is what
`mMesh.NodesTotal(d)` returns at the time of the call. -/
def nodes (mesh : Nat → List Nat) (memo : OMap Nat (List Nat)) (d : Nat) : List Nat := (memo.find? d).getD (mesh d)

/-- the member `mNodes` after a call of `Nodes(d)`, NodalValueMerger.cpp 12-13 -/
def remember (mesh : Nat → List Nat) (memo : OMap Nat (List Nat)) (d : Nat) : OMap Nat (List Nat) :=
  memo.set d (nodes mesh memo d)

/-- state of the loop in `RenumberDofs` -/
structure Work (K : Type _) where
  store : NodeStore K
  memo : OMap Nat (List Nat)
  infos : OMap Nat DofNumbering.DofInfo
  values : DofVec K

/-- TimeDependentProblem.cpp 20-21: values of an earlier numbering are written to the nodes -/
def mergeOld (ns : List Nat) (old : DofVec K) (d : Nat) (st : NodeStore K) : Res (NodeStore K) :=
  if ((old.find? d).getD []).length ≠ 0 then Merger.merge (fun _ => ns) old [d] 0 st else .ok st

/-- one pass of the loop, TimeDependentProblem.cpp 18-29.  `resize` (line 26) leaves the entries uninitialised: `fill`. -/
def renumberStep (mesh : Nat → List Nat) (c : Constraints K) (old : DofVec K) (fill : K) (w : Work K) (d : Nat) : Res (Work K) :=
  (mergeOld (nodes mesh w.memo d) old d w.store).bind fun st1 =>
    (DofNumbering.build st1 (nodes mesh w.memo d) d c).bind fun r =>
      (Merger.extract (fun _ => nodes mesh w.memo d) r.1 [d] 0
        (w.values.set d (List.replicate (r.2.numIndependent + r.2.numDependent).toNat fill))).bind fun v =>
          .ok ⟨r.1, remember mesh w.memo d, w.infos.set d r.2, v⟩

/-- `RenumberDofs`, TimeDependentProblem.cpp 11-32: the new state (the dof info replaces the old one, line 30) and the returned
vector -/
def renumberDofs (mesh : Nat → List Nat) (c : Constraints K) (dofs : List Nat) (old : DofVec K) (fill : K) (s : State K) :
    Res (State K × DofVec K) :=
  (Res.foldlM (renumberStep mesh c old fill) ⟨s.store, s.memo, [], []⟩ dofs).bind fun w =>
    .ok (⟨w.store, w.memo, w.infos⟩, w.values)

/-- the members of `QuasistaticSolver` written by `SetConstraints`, except the unit constraint matrix (C18) -/
structure Solver (K : Type _) where
  constraints : Constraints K
  x : DofVec K
  problem : State K

/-- `SetConstraints`, QuasistaticSolver.cpp 29-35, for the dof types `d0 :: dofs`.  The constraints are stored first; if
`RenumberDofs` throws, `mX` keeps its value (the state of nodes and node groups is then not modelled: the old one is returned). -/
def setConstraints (mesh : Nat → List Nat) (d0 : Nat) (dofs : List Nat) (fill : K) (s : Solver K) (c : Constraints K) :
    Solver K × Res Unit :=
  match renumberDofs mesh c (d0 :: dofs) (if ((s.x.find? d0).getD []).length = 0 then [] else s.x) fill s.problem with
  | .ok r => (⟨c, r.2, r.1⟩, .ok ())
  | .throw => (⟨c, s.x, s.problem⟩, .throw)
  | .ub => (⟨c, s.x, s.problem⟩, .ub)

/-! ### gradient, hessian, history -/

variable [Field K]

/-- an entry of `mGradientFunctions` (`C` = `VecCell`) or `mHessian0Functions` (`C` = `MatCell`), TimeDependentProblem.h 59-65:
what the cells of the group deliver with the function at time `t` and time step `dt` when the nodes hold `store`, in the way
they are distributed over the threads -/
structure Fn (K C : Type _) where
  threads : NodeStore K → K → K → List (List C)

/-- the cells of the group, in some order -/
def Fn.cells {C : Type _} (f : Fn K C) (st : NodeStore K) (t dt : K) : List C := (f.threads st t dt).flatten

/-- one pass of the loop in `Gradient`, TimeDependentProblem.cpp 61-63 -/
def gradientStep (sizes : Assembly.DofSizes) (dofs : List Nat) (st : NodeStore K) (t dt : K) (g : DofVec K)
    (f : Fn K (Assembly.VecCell K)) : Res (DofVec K) :=
  (Assembly.buildVector sizes dofs (f.threads st t dt)).bind fun v => g.addAssign v

/-- `Gradient`, TimeDependentProblem.cpp 56-65: the state of the nodes and the result -/
def gradient (nodesOf : Nat → List Nat) (sizes : Assembly.DofSizes) (fs : List (Fn K (Assembly.VecCell K))) (st : NodeStore K)
    (x : DofVec K) (dofs : List Nat) (t dt : K) : Res (NodeStore K × DofVec K) :=
  (Merger.merge nodesOf x dofs 0 st).bind fun st1 =>
    (Res.foldlM (gradientStep sizes dofs st1 t dt) [] fs).bind fun g => .ok (st1, g)

/-- `DofMatrixContainer::operator+=`, DofMatrixContainer.h 27-37, for sparse blocks (Eigen: sum of equally sized matrices) -/
def sameShape (a b : SpMat K) : Prop := a.rows = b.rows ∧ a.cols = b.cols
instance (a b : SpMat K) : Decidable (sameShape a b) := inferInstanceAs (Decidable (_ ∧ _))

/-- sum of two sparse matrices as triplet lists -/
def spAdd (a b : SpMat K) : SpMat K := ⟨a.rows, a.cols, a.entries ++ b.entries⟩

/-- one pass of the loop in `Hessian0`, TimeDependentProblem.cpp 72-74 -/
def hessianStep (sizes : Assembly.DofSizes) (dofs : List Nat) (st : NodeStore K) (t dt : K) (h : DofSpMat K)
    (f : Fn K (Assembly.MatCell K)) : Res (DofSpMat K) :=
  (Assembly.buildMatrix sizes dofs (f.threads st t dt)).bind fun m => OMap.mergeWith sameShape spAdd id h m

/-- `Hessian0`, TimeDependentProblem.cpp 67-76 -/
def hessian0 (nodesOf : Nat → List Nat) (sizes : Assembly.DofSizes) (fs : List (Fn K (Assembly.MatCell K))) (st : NodeStore K)
    (x : DofVec K) (dofs : List Nat) (t dt : K) : Res (NodeStore K × DofSpMat K) :=
  (Merger.merge nodesOf x dofs 0 st).bind fun st1 =>
    (Res.foldlM (hessianStep sizes dofs st1 t dt) [] fs).bind fun h => .ok (st1, h)

/-- an entry of `mUpdateFunctions`: the group (cells by number) and the effect on the history data of one cell -/
structure Update (K H : Type _) where
  group : List Nat
  f : NodeStore K → K → K → Nat → H → H

/-- `UpdateHistory`, TimeDependentProblem.cpp 78-85; the history data are kept per cell (`CellData`) -/
def updateHistory {H : Type _} (nodesOf : Nat → List Nat) (us : List (Update K H)) (st : NodeStore K) (x : DofVec K)
    (dofs : List Nat) (t dt : K) (hist : Nat → H) : Res (NodeStore K × (Nat → H)) :=
  (Merger.merge nodesOf x dofs 0 st).bind fun st1 =>
    .ok (st1, us.foldl (fun (h : Nat → H) u =>
      u.group.foldl (fun (h : Nat → H) c => Function.update h c (u.f st1 t dt c (h c))) h) hist)

/-- `WriteTimeDofResidual`, QuasistaticSolver.cpp 98-114: time, mean dof value, sum of the residual.  Without dof numbers the
mean is 0/0 (`nan` in the code; here the undefined outcome). -/
def writeTimeDofResidual (nodesOf : Nat → List Nat) (sizes : Assembly.DofSizes) (fs : List (Fn K (Assembly.VecCell K)))
    (st : NodeStore K) (x : DofVec K) (globalTime timeStep : K) (dof : Nat) (numbers : List Int) : Res (K × K × K) :=
  (gradient nodesOf sizes fs st x [dof] (globalTime - timeStep) timeStep).bind fun r =>
    (DofVec.get x dof numbers).bind fun xs => (DofVec.get r.2 dof numbers).bind fun rs =>
      Res.require (numbers ≠ []) (.ok (globalTime, xs.sum / numbers.length, rs.sum))

end TimeProblem
end NuTo
