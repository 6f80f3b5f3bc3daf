import Verif.Model.SpMat
import Mathlib.Algebra.Order.Field.Basic
import Mathlib.Logic.Function.Basic
import Mathlib.Data.Int.Log
import Mathlib.Algebra.Order.Ring.Rat
import Mathlib.Data.Rat.Floor

/-!
Nodes, constraint equations, dof numbering, nodal value merger.

Objects of class `NodeSimple` are identified by their address (a natural number); the memory is a function from addresses to
node contents.  Groups are given by their sequence of distinct addresses in iteration order (see C01).
-/
namespace NuTo

/-- `NodeSimple`, NodeSimple.h 11-90: one value vector per instance, one dof number per component -/
structure Node (K : Type _) where
  values : List (List K)
  dofNumbers : List Int
deriving DecidableEq, Repr

/-- memory: node contents by address -/
abbrev NodeStore (K : Type _) := Nat → Node K

namespace Node
variable {K : Type _}

/-- `NodeSimple(VectorXd)`, NodeSimple.h 18-22 -/
def ofVector (v : List K) : Node K := ⟨[v], v.map fun _ => -1⟩
/-- `NodeSimple(double)`, NodeSimple.h 26-30 -/
def ofScalar (v : K) : Node K := ⟨[[v]], [0]⟩
/-- `NodeSimple(dimension, numInstances)`, NodeSimple.h 32-36 -/
def zeros [Zero K] (dim inst : Nat) : Node K := ⟨List.replicate inst (List.replicate dim 0), List.replicate dim (-1)⟩

/-- `GetNumValues`, NodeSimple.h 82-85 (`mValues[0]`: a node without instances is undefined) -/
def numValues (n : Node K) : Nat := (n.values.headD []).length

/-- `GetDofNumber`, NodeSimple.h 56-60: the assert checks the upper bound only; a negative component reads out of bounds -/
def getDofNumber (n : Node K) (c : Int) : Res Int :=
  if c < 0 then .ub else match n.dofNumbers[c.toNat]? with
    | some d => .ok d
    | none => .ub

/-- `SetDofNumber`, NodeSimple.h 76-80 -/
def setDofNumber (n : Node K) (c : Nat) (d : Int) : Res (Node K) :=
  Res.require (c < n.dofNumbers.length) (.ok { n with dofNumbers := n.dofNumbers.set c d })

/-- `GetValues(instance)[c]`, NodeSimple.h 50-54 -/
def getValue (n : Node K) (instance_ c : Nat) : Res K :=
  match n.values[instance_]? with
  | some v => match v[c]? with
    | some x => .ok x
    | none => .ub
  | none => .ub

/-- `SetValue`, NodeSimple.h 69-74 -/
def setValue (n : Node K) (c : Nat) (x : K) (instance_ : Nat) : Res (Node K) :=
  match n.values[instance_]? with
  | some v => Res.require (c < n.dofNumbers.length ∧ c < v.length)
      (.ok { n with values := n.values.set instance_ (v.set c x) })
  | none => .ub

/-- class invariant kept by all constructors and methods: every instance and the dof numbers have the same size -/
def WF (n : Node K) : Prop := n.values ≠ [] ∧ ∀ v ∈ n.values, v.length = n.dofNumbers.length

end Node

/-! ### Constraint equations -/

/-- `Constraint::Term`, Term.h 10-64 -/
structure Term (K : Type _) where
  node : Nat
  comp : Int
  coef : K
deriving DecidableEq, Repr

/-- `Term::Term`, Term.h 18-28: throws only if the component is too large -/
def Term.mk' {K : Type _} (st : NodeStore K) (node : Nat) (comp : Int) (coef : K) : Res (Term K) :=
  if comp ≥ (st node).numValues then .throw else .ok ⟨node, comp, coef⟩

/-- `GetConstrainedDofNumber`, Term.h 48-51 -/
def Term.dofNumber {K : Type _} (st : NodeStore K) (t : Term K) : Res Int := (st t.node).getDofNumber t.comp

/-- `Constraint::Equation`, Equation.h 12-66: `rhs(t) = dependentTerm + independentTerms` (comment at line 61) -/
structure Equation (K : Type _) where
  dep : Term K
  ind : List (Term K)
  rhs : K → K

/-- `Equation::Equation`, Equation.h 19-23: the dependent coefficient is 1 -/
def Equation.mk' {K : Type _} [One K] (st : NodeStore K) (node : Nat) (comp : Int) (rhs : K → K) : Res (Equation K) :=
  (Term.mk' st node comp 1).bind fun t => .ok ⟨t, [], rhs⟩

/-- `Equation::AddIndependentTerm`, Equation.h 27-30 -/
def Equation.addTerm {K : Type _} (e : Equation K) (t : Term K) : Equation K := { e with ind := e.ind ++ [t] }

/-- the key `TermCompare` sorts by, Constraints.cpp 157-162 -/
def Term.key {K : Type _} (t : Term K) : Nat × Int := (t.node, t.comp)

/-- `Constraints`, Constraints.h 47-130: equations per dof type and the two term sets of the `TermChecker`
(a `std::set` is represented by a list of its keys; only membership is used). -/
structure Constraints (K : Type _) where
  eqs : OMap Nat (List (Equation K))
  depTerms : List (Nat × Int)
  indTerms : List (Nat × Int)

namespace Constraints
variable {K : Type _}

def empty : Constraints K := ⟨[], [], []⟩

/-- `TermChecker::CheckEquation`, Constraints.cpp 164-189: the checks of lines 169-184 -/
def conflicts (c : Constraints K) (e : Equation K) : Bool :=
  (c.depTerms.contains e.dep.key) || (c.indTerms.contains e.dep.key) || e.ind.any fun t => c.depTerms.contains t.key

/-- `mEquations[dof]` (non-const: an absent entry is default constructed) -/
def equations (c : Constraints K) (dof : Nat) : List (Equation K) := (c.eqs.find? dof).getD []

/-- `Constraints::Add(dof, equation)`, Constraints.cpp 7-12 and 186-188 -/
def add (c : Constraints K) (dof : Nat) (e : Equation K) : Res (Constraints K) :=
  if c.conflicts e then .throw
  else .ok ⟨c.eqs.set dof (c.equations dof ++ [e]), e.dep.key :: c.depTerms, e.ind.map Term.key ++ c.indTerms⟩

/-- `Constraints::Add(dof, vector)`, Constraints.cpp 14-21.  Not atomic: returns the state reached and whether an exception
was raised. -/
def addMany (c : Constraints K) (dof : Nat) : List (Equation K) → Constraints K × Bool
  | [] => (c, true)
  | es => go c es
where
  go (c : Constraints K) : List (Equation K) → Constraints K × Bool
    | [] => (c, false)
    | e :: es => match c.add dof e with
      | .ok c' => go c' es
      | _ => (c, true)

/-- `GetNumEquations`, Constraints.cpp 139-144 -/
def numEquations (c : Constraints K) (dof : Nat) : Nat := (c.equations dof).length

/-- `GetRhs`, Constraints.cpp 23-34 -/
def getRhs (c : Constraints K) (dof : Nat) (time : K) : List K := (c.equations dof).map fun e => e.rhs time

/-- `GetSparseGlobalRhs`, Constraints.cpp 37-50.  The vector is a `SparseVector<float>`: every value goes through the
conversion `toFloat`.  Result: the dense image of the sparse vector. -/
def getSparseGlobalRhs [Zero K] (toFloat : K → K) (st : NodeStore K) (c : Constraints K) (dof numDofs : Nat) (time : K) :
    Res (List K) :=
  Res.foldlM (fun (v : List K) (e : Equation K) => (e.dep.dofNumber st).bind fun d =>
    Res.require (0 ≤ d ∧ d < numDofs) (.ok (v.set d.toNat (toFloat (e.rhs time)))))
    (List.replicate numDofs 0) (c.equations dof)

/-- conversion of a `double` to `float` (round to nearest, ties to even, 24 bit significand; overflow and subnormal numbers
are not modelled).  Used by `GetSparseGlobalRhs`, Constraints.cpp 40-47. -/
def roundToFloat (x : ℚ) : ℚ :=
  if x = 0 then 0 else
    let ulp : ℚ := (2 : ℚ) ^ (Int.log 2 |x| - 23)
    let f : Int := (x / ulp).floor
    let r : ℚ := x / ulp - f
    (if r < 1 / 2 then (f : ℚ) else if 1 / 2 < r then f + 1 else if f % 2 = 0 then f else f + 1) * ulp

/-- first loop of `GetJKNumbering`, Constraints.cpp 60-73: state = (flags, dependent numbers) -/
def jkStep (st : NodeStore K) (numDofs : Nat) (s : List Bool × List Nat) (e : Equation K) : Res (List Bool × List Nat) :=
  (e.dep.dofNumber st).bind fun d =>
    if d = -1 then .throw
    else if d ≥ numDofs then .throw
    else if d < 0 then .ub
    else .ok (s.1.set d.toNat true, s.2 ++ [d.toNat])

/-- `GetJKNumbering`, Constraints.cpp 52-87.  `VectorXi(numJ)` needs `numJ ≥ 0`; writing more than `numJ` independent numbers
is out of bounds. -/
def getJKNumbering (st : NodeStore K) (c : Constraints K) (dof numDofs : Nat) : Res (List Nat) :=
  Res.require (c.numEquations dof ≤ numDofs) <|
  (Res.foldlM (jkStep st numDofs) (List.replicate numDofs false, []) (c.equations dof)).bind fun s =>
    let indep := (List.range numDofs).filter fun i => !(s.1.getD i false)
    Res.require (indep.length ≤ numDofs - c.numEquations dof) (.ok (indep ++ s.2))

/-- indices of the transposed permutation, Constraints.cpp 99-100: `rev[jk[i]] = i` -/
def reverse (jk : List Nat) : List Nat :=
  (List.range jk.length).foldl (fun rev i => rev.set (jk.getD i 0) i) (List.replicate jk.length 0)

variable [Field K] [LinearOrder K]

/-- the loop body of Constraints.cpp 120-133 for one independent term -/
def unitTermStep (st : NodeStore K) (rev : List Nat) (numIndep : Nat) (dep : Term K)
    (ts : List (Triplet K)) (t : Term K) : Res (List (Triplet K)) :=
  (t.dofNumber st).bind fun g =>
    if g < 0 then .ub                           -- reverseJKNumbering[-1] is read before the check for -1
    else match rev[g.toNat]? with
      | none => .ub
      | some i =>
        Res.require (i < numIndep) <|
        if |t.coef| > 1 / 1000000000000000000 then
          (dep.dofNumber st).bind fun d => .ok (ts ++ [⟨d.toNat, i, -t.coef⟩])
        else .ok ts

/-- `BuildUnitConstraintMatrix`, Constraints.cpp 89-137 -/
def buildUnitConstraintMatrix (st : NodeStore K) (c : Constraints K) (dof numDofs : Nat) : Res (SpMat K) :=
  match c.eqs.find? dof with
  | none => .ok ⟨numDofs, numDofs, (List.range numDofs).map fun i => ⟨i, i, 1⟩⟩
  | some eqs =>
    (c.getJKNumbering st dof numDofs).bind fun jk =>
      let rev := reverse jk
      let numIndep := numDofs - eqs.length
      (Res.foldlM (fun ts (e : Equation K) => Res.foldlM (unitTermStep st rev numIndep e.dep) ts e.ind)
        ((List.range numIndep).map fun i => (⟨jk.getD i 0, i, 1⟩ : Triplet K)) eqs).bind
      fun ts => SpMat.setFromTriplets numDofs numIndep ts

end Constraints

/-! ### Dof numbering -/

namespace DofNumbering
variable {K : Type _}

/-- `node.SetDofNumber(iComponent, dofNumber++)`, DofNumbering.cpp 12: state = (node, running number) -/
def numberStep (s : Node K × Nat) (i : Nat) : Res (Node K × Nat) :=
  (s.1.setDofNumber i s.2).bind fun n' => .ok (n', s.2 + 1)

/-- numbering of one node, DofNumbering.cpp 11-12 -/
def numberNode (n : Node K) (k : Nat) : Res (Node K × Nat) :=
  Res.foldlM numberStep (n, k) (List.range n.numValues)

/-- `InitialUnconstrainedNumbering`, DofNumbering.cpp 7-14 -/
def initial (st : NodeStore K) (nodes : List Nat) : Res (NodeStore K × Nat) :=
  Res.foldlM (fun (s : NodeStore K × Nat) a =>
    (numberNode (s.1 a) s.2).bind fun r => .ok (Function.update s.1 a r.1, r.2)) (st, 0) nodes

/-- `DofInfo` for one dof type -/
structure DofInfo where
  numIndependent : Int
  numDependent : Int
deriving DecidableEq, Repr

/-- the node check of `Build`, DofNumbering.cpp 34-49 -/
def nodesIncluded (nodes : List Nat) (eqs : List (Equation K)) : Bool :=
  eqs.all fun e => nodes.contains e.dep.node && e.ind.all fun t => nodes.contains t.node

/-- `DofNumbering::Build`, DofNumbering.cpp 32-58 (`GetEquation` on an absent dof type is not reached) -/
def build (st : NodeStore K) (nodes : List Nat) (dof : Nat) (c : Constraints K) : Res (NodeStore K × DofInfo) :=
  if nodesIncluded nodes (c.equations dof) then
    (initial st nodes).bind fun s => .ok (s.1, ⟨(s.2 : Int) - c.numEquations dof, c.numEquations dof⟩)
  else .throw

/-- `DofNumbering::Get`, DofNumbering.cpp 60-67 -/
def get (st : NodeStore K) (nodes : List Nat) (comp : Int) : Res (List Int) :=
  Res.foldlM (fun l a => ((st a).getDofNumber comp).bind fun d => .ok (l ++ [d])) [] nodes

end DofNumbering

/-! ### NodalValueMerger -/

namespace Merger
variable {K : Type _}

/-- body of the innermost loop of `Merge`, NodalValueMerger.cpp 24-26 -/
def mergeStep (v : DofVec K) (dof inst : Nat) (n : Node K) (i : Nat) : Res (Node K) :=
  (n.getDofNumber i).bind fun d => (v.at' dof).bind fun x =>
    if d < 0 then .ub else match x[d.toNat]? with
      | some y => n.setValue i y inst
      | none => .ub

/-- innermost loop of `Merge`, NodalValueMerger.cpp 22-27, for one node -/
def mergeNode (v : DofVec K) (dof inst : Nat) (n : Node K) : Res (Node K) :=
  Res.foldlM (mergeStep v dof inst) n (List.range n.numValues)

/-- `Merge`, NodalValueMerger.cpp 18-28.  `nodesOf dof` is the group `Nodes(dof)`. -/
def merge (nodesOf : Nat → List Nat) (v : DofVec K) (dofs : List Nat) (inst : Nat) (st : NodeStore K) : Res (NodeStore K) :=
  Res.foldlM (fun (st : NodeStore K) dof => Res.foldlM (fun (st : NodeStore K) a =>
    (mergeNode v dof inst (st a)).bind fun n => .ok (Function.update st a n)) st (nodesOf dof)) st dofs

/-- body of the innermost loop of `Extract`, NodalValueMerger.cpp 36-38 (`(*rNewValues)[dof]` is the non-const operator: an
absent block is created empty) -/
def extractStep (dof inst : Nat) (n : Node K) (r : DofVec K) (i : Nat) : Res (DofVec K) :=
  (n.getDofNumber i).bind fun d => (n.getValue inst i).bind fun x =>
    Res.require (0 ≤ d ∧ d < ((r.find? dof).getD []).length)
      (.ok (r.set dof (((r.find? dof).getD []).set d.toNat x)))

/-- innermost loop of `Extract`, NodalValueMerger.cpp 34-39, for one node -/
def extractNode (dof inst : Nat) (n : Node K) (r : DofVec K) : Res (DofVec K) :=
  Res.foldlM (extractStep dof inst n) r (List.range n.numValues)

/-- `Extract`, NodalValueMerger.cpp 30-40 -/
def extract (nodesOf : Nat → List Nat) (st : NodeStore K) (dofs : List Nat) (inst : Nat) (r : DofVec K) : Res (DofVec K) :=
  Res.foldlM (fun (r : DofVec K) dof => Res.foldlM (fun (r : DofVec K) a => extractNode dof inst (st a) r) r (nodesOf dof))
    r dofs

end Merger
end NuTo
