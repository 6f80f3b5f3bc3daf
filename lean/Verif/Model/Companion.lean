import Verif.Model.Constraints
import Mathlib.Analysis.Real.Sqrt

/-!
`Constraint::Component`, `Direction`, `Value`, `RhsRamp` (ConstraintCompanion.cpp), over the reals.
-/
namespace NuTo.Companion

/-- `RhsRamp`, ConstraintCompanion.cpp 12-18 -/
noncomputable def rhsRamp (timeEnd valueEnd : ℝ) : Res (ℝ → ℝ) :=
  if timeEnd = 0 then .throw else .ok fun time => valueEnd * time / timeEnd

/-- `RhsConstant`, ConstraintCompanion.h 27-30 -/
def rhsConstant (v : ℝ) : ℝ → ℝ := fun _ => v

/-- `eDirection` and `ToComponentIndex`, DirectionEnum.h 5-15 -/
inductive Dir where
  | X | Y | Z
deriving DecidableEq, Repr

def Dir.index : Dir → Int
  | .X => 0
  | .Y => 1
  | .Z => 2

/-- body of the loop of `Component(node, ...)`, ConstraintCompanion.cpp 30-34 -/
def componentStep (st : NodeStore ℝ) (node : Nat) (rhs : ℝ → ℝ) (eqs : List (Equation ℝ)) (d : Dir) :
    Res (List (Equation ℝ)) :=
  (Equation.mk' st node d.index rhs).bind fun e => .ok (eqs ++ [e])

/-- `Component(node, directions, rhs)`, ConstraintCompanion.cpp 27-36 -/
def component (st : NodeStore ℝ) (node : Nat) (ds : List Dir) (rhs : ℝ → ℝ) : Res (List (Equation ℝ)) :=
  Res.foldlM (componentStep st node rhs) [] ds

/-- body of the loop of `Component(nodes, ...)`, ConstraintCompanion.cpp 48-52 -/
def componentGroupStep (st : NodeStore ℝ) (ds : List Dir) (rhs : ℝ → ℝ) (eqs : List (Equation ℝ)) (node : Nat) :
    Res (List (Equation ℝ)) :=
  (component st node ds rhs).bind fun es => .ok (eqs ++ es)

/-- `Component(nodes, directions, rhs)`, ConstraintCompanion.cpp 45-54; the group in iteration order -/
def componentGroup (st : NodeStore ℝ) (nodes : List Nat) (ds : List Dir) (rhs : ℝ → ℝ) : Res (List (Equation ℝ)) :=
  Res.foldlM (componentGroupStep st ds rhs) [] nodes

/-- Eigen `normalize()`: divides by the root of the squared norm if that is positive -/
noncomputable def normalize (d : List ℝ) : List ℝ :=
  let z := (d.map fun x => x * x).sum
  if z > 0 then d.map fun x => x / Real.sqrt z else d

/-- body of the loop at ConstraintCompanion.cpp 75-77; `n` is the normalised direction -/
noncomputable def directionStep (st : NodeStore ℝ) (node : Nat) (n : List ℝ) (m : Nat) (e : Equation ℝ) (i : Nat) :
    Res (Equation ℝ) :=
  if |n.getD i 0| > 0 ∧ i ≠ m then
    (Term.mk' st node (i : Int) (-n.getD i 0 / n.getD m 0)).bind fun t => .ok (e.addTerm t)
  else .ok e

/-- `Direction(node, direction, rhs)`, ConstraintCompanion.cpp 57-81.  `m` is the index `maxCoeff` reports for the entry of
largest absolute value (with several candidates Eigen does not say which).  `maxCoeff` of an empty vector is an Eigen assert. -/
noncomputable def direction (st : NodeStore ℝ) (node : Nat) (d : List ℝ) (m : Nat) (rhs : ℝ → ℝ) : Res (Equation ℝ) :=
  Res.require (d ≠ []) <|
    if |d.getD m 0| < 1 / 1000000 then .throw
    else
      let n := normalize d
      (Equation.mk' st node (m : Int) (fun time => rhs time / n.getD m 0)).bind fun e =>
        Res.foldlM (directionStep st node n m) e (List.range d.length)

/-- what `maxCoeff(&m)` on the absolute values guarantees -/
def IsArgMaxAbs (d : List ℝ) (m : Nat) : Prop := m < d.length ∧ ∀ x ∈ d, |x| ≤ |d.getD m 0|

/-- body of the loop of `Direction(nodes, ...)`, ConstraintCompanion.cpp 91-92; the direction is passed by value, so every node sees
the one given -/
noncomputable def directionGroupStep (st : NodeStore ℝ) (d : List ℝ) (m : Nat) (rhs : ℝ → ℝ) (eqs : List (Equation ℝ)) (node : Nat) :
    Res (List (Equation ℝ)) :=
  (direction st node d m rhs).bind fun e => .ok (eqs ++ [e])

/-- `Direction(nodes, direction, rhs)`, ConstraintCompanion.cpp 88-94 -/
noncomputable def directionGroup (st : NodeStore ℝ) (nodes : List Nat) (d : List ℝ) (m : Nat) (rhs : ℝ → ℝ) : Res (List (Equation ℝ)) :=
  Res.foldlM (directionGroupStep st d m rhs) [] nodes

/-- `Value(node, rhs)`, ConstraintCompanion.cpp 105-110 -/
def value (st : NodeStore ℝ) (node : Nat) (rhs : ℝ → ℝ) : Res (Equation ℝ) :=
  if (st node).numValues ≠ 1 then .throw
  else (component st node [.X] rhs).bind fun es => match es with
    | e :: _ => .ok e
    | [] => .ub

/-- body of the loops of `Value(nodes, ...)`, ConstraintCompanion.cpp 115-116, 123-124 -/
def valueGroupStep (st : NodeStore ℝ) (rhs : ℝ → ℝ) (eqs : List (Equation ℝ)) (node : Nat) : Res (List (Equation ℝ)) :=
  (value st node rhs).bind fun e => .ok (eqs ++ [e])

/-- `Value(nodes, rhs)`, ConstraintCompanion.cpp 120-126 -/
def valueGroup (st : NodeStore ℝ) (nodes : List Nat) (rhs : ℝ → ℝ) : Res (List (Equation ℝ)) :=
  Res.foldlM (valueGroupStep st rhs) [] nodes

end NuTo.Companion
