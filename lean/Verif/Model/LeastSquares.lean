import Verif.Model.Basic
import Mathlib.Algebra.Field.Defs
import Mathlib.Data.Int.Order.Basic
import Mathlib.Order.Interval.Finset.Nat

/-!
# Fitting a polynomial

`nuto/math/PolynomialLeastSquaresFitting.cpp`.  Numbers are exact.  The sparse LU decomposition of Eigen is a
parameter; its return value is not inspected by the code.
-/

namespace NuTo

namespace LeastSquares

variable {K : Type} [Field K]

/-- `nuto/math/PolynomialLeastSquaresFitting.h` 46-50, `nuto/math/SupportPoints.h` 49-51: the members of the object.
Matrices are lists of rows; `samples` is the number of columns, which both matrices share. -/
structure State (K : Type) where
  degree : Int := -1
  conditions : List (K × K) := []
  samples : Nat := 0
  input : List (List K) := []
  output : List (List K) := []
  coeffs : List K := []

/-- a square linear system -/
structure System (K : Type) where
  size : Nat
  lhs : Nat → Nat → K
  rhs : Nat → K

/-- `nuto/math/PolynomialLeastSquaresFitting.cpp` 84-90: `SetDegree`. -/
def setDegree (s : State K) (degree : Int) : Res (State K) :=
  if degree < 0 then .throw else .ok { s with degree := degree }

/-- `nuto/math/PolynomialLeastSquaresFitting.cpp` 8-20: `AddBoundaryCondition`. -/
def addCondition (s : State K) (bc : K × K) : Res (State K) :=
  if (s.conditions.length : Int) < s.degree then .ok { s with conditions := s.conditions ++ [bc] } else .throw

/-- `nuto/math/PolynomialLeastSquaresFitting.cpp` 118-135 and `nuto/math/SupportPoints.h` 38-47: `SetSupportPoints`;
`cols` of the matrices are given separately. -/
def setSupportPoints (s : State K) (dimInput dimOutput : Int) (input output : List (List K)) (colsIn colsOut : Nat) :
    Res (State K) :=
  if dimInput ≠ input.length then .throw
  else if dimOutput ≠ output.length then .throw
  else if colsOut ≠ colsIn then .throw
  else .ok { s with samples := colsIn, input := input, output := output }

/-- an addition to one entry of the matrix -/
def addAt (m : Nat → Nat → K) (i j : Nat) (v : K) : Nat → Nat → K :=
  fun a b => if a = i ∧ b = j then m a b + v else m a b

/-- `nuto/math/PolynomialLeastSquaresFitting.cpp` 46-50: the innermost loop. -/
def columnStep (nBC : Nat) (x : K) (i : Nat) (m : Nat → Nat → K) (j : Nat) : Nat → Nat → K :=
  if nBC ≤ i then addAt m i j (x ^ (i + j)) else m

/-- `nuto/math/PolynomialLeastSquaresFitting.cpp` 44-53: the loop over the rows for one support point. -/
def rowStep (n nBC : Nat) (x y : K) (s : (Nat → Nat → K) × (Nat → K)) (i : Nat) : (Nat → Nat → K) × (Nat → K) :=
  ((List.range n).foldl (columnStep nBC x i) s.1, fun a => if a = i then s.2 a + x ^ i * y else s.2 a)

/-- `nuto/math/PolynomialLeastSquaresFitting.cpp` 42-54: one support point. -/
def pointStep (n nBC : Nat) (s : (Nat → Nat → K) × (Nat → K)) (p : K × K) : (Nat → Nat → K) × (Nat → K) :=
  (List.range n).foldl (rowStep n nBC p.1 p.2) s

/-- `nuto/math/PolynomialLeastSquaresFitting.cpp` 56-63: one condition. -/
def conditionStep (n : Nat) (s : (Nat → Nat → K) × (Nat → K)) (q : (K × K) × Nat) : (Nat → Nat → K) × (Nat → K) :=
  ((List.range n).foldl (fun m (j : Nat) => addAt m q.2 j (q.1.1 ^ j)) s.1, fun a => if a = q.2 then q.1.2 else s.2 a)

/-- `nuto/math/PolynomialLeastSquaresFitting.cpp` 37-63: the linear system for support points `pts` and conditions `bcs`. -/
def system (n : Nat) (bcs pts : List (K × K)) : System K :=
  let s := pts.foldl (pointStep n bcs.length) (fun _ _ => 0, fun _ => 0)
  let t := bcs.zipIdx.foldl (conditionStep n) s
  ⟨n, t.1, t.2⟩

/-- the support points: the first row of both matrices -/
def points (xs ys : List K) (samples : Nat) : List (K × K) :=
  (List.range samples).map fun (k : Nat) => (xs.getD k 0, ys.getD k 0)

/-- `nuto/math/PolynomialLeastSquaresFitting.cpp` 22-71: `BuildDerived`.  More conditions than rows, or an input matrix
without rows, are accesses outside of the matrices. -/
def build (solver : System K → List K) (s : State K) : Res (State K) :=
  if s.output.length ≠ 1 then .throw
  else if s.degree < 0 then .throw
  else
    let n := (s.degree + 1).toNat
    if n < s.conditions.length then .ub
    else
      match s.input[0]?, s.output[0]? with
      | some xs, some ys => .ok { s with coeffs := solver (system n s.conditions (points xs ys s.samples)) }
      | none, _ => if s.samples = 0 then .ok { s with coeffs := solver (system n s.conditions []) } else .ub
      | _, none => .ub

/-- `nuto/math/PolynomialLeastSquaresFitting.cpp` 106-114: the value for one coordinate. -/
def value (n : Nat) (coeffs : List K) (x : K) : K :=
  (List.range n).foldl (fun (acc : K) (i : Nat) => acc + coeffs.getD i 0 * x ^ i) 0

/-- `nuto/math/PolynomialLeastSquaresFitting.cpp` 92-115: `SolveTransformed`. -/
def evaluate (s : State K) (input : List (List K)) : Res (List K) :=
  match input with
  | [xs] =>
    if (s.coeffs.length : Int) ≠ s.degree + 1 then .throw
    else .ok (xs.map fun x => value (s.degree + 1).toNat s.coeffs x)
  | _ => .throw

end LeastSquares

end NuTo
