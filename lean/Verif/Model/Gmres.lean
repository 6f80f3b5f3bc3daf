import Verif.Model.Basic
import Mathlib.Analysis.InnerProductSpace.Basic
import Mathlib.Analysis.Real.Sqrt

/-!
# The generalized minimal residual method

`nuto/math/Gmres.h`.  Numbers are real numbers.  Vectors of length `n` are elements of a real inner product space `E`; the
matrix `A` and the solve function of the preconditioner are linear maps.  A division by zero gives an infinite or undefined
number in the code; such entries may be stored, using them is outside of the model (`ub`).
-/

namespace NuTo

namespace Gmres

noncomputable section

open Classical in
/-- Eigen's `JacobiRotation::makeGivens(p, q)` (used in `nuto/math/Gmres.h` 82) as documented by Eigen: cosine and sine. -/
def makeGivens (p q : ℝ) : ℝ × ℝ :=
  if q = 0 then (if p < 0 then -1 else 1, 0)
  else if p = 0 then (0, if q < 0 then 1 else -1)
  else if |q| < |p| then
    let t := q / p
    let u := if p < 0 then -Real.sqrt (1 + t ^ 2) else Real.sqrt (1 + t ^ 2)
    (1 / u, -t * (1 / u))
  else
    let t := p / q
    let u := if q < 0 then -Real.sqrt (1 + t ^ 2) else Real.sqrt (1 + t ^ 2)
    (-t * (-(1 / u)), -(1 / u))

/-- Eigen's `applyOnTheLeft(p, p + 1, g.adjoint())` (`nuto/math/Gmres.h` 78, 86, 89) for one column. -/
def rotate (g : ℝ × ℝ) (p : Nat) (f : Nat → ℝ) : Nat → ℝ := fun k =>
  if k = p then g.1 * f p - g.2 * f (p + 1)
  else if k = p + 1 then g.2 * f p + g.1 * f (p + 1)
  else f k

variable {E : Type} [NormedAddCommGroup E] [InnerProductSpace ℝ E]

/-- `nuto/math/Gmres.h` 25-35, 58: the arrays; `none` is a column that was divided by zero. -/
structure Arrays (E : Type) where
  V : Nat → Option E := fun _ => none
  H : Nat → Nat → ℝ := fun _ _ => 0
  G : Nat → ℝ × ℝ := fun _ => (1, 0)
  s : Nat → ℝ := fun _ => 0

/-- `nuto/math/Gmres.h` 65-69: one step of Gram-Schmidt; the state is the column of `H` and the vector `w`. -/
def gramStep (V : Nat → Option E) (st : (Nat → ℝ) × E) (iRow : Nat) : Res ((Nat → ℝ) × E) :=
  match V iRow with
  | none => .ub
  | some v =>
    let h := inner ℝ st.2 v
    .ok (fun k => if k = iRow then h else st.1 k, st.2 - h • v)

/-- `nuto/math/Gmres.h` 63-89: the body of the loop over the columns up to the rotation of `s`, which has `n` entries.
`B` is the multiplication with the matrix and the preconditioner. -/
def column (B : E → E) (n i : Nat) (a : Arrays E) : Res (Arrays E) :=
  match a.V i with
  | none => .ub
  | some v =>
    (Res.foldlM (gramStep a.V) (fun k => a.H k i, B v) (List.range (i + 1))).bind fun st =>
      let col0 : Nat → ℝ := fun k => if k = i + 1 then ‖st.2‖ else st.1 k
      let V' : Nat → Option E := fun k =>
        if k = i + 1 then (open Classical in if ‖st.2‖ = 0 then none else some (‖st.2‖⁻¹ • st.2)) else a.V k
      let col1 := (List.range i).foldl (fun f (iRow : Nat) => rotate (a.G iRow) iRow f) col0
      let g := makeGivens (col1 i) (col1 (i + 1))
      let col2 := rotate g i col1
      if n ≤ i + 1 then .ub
      else .ok
        { V := V'
          H := fun k j => if j = i then col2 k else a.H k j
          G := fun k => if k = i then g else a.G k
          s := rotate g i a.s }

open Classical in
/-- `nuto/math/Gmres.h` 61-100: the loop over the columns, `fuel` of them from column `i` on.  The second component is the
column after which the residual was small enough. -/
def columns (B : E → E) (n : Nat) (limit : ℝ) : Nat → Nat → Arrays E → Res (Arrays E × Option Nat)
  | 0, _, a => .ok (a, none)
  | fuel + 1, i, a =>
    (column B n i a).bind fun a' =>
      if |a'.s (i + 1)| < limit then .ok (a', some i) else columns B n limit fuel (i + 1) a'

/-- Eigen's `triangularView<Upper>().solveInPlace(y)` for one row `k` of `m` (`nuto/math/Gmres.h` 96, 105). -/
def backStep (H : Nat → Nat → ℝ) (s : Nat → ℝ) (m : Nat) (y : Nat → ℝ) (k : Nat) : Res (Nat → ℝ) :=
  open Classical in
  if H k k = 0 then .ub
  else .ok fun j => if j = k then (s k - ∑ l ∈ Finset.Ico (k + 1) m, H k l * y l) / H k k else y j

/-- `nuto/math/Gmres.h` 95-96 and 104-105: the triangular solve, from the last row to the first. -/
def backSubst (H : Nat → Nat → ℝ) (s : Nat → ℝ) (m : Nat) : Res (Nat → ℝ) :=
  Res.foldlM (backStep H s m) (fun _ => 0) (List.range m).reverse

/-- one summand of `V.block(0, 0, n, m) * y` -/
def addColumn (V : Nat → Option E) (y : Nat → ℝ) (x : E) (j : Nat) : Res E :=
  match V j with
  | none => .ub
  | some v => .ok (x + y j • v)

/-- `nuto/math/Gmres.h` 95-97 and 104-106: the update of the solution with the first `m` columns. -/
def update (a : Arrays E) (m : Nat) (x : E) : Res E :=
  (backSubst a.H a.s m).bind fun y => Res.foldlM (addColumn a.V y) x (List.range m)

open Classical in
/-- `nuto/math/Gmres.h` 54-58: the first column of the Krylov space and `s` at the beginning of a cycle; the other entries keep
the values of the cycle before. -/
def startArrays (a : Arrays E) (r : E) : Arrays E :=
  { a with
    V := fun k => if k = 0 then (if ‖r‖ = 0 then none else some (‖r‖⁻¹ • r)) else a.V k
    s := fun k => if k = 0 then ‖r‖ else 0 }

open Classical in
/-- `nuto/math/Gmres.h` 48-115: the loop over the restarts; `fuel` is the number of restarts left, `num` those done. -/
def restarts (A P : E →ₗ[ℝ] E) (rhs : E) (n krylovDimension : Nat) (limit : ℝ) : Nat → Nat → Arrays E → E → E → Res (Nat × E)
  | 0, num, _, x, _ => .ok (num, x)
  | fuel + 1, num, a, x, r =>
    if limit < ‖r‖ then
      (columns (fun v => P (A v)) n limit krylovDimension 0 (startArrays a r)).bind fun res =>
        match res with
        | (a', some i) => (update a' (i + 1) x).bind fun x' => .ok (num, x')
        | (a', none) => (update a' krylovDimension x).bind fun x' =>
            restarts A P rhs n krylovDimension limit fuel (num + 1) a' x' (P (rhs - A x'))
    else .ok (num, x)

open Classical in
/-- `nuto/math/Gmres.h` 43-46: the norm the tolerance refers to. -/
def rhsNorm (rhs : E) : ℝ := if ‖rhs‖ < 1 / 100000 then 1 else ‖rhs‖

/-- `nuto/math/Gmres.h` 15-116: `Gmres`.  `n` is the number of rows; `e1[0]` needs one entry. -/
def gmres (A P : E →ₗ[ℝ] E) (n : Nat) (rhs x : E) (maxNumRestarts : Nat) (tolerance : ℝ) (krylovDimension : Nat) :
    Res (Nat × E) :=
  if n = 0 then .ub
  else restarts A P rhs n krylovDimension (tolerance * rhsNorm rhs) maxNumRestarts 0 {} x (P (rhs - A x))

end

end Gmres

end NuTo
