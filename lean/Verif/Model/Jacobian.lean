/-
`nuto/mechanics/cell/Jacobian.h`: Jacobian matrix, its inverse and determinant.

Simplifications: real numbers instead of `double`; a matrix is a function of row and
column, used only inside its dimensions; Eigen's inverse of fixed size matrices is the
adjugate divided by the determinant (a division by a zero determinant is totalised, the
theorems about the inverse assume a non-zero determinant).
-/
import Verif.Model.Basic
import Mathlib.Analysis.Real.Sqrt

namespace NuTo

/-- The members `mNormal`, `mJacobian`, `mInvJacobian`, `mDetJacobian`; `rows`, `cols` are
the dimensions of `mJacobian`. -/
structure Jacobian where
  rows : Nat
  cols : Nat
  jac : Nat → Nat → ℝ
  inv : Nat → Nat → ℝ
  det : ℝ
  normal : Nat → ℝ

namespace Jacobian

/-- `nuto/mechanics/cell/Jacobian.h` 132-147: `CalculateFixedSize`; `nodeValues` is
`(x0, y0, z0, x1, ...)`, `dN` has one row per node. -/
noncomputable def calculate (spaceDim : Nat) (nodeValues : List ℝ) (dN : List (List ℝ))
    (d j : Nat) : ℝ :=
  ((List.range dN.length).map fun (i : Nat) =>
    nodeValues.getD (spaceDim * i + d) 0 * (dN.getD i []).getD j 0).sum

/-- Eigen: determinant of a `1x1` matrix. -/
def det1 (m : Nat → Nat → ℝ) : ℝ := m 0 0

/-- Eigen: determinant of a `2x2` matrix. -/
def det2 (m : Nat → Nat → ℝ) : ℝ := m 0 0 * m 1 1 - m 1 0 * m 0 1

/-- Eigen: one of the three products of the determinant of a `3x3` matrix. -/
def brute3 (m : Nat → Nat → ℝ) (a b c : Nat) : ℝ :=
  m 0 a * (m 1 b * m 2 c - m 1 c * m 2 b)

/-- Eigen: determinant of a `3x3` matrix. -/
def det3 (m : Nat → Nat → ℝ) : ℝ := brute3 m 0 1 2 - brute3 m 1 0 2 + brute3 m 2 0 1

/-- Eigen: inverse of a `1x1` matrix. -/
noncomputable def inv1 (m : Nat → Nat → ℝ) (_ _ : Nat) : ℝ := 1 / m 0 0

/-- Eigen: inverse of a `2x2` matrix. -/
noncomputable def inv2 (m : Nat → Nat → ℝ) (i j : Nat) : ℝ :=
  (match i, j with
    | 0, 0 => m 1 1
    | 1, 0 => -m 1 0
    | 0, _ => -m 0 1
    | _, _ => m 0 0) / det2 m

/-- Eigen: cofactor of a `3x3` matrix (cyclic indices). -/
def cofactor3 (m : Nat → Nat → ℝ) (i j : Nat) : ℝ :=
  let i1 := (i + 1) % 3
  let i2 := (i + 2) % 3
  let j1 := (j + 1) % 3
  let j2 := (j + 2) % 3
  m i1 j1 * m i2 j2 - m i1 j2 * m i2 j1

/-- Eigen: inverse of a `3x3` matrix. -/
noncomputable def inv3 (m : Nat → Nat → ℝ) (i j : Nat) : ℝ := cofactor3 m j i / det3 m

/-- Eigen: `normalized()` of a vector with `n` components: unchanged if it is zero. -/
noncomputable def normalized (n : Nat) (v : Nat → ℝ) (d : Nat) : ℝ :=
  let z := ((List.range n).map fun k => v k * v k).sum
  if 0 < z then v d / Real.sqrt z else v d

/-- Eigen: cross product of two columns. -/
def cross (u v : Nat → ℝ) (d : Nat) : ℝ :=
  match d with
  | 0 => u 1 * v 2 - u 2 * v 1
  | 1 => u 2 * v 0 - u 0 * v 2
  | _ => u 0 * v 1 - u 1 * v 0

/-- `nuto/mechanics/cell/Jacobian.h` 52-56: the normal of a line in the plane. -/
noncomputable def normal2 (J : Nat → Nat → ℝ) : Nat → ℝ :=
  normalized 2 fun d => match d with | 0 => J 1 0 | _ => -J 0 0

/-- `nuto/mechanics/cell/Jacobian.h` 66-67: the normal of a surface in space. -/
noncomputable def normal3 (J : Nat → Nat → ℝ) : Nat → ℝ :=
  normalized 3 (cross (fun d => J d 0) fun d => J d 1)

/-- `nuto/mechanics/cell/Jacobian.h` 57-58 and 68-71: the Jacobian with the normal as last
column `c`. -/
def extended (c : Nat) (J : Nat → Nat → ℝ) (n : Nat → ℝ) (d j : Nat) : ℝ :=
  if j = c then n d else J d j

/-- `nuto/mechanics/cell/Jacobian.h` 16-97: the constructor.  `cols` is the number of
columns of `derivativeShapeFunctions`, its number of rows is `dN.length`.  No node: the
division by zero is undefined.  Equal dimensions other than 1, 2, 3 leave the members
uninitialised. -/
noncomputable def make (nodeValues : List ℝ) (cols : Nat) (dN : List (List ℝ)) : Res Jacobian :=
  if dN.length = 0 then .ub
  else
    let globalDimension := nodeValues.length / dN.length
    let J := calculate globalDimension nodeValues dN
    if cols = globalDimension then
      match globalDimension with
      | 1 => .ok ⟨1, 1, J, inv1 J, det1 J, fun _ => 0⟩
      | 2 => .ok ⟨2, 2, J, inv2 J, det2 J, fun _ => 0⟩
      | 3 => .ok ⟨3, 3, J, inv3 J, det3 J, fun _ => 0⟩
      | _ => .ub
    else if globalDimension = cols + 1 then
      match globalDimension with
      | 2 => .ok ⟨2, 1, J, inv2 (extended 1 J (normal2 J)), -det2 (extended 1 J (normal2 J)),
          normal2 J⟩
      | 3 => .ok ⟨3, 2, J, inv3 (extended 2 J (normal3 J)), det3 (extended 2 J (normal3 J)),
          normal3 J⟩
      | _ => .throw
    else .throw

/-- `nuto/mechanics/cell/Jacobian.h` 99-102: `TransformDerivativeShapeFunctions`, entry
`(i, d)`; `global * Inv()`. -/
noncomputable def transform (J : Jacobian) (dN : List (List ℝ)) (i d : Nat) : ℝ :=
  ((List.range J.cols).map fun (j : Nat) => (dN.getD i []).getD j 0 * J.inv j d).sum

/-- `nuto/mechanics/cell/Jacobian.h` 114-122: `Normal`. -/
def getNormal (J : Jacobian) : Res (Nat → ℝ) :=
  if J.cols + 1 ≠ J.rows then .throw else .ok J.normal

end Jacobian

end NuTo
