/-
`nuto/mechanics/iga/Nurbs.h`: knot span search, B-spline basis functions with derivatives, rational basis
functions of curves and surfaces.

Simplifications: exact arithmetic in a field in place of `double`; the factor `degree (degree - 1) ...`
does not overflow; a denominator that is zero (empty span) has no specified result.
-/
import Verif.Model.Basic
import Mathlib.Algebra.Field.Defs
import Mathlib.Algebra.Order.Field.Basic

namespace NuTo.Nurbs

variable {K : Type _}

/-- `knots[i]` -/
def knotAt (knots : List K) (i : Int) : Res K :=
  if 0 ≤ i then match knots[i.toNat]? with
    | some k => .ok k
    | none => .ub
  else .ub

/-- `nuto/mechanics/iga/Nurbs.h` 128-143: the search loop; `fuel` is `size - iterations`. -/
def spanLoop [LinearOrder K] (u : K) (knots : List K) : Nat → Nat → Nat → Res Int
  | fuel, low, high =>
    let mid := (low + high) / 2
    (knotAt knots mid).bind fun km =>
      if u < km then
        match fuel with
        | 0 => .throw
        | f + 1 => spanLoop u knots f low mid
      else
        (knotAt knots (mid + 1)).bind fun kn =>
          if u ≥ kn then
            match fuel with
            | 0 => .throw
            | f + 1 => spanLoop u knots f mid high
          else .ok mid

/-- `nuto/mechanics/iga/Nurbs.h` 114-144 `FindSpan` -/
def findSpan [LinearOrder K] (u : K) (degree : Nat) (knots : List K) : Res Int :=
  let size : Int := knots.length
  (knotAt knots 0).bind fun k0 => (knotAt knots (size - 1)).bind fun kl =>
    if u < k0 ∨ u > kl then .throw
    else
      let numBasisFuns : Int := size - degree - 1
      (knotAt knots numBasisFuns).bind fun kn =>
        if u = kn then .ok (numBasisFuns - 1)
        else spanLoop u knots knots.length degree numBasisFuns.toNat

/-- A matrix in memory.  Entries that were never written, inside or outside of the matrix, are arbitrary. -/
abbrev Mem (K : Type _) := Int → Int → K

/-- `m(i, j) = v` -/
def Mem.set (m : Mem K) (i j : Int) (v : K) : Mem K := fun i' j' => if i' = i ∧ j' = j then v else m i' j'

section Basis
variable [Field K]

/-- `nuto/mechanics/iga/Nurbs.h` 172-175: one step of the inner loop; `(ndu, saved)`. -/
def nduStep (left right : Int → K) (j : Int) (s : Mem K × K) (r : Nat) : Mem K × K :=
  let ndu := s.1.set j r (right (r + 1) + left (j - r))
  let temp := ndu r (j - 1) / ndu j r
  (ndu.set r j (s.2 + right (r + 1) * temp), left (j - r) * temp)

/-- `nuto/mechanics/iga/Nurbs.h` 167-177: one step of the outer loop; `(ndu, left, right)`. -/
def nduColumn (u : K) (span : Int) (knot : Int → K) (s : Mem K × (Int → K) × (Int → K)) (j : Nat) :
    Mem K × (Int → K) × (Int → K) :=
  let left := Function.update s.2.1 (j : Int) (u - knot (span + 1 - j))
  let right := Function.update s.2.2 (j : Int) (knot (span + j) - u)
  let q := (List.range j).foldl (nduStep left right j) (s.1, 0)
  (q.1.set j j q.2, left, right)

/-- `nuto/mechanics/iga/Nurbs.h` 158-178: the table of basis functions and knot differences. -/
def nduTable (init : Mem K × (Int → K) × (Int → K)) (u : K) (span : Int) (degree : Nat) (knot : Int → K) : Mem K :=
  ((List.range' 1 degree).foldl (nduColumn u span knot) (init.1.set 0 0 1, init.2)).1

/-- The variables of the derivative loop: `a`, `s1`, `s2`, `basisFctsDerivatives`. -/
structure DState (K : Type _) where
  a : Mem K
  s1 : Int
  s2 : Int
  ders : Mem K

/-- `nuto/mechanics/iga/Nurbs.h` 219-220; `(a, d)`. -/
def innerStep (ndu : Mem K) (s1 s2 rk pk : Int) (j1 : Int) (s : Mem K × K) (i : Nat) : Mem K × K :=
  let j := j1 + i
  let a := s.1.set s2 j ((s.1 s1 j - s.1 s1 (j - 1)) / ndu (pk + 1) (rk + j))
  (a, s.2 + a s2 j * ndu (rk + j) pk)

/-- `nuto/mechanics/iga/Nurbs.h` 197-204 -/
def firstEntry (ndu : Mem K) (s1 s2 r k pk : Int) (a : Mem K) : Mem K × K :=
  if r ≥ k then
    let a' := a.set s2 0 (a s1 0 / ndu (pk + 1) (r - k))
    (a', a' s2 0 * ndu (r - k) pk)
  else (a, 0)

/-- `nuto/mechanics/iga/Nurbs.h` 223-227 -/
def lastEntry (ndu : Mem K) (s1 s2 r k pk : Int) (s : Mem K × K) : Mem K × K :=
  if r ≤ pk then
    let a' := s.1.set s2 k (-(s.1 s1 (k - 1)) / ndu (pk + 1) r)
    (a', s.2 + a' s2 k * ndu r pk)
  else s

/-- `nuto/mechanics/iga/Nurbs.h` 205-209 -/
def firstIndex (r k : Int) : Int := if r - k ≥ -1 then 1 else -(r - k)

/-- `nuto/mechanics/iga/Nurbs.h` 211-215 -/
def lastIndex (degree r k : Int) : Int := if r - 1 ≤ degree - k then k - 1 else degree - r

/-- `nuto/mechanics/iga/Nurbs.h` 197-232: one step of the loop over the derivatives of one function. -/
def derivStep (ndu : Mem K) (degree r : Nat) (s : DState K) (k : Nat) : DState K :=
  let rk : Int := r - k
  let pk : Int := degree - k
  let f := firstEntry ndu s.s1 s.s2 r k pk s.a
  let j1 := firstIndex r k
  let j2 := lastIndex degree r k
  let g := (List.range (j2 + 1 - j1).toNat).foldl (innerStep ndu s.s1 s.s2 rk pk j1) f
  let h := lastEntry ndu s.s1 s.s2 r k pk g
  ⟨h.1, s.s2, s.s1, s.ders.set k r h.2⟩

/-- `nuto/mechanics/iga/Nurbs.h` 189-233: all derivatives of function `r`; `(a, basisFctsDerivatives)`. -/
def derivFunction (ndu : Mem K) (order degree : Nat) (s : Mem K × Mem K) (r : Nat) : Mem K × Mem K :=
  let q := (List.range' 1 order).foldl (derivStep ndu degree r) ⟨s.1.set 0 0 1, 0, 1, s.2⟩
  (q.a, q.ders)

/-- `nuto/mechanics/iga/Nurbs.h` 239-241; `(basisFctsDerivatives, r)`. -/
def scaleStep (degree : Nat) (s : Mem K × K) (k : Nat) : Mem K × K :=
  ((List.range (degree + 1)).foldl (fun m (j : Nat) => m.set k j (m k j * s.2)) s.1,
    s.2 * ((degree : K) - (k : K)))

/-- What the matrices contain before they are written. -/
structure Garbage (K : Type _) where
  ndu : Mem K
  left : Int → K
  right : Int → K
  a : Mem K
  ders : Mem K

/-- `nuto/mechanics/iga/Nurbs.h` 182-183: row zero. -/
def valueRow (ndu : Mem K) (degree : Nat) (ders : Mem K) : Mem K :=
  (List.range (degree + 1)).foldl (fun m (j : Nat) => m.set 0 j (ndu j degree)) ders

/-- `nuto/mechanics/iga/Nurbs.h` 154-245 `BasisFunctionsAndDerivatives` once the knots are read. -/
def basisTable (g : Garbage K) (order : Nat) (u : K) (span : Int) (degree : Nat) (knot : Int → K) : Mem K :=
  let ndu := nduTable (g.ndu, g.left, g.right) u span degree knot
  let ders := valueRow ndu degree g.ders
  let d := ((List.range (degree + 1)).foldl (derivFunction ndu order degree) (g.a, ders)).2
  ((List.range' 1 order).foldl (scaleStep degree) (d, (degree : K))).1

/-- `nuto/mechanics/iga/Nurbs.h` 154-245 `BasisFunctionsAndDerivatives`: row `k` column `j` of the result
is derivative `k` of function `j`.  The knots `spanIdx + 1 - degree` to `spanIdx + degree` are read. -/
def basisFunctions (g : Garbage K) (order : Nat) (u : K) (span : Int) (degree : Nat) (knots : List K) : Res (Mem K) :=
  if degree = 0 ∨ (0 ≤ span + 1 - degree ∧ span + degree < knots.length) then
    .ok (basisTable g order u span degree fun i => knots.getD i.toNat 0)
  else .ub

/-! ### Rational functions of curves -/

/-- `nuto/mechanics/iga/Nurbs.h` 267-283, 390-406: weighted sums of row `k`. -/
def weightedSum (ders : Mem K) (degree : Nat) (w : Nat → K) (k : Nat) : K :=
  (List.range (degree + 1)).foldl (fun (s : K) (i : Nat) => s + ders k i * w i) 0

/-- `nuto/mechanics/iga/Nurbs.h` 288-303, 411-424: entry `i` of the result for derivative order `der`. -/
def rationalEntry (ders : Mem K) (degree : Nat) (w : Nat → K) (der i : Nat) : K :=
  let sum := weightedSum ders degree w
  if der = 0 then ders 0 i * w i / sum 0
  else if der = 1 then (ders 1 i * sum 0 - ders 0 i * sum 1) * w i / (sum 0 * sum 0)
  else
    let sum2 := sum 0 * sum 0
    w i * (ders 2 i / sum 0 - 2 * ders 1 i * sum 1 / sum2 - ders 0 i * sum 2 / sum2 +
      2 * ders 0 i * sum 1 * sum 1 / (sum2 * sum 0))

/-- `nuto/mechanics/iga/Nurbs.h` 255-306 `BasisFunctionsAndDerivativesRational` (static) with the weights
`weights[spanIdx - degree + i]`; the assertion on the order. -/
def rational (g : Garbage K) (der : Nat) (u : K) (span : Int) (degree : Nat) (knots weights : List K) : Res (List K) :=
  if der ≤ 2 then
    (basisFunctions g der u span degree knots).bind fun ders =>
      if 0 ≤ span - degree ∧ span < weights.length then
        .ok ((List.range (degree + 1)).map
          (rationalEntry ders degree (fun i => weights.getD (span - degree + i).toNat 0) der))
      else .ub
  else .ub

/-! ### Rational functions of surfaces -/

/-- `nuto/mechanics/iga/Nurbs.h` 451-479: weighted sum of derivative `k` in the first and `l` in the second
direction. -/
def surfaceSum (sx sy : Mem K) (px py : Nat) (w : Nat → Nat → K) (k l : Nat) : K :=
  (List.range (py + 1)).foldl (fun (s : K) (i : Nat) =>
    (List.range (px + 1)).foldl (fun (s : K) (j : Nat) => s + sx k j * sy l i * w i j) s) 0

/-- `nuto/mechanics/iga/Nurbs.h` 488-492: values. -/
def surfaceValue (sx sy : Mem K) (px py : Nat) (w : Nat → Nat → K) (i j : Nat) : K :=
  sx 0 j * sy 0 i * w i j / surfaceSum sx sy px py w 0 0

/-- `nuto/mechanics/iga/Nurbs.h` 495-497: derivative in the first direction. -/
def surfaceDx (sx sy : Mem K) (px py : Nat) (w : Nat → Nat → K) (i j : Nat) : K :=
  let s := surfaceSum sx sy px py w
  (sx 1 j * sy 0 i * s 0 0 - sx 0 j * sy 0 i * s 1 0) * w i j / (s 0 0 * s 0 0)

/-- `nuto/mechanics/iga/Nurbs.h` 498-500: derivative in the second direction. -/
def surfaceDy (sx sy : Mem K) (px py : Nat) (w : Nat → Nat → K) (i j : Nat) : K :=
  let s := surfaceSum sx sy px py w
  (sx 0 j * sy 1 i * s 0 0 - sx 0 j * sy 0 i * s 0 1) * w i j / (s 0 0 * s 0 0)

/-- `nuto/mechanics/iga/Nurbs.h` 505-510: second derivative in the first direction. -/
def surfaceDxx (sx sy : Mem K) (px py : Nat) (w : Nat → Nat → K) (i j : Nat) : K :=
  let s := surfaceSum sx sy px py w
  (sx 2 j * sy 0 i / s 0 0 - 2 * sx 1 j * sy 0 i * s 1 0 / (s 0 0 * s 0 0) -
    sx 0 j * sy 0 i * s 2 0 / (s 0 0 * s 0 0) +
    2 * sx 0 j * sy 0 i * s 1 0 * s 1 0 / (s 0 0 * s 0 0 * s 0 0)) * w i j

/-- `nuto/mechanics/iga/Nurbs.h` 512-517: second derivative in the second direction; the last term uses
`shapeFunctions[0](0, i)`. -/
def surfaceDyy (sx sy : Mem K) (px py : Nat) (w : Nat → Nat → K) (i j : Nat) : K :=
  let s := surfaceSum sx sy px py w
  (sx 0 j * sy 2 i / s 0 0 - 2 * sx 0 j * sy 1 i * s 0 1 / (s 0 0 * s 0 0) -
    sx 0 j * sy 0 i * s 0 2 / (s 0 0 * s 0 0) +
    2 * sx 0 j * sx 0 i * s 0 1 * s 0 1 / (s 0 0 * s 0 0 * s 0 0)) * w i j

/-- `nuto/mechanics/iga/Nurbs.h` 519-526: mixed derivative. -/
def surfaceDxy (sx sy : Mem K) (px py : Nat) (w : Nat → Nat → K) (i j : Nat) : K :=
  let s := surfaceSum sx sy px py w
  (sx 1 j * sy 1 i / s 0 0 - sx 1 j * sy 0 i * s 0 1 / (s 0 0 * s 0 0) -
    sx 0 j * sy 1 i * s 1 0 / (s 0 0 * s 0 0) -
    sx 1 j * sy 0 i * s 1 1 * s 1 1 / (s 0 0 * s 0 0) +
    2 * sx 0 j * sy 0 i * s 1 0 * s 0 1 / (s 0 0 * s 0 0 * s 0 0)) * w i j

/-- `nuto/mechanics/iga/Nurbs.h` 481-530: the row of the result for control point `(i, j)`. -/
def surfaceRow (sx sy : Mem K) (px py : Nat) (w : Nat → Nat → K) (der i j : Nat) : List K :=
  if der = 0 then [surfaceValue sx sy px py w i j]
  else if der = 1 then [surfaceDx sx sy px py w i j, surfaceDy sx sy px py w i j]
  else [surfaceDxx sx sy px py w i j, surfaceDyy sx sy px py w i j, surfaceDxy sx sy px py w i j]

end Basis

end NuTo.Nurbs
