/-
The interpolation classes with fixed formulas of `nuto/mechanics/interpolation`:
local node coordinates, shape functions and their derivatives, transcribed
expression by expression (generated from the C++ text, then checked by eye).

Simplifications: exact arithmetic over a field instead of `double`; a decimal
literal is the rational number it denotes; the natural coordinate vector is a
function from component index to value (its size is at least the dimension of the
element); only components below the dimension are read.
-/
import Verif.Model.Basic
import Mathlib.Algebra.Field.Basic
import Mathlib.Data.Rat.Defs

namespace NuTo

/-- The part of `nuto/mechanics/interpolation/InterpolationSimple.h` 20-55 that is
modelled: number of nodes, local coordinates of the nodes, shape functions and their
derivatives (one row per node, one column per natural coordinate). -/
structure Interpolation (K : Type) where
  /-- number of natural coordinates (columns of the derivative matrix) -/
  dim : Nat
  /-- `GetNumNodes` -/
  numNodes : Nat
  /-- the node coordinates in the order of the `case` labels of `LocalCoords` -/
  coords : List (List K)
  /-- `GetShapeFunctions` -/
  shape : (Nat → K) → List K
  /-- `GetDerivativeShapeFunctions` -/
  deriv : (Nat → K) → List (List K)

/-- `GetLocalCoords(nodeId)` of every class: `LocalCoords`, a `switch` with a throwing
`default` branch. -/
def Interpolation.localCoords {K : Type} (I : Interpolation K) (nodeId : Nat) :
    Res (List K) :=
  match I.coords[nodeId]? with
  | some c => .ok c
  | none => .throw

namespace Interpolation

variable {K : Type} [Field K]

/-- `DBL_EPSILON` of `<cfloat>`, used by
`nuto/mechanics/interpolation/InterpolationPyramidLinear.cpp` 90. -/
def dblEpsilon : K := 1 / 2 ^ 52

/-- `nuto/mechanics/interpolation/InterpolationTrussLinear.cpp` 36-47: `LocalCoords`; the nodes in the order of the `case`
labels, any other index throws. -/
def trussLinearCoords : List (List K) :=
  [[-1],
   [1]]

/-- `nuto/mechanics/interpolation/InterpolationTrussLinear.cpp` 49-52: `ShapeFunctions`. -/
def trussLinearShape (x : Nat → K) : List K :=
  [(1 / 2) * (1 - x 0),
   (1 / 2) * (1 + x 0)]

/-- `nuto/mechanics/interpolation/InterpolationTrussLinear.cpp` 54-57: `DerivativeShapeFunctions`, one row per node. -/
def trussLinearDeriv (_x : Nat → K) : List (List K) :=
  [[-(1 / 2)],
   [(1 / 2)]]

/-- `nuto/mechanics/interpolation/InterpolationTrussLinear.cpp` 26: `GetNumNodes`, with the functions above. -/
def trussLinear : Interpolation K := ⟨1, 2, trussLinearCoords, trussLinearShape, trussLinearDeriv⟩

/-- `nuto/mechanics/interpolation/InterpolationTrussQuadratic.cpp` 37-50: `LocalCoords`; the nodes in the order of the `case`
labels, any other index throws. -/
def trussQuadraticCoords : List (List K) :=
  [[-1],
   [0],
   [1]]

/-- `nuto/mechanics/interpolation/InterpolationTrussQuadratic.cpp` 52-59: `ShapeFunctions`. -/
def trussQuadraticShape (x : Nat → K) : List K :=
  [(1 / 2) * (1 - x 0) - (1 / 2) * (1 - x 0 * x 0),
   1 - x 0 * x 0,
   (1 / 2) * (1 + x 0) - (1 / 2) * (1 - x 0 * x 0)]

/-- `nuto/mechanics/interpolation/InterpolationTrussQuadratic.cpp` 61-68: `DerivativeShapeFunctions`, one row per node. -/
def trussQuadraticDeriv (x : Nat → K) : List (List K) :=
  [[-(1 / 2) + x 0],
   [-2 * x 0],
   [(1 / 2) + x 0]]

/-- `nuto/mechanics/interpolation/InterpolationTrussQuadratic.cpp` 27: `GetNumNodes`, with the functions above. -/
def trussQuadratic : Interpolation K := ⟨1, 3, trussQuadraticCoords, trussQuadraticShape, trussQuadraticDeriv⟩

/-- `nuto/mechanics/interpolation/InterpolationTruss3rdOrder.cpp` 37-52: `LocalCoords`; the nodes in the order of the `case`
labels, any other index throws. -/
def truss3rdOrderCoords : List (List K) :=
  [[-1],
   [-1 / 3],
   [1 / 3],
   [1]]

/-- `nuto/mechanics/interpolation/InterpolationTruss3rdOrder.cpp` 54-65: `ShapeFunctions`. -/
def truss3rdOrderShape (x : Nat → K) : List K :=
  let r := x 0
  let r2 := r * r
  let r3 := r2 * r
  [-(1 / 16) + (1 / 16) * r + (9 / 16) * r2 - (9 / 16) * r3,
   (9 / 16) - (27 / 16) * r - (9 / 16) * r2 + (27 / 16) * r3,
   (9 / 16) + (27 / 16) * r - (9 / 16) * r2 - (27 / 16) * r3,
   -(1 / 16) - (1 / 16) * r + (9 / 16) * r2 + (9 / 16) * r3]

/-- `nuto/mechanics/interpolation/InterpolationTruss3rdOrder.cpp` 67-77: `DerivativeShapeFunctions`, one row per node. -/
def truss3rdOrderDeriv (x : Nat → K) : List (List K) :=
  let r := x 0
  let r2 := r * r
  [[(1 / 16) + (9 / 8) * r - (27 / 16) * r2],
   [-(27 / 16) - (9 / 8) * r + (81 / 16) * r2],
   [(27 / 16) - (9 / 8) * r - (81 / 16) * r2],
   [-(1 / 16) + (9 / 8) * r + (27 / 16) * r2]]

/-- `nuto/mechanics/interpolation/InterpolationTruss3rdOrder.cpp` 27: `GetNumNodes`, with the functions above. -/
def truss3rdOrder : Interpolation K := ⟨1, 4, truss3rdOrderCoords, truss3rdOrderShape, truss3rdOrderDeriv⟩

/-- `nuto/mechanics/interpolation/InterpolationTruss4thOrder.cpp` 37-54: `LocalCoords`; the nodes in the order of the `case`
labels, any other index throws. -/
def truss4thOrderCoords : List (List K) :=
  [[-1],
   [-(1 / 2)],
   [0],
   [(1 / 2)],
   [1]]

/-- `nuto/mechanics/interpolation/InterpolationTruss4thOrder.cpp` 56-69: `ShapeFunctions`. -/
def truss4thOrderShape (x : Nat → K) : List K :=
  let r := x 0
  let r2 := r * r
  let r3 := r2 * r
  let r4 := r3 * r
  [(166666666667 / 1000000000000) * r - (166666666667 / 1000000000000) * r2 - (666666666667 / 1000000000000) * r3 + (666666666667 / 1000000000000) * r4,
   -(133333333333 / 100000000000) * r + (266666666667 / 100000000000) * r2 + (133333333333 / 100000000000) * r3 - (266666666667 / 100000000000) * r4,
   1 - 5 * r2 + 4 * r4,
   (133333333333 / 100000000000) * r + (266666666667 / 100000000000) * r2 - (133333333333 / 100000000000) * r3 - (266666666667 / 100000000000) * r4,
   -(166666666667 / 1000000000000) * r - (166666666667 / 1000000000000) * r2 + (666666666667 / 1000000000000) * r3 + (666666666667 / 1000000000000) * r4]

/-- `nuto/mechanics/interpolation/InterpolationTruss4thOrder.cpp` 71-83: `DerivativeShapeFunctions`, one row per node. -/
def truss4thOrderDeriv (x : Nat → K) : List (List K) :=
  let r := x 0
  let r2 := r * r
  let r3 := r2 * r
  [[(166666666667 / 1000000000000) - (333333333333 / 1000000000000) * r - 2 * r2 + (266666666667 / 100000000000) * r3],
   [-(133333333333 / 100000000000) + (533333333333 / 100000000000) * r + 4 * r2 - (106666666667 / 10000000000) * r3],
   [-10 * r + 16 * r3],
   [(133333333333 / 100000000000) + (533333333333 / 100000000000) * r - 4 * r2 - (106666666667 / 10000000000) * r3],
   [-(166666666667 / 1000000000000) - (333333333333 / 1000000000000) * r + 2 * r2 + (266666666667 / 100000000000) * r3]]

/-- `nuto/mechanics/interpolation/InterpolationTruss4thOrder.cpp` 27: `GetNumNodes`, with the functions above. -/
def truss4thOrder : Interpolation K := ⟨1, 5, truss4thOrderCoords, truss4thOrderShape, truss4thOrderDeriv⟩

/-- `nuto/mechanics/interpolation/InterpolationTriangleLinear.cpp` 37-50: `LocalCoords`; the nodes in the order of the `case`
labels, any other index throws. -/
def triangleLinearCoords : List (List K) :=
  [[0, 0],
   [1, 0],
   [0, 1]]

/-- `nuto/mechanics/interpolation/InterpolationTriangleLinear.cpp` 52-59: `ShapeFunctions`. -/
def triangleLinearShape (x : Nat → K) : List K :=
  [1 - x 0 - x 1,
   x 0,
   x 1]

/-- `nuto/mechanics/interpolation/InterpolationTriangleLinear.cpp` 61-73: `DerivativeShapeFunctions`, one row per node. -/
def triangleLinearDeriv (_x : Nat → K) : List (List K) :=
  [[-1, -1],
   [1, 0],
   [0, 1]]

/-- `nuto/mechanics/interpolation/InterpolationTriangleLinear.cpp` 27: `GetNumNodes`, with the functions above. -/
def triangleLinear : Interpolation K := ⟨2, 3, triangleLinearCoords, triangleLinearShape, triangleLinearDeriv⟩

/-- `nuto/mechanics/interpolation/InterpolationTriangleQuadratic.cpp` 37-56: `LocalCoords`; the nodes in the order of the `case`
labels, any other index throws. -/
def triangleQuadraticCoords : List (List K) :=
  [[0, 0],
   [1, 0],
   [0, 1],
   [(1 / 2), 0],
   [(1 / 2), (1 / 2)],
   [0, (1 / 2)]]

/-- `nuto/mechanics/interpolation/InterpolationTriangleQuadratic.cpp` 58-71: `ShapeFunctions`. -/
def triangleQuadraticShape (x : Nat → K) : List K :=
  let r := x 0
  let s := x 1
  [2 * (r * r + s * s) + 4 * r * s - 3 * (r + s) + 1,
   2 * r * r - r,
   2 * s * s - s,
   -4 * r * (r + s - 1),
   4 * r * s,
   -4 * s * (s + r - 1)]

/-- `nuto/mechanics/interpolation/InterpolationTriangleQuadratic.cpp` 74-98: `DerivativeShapeFunctions`, one row per node. -/
def triangleQuadraticDeriv (x : Nat → K) : List (List K) :=
  let r := x 0
  let s := x 1
  [[4 * (r + s) - 3, 4 * (r + s) - 3],
   [4 * r - 1, 0],
   [0, 4 * s - 1],
   [-8 * r - 4 * s + 4, -4 * r],
   [4 * s, 4 * r],
   [-4 * s, -8 * s - 4 * r + 4]]

/-- `nuto/mechanics/interpolation/InterpolationTriangleQuadratic.cpp` 27: `GetNumNodes`, with the functions above. -/
def triangleQuadratic : Interpolation K := ⟨2, 6, triangleQuadraticCoords, triangleQuadraticShape, triangleQuadraticDeriv⟩

/-- `nuto/mechanics/interpolation/InterpolationTriangle3rdOrder.cpp` 37-64: `LocalCoords`; the nodes in the order of the `case`
labels, any other index throws. -/
def triangle3rdOrderCoords : List (List K) :=
  [[0, 0],
   [1 / 3, 0],
   [2 / 3, 0],
   [1, 0],
   [0, 1 / 3],
   [1 / 3, 1 / 3],
   [2 / 3, 1 / 3],
   [0, 2 / 3],
   [1 / 3, 2 / 3],
   [0, 1]]

/-- `nuto/mechanics/interpolation/InterpolationTriangle3rdOrder.cpp` 66-85: `ShapeFunctions`. -/
def triangle3rdOrderShape (x : Nat → K) : List K :=
  let r := x 0
  let s := x 1
  [1 - (11 / 2) * r - (11 / 2) * s + 9 * r * r + 18 * r * s + 9 * s * s - (9 / 2) * r * r * r - (27 / 2) * r * r * s - (27 / 2) * r * s * s - (9 / 2) * s * s * s,
   9 * r - (45 / 2) * r * r - (45 / 2) * r * s + (27 / 2) * r * r * r + 27 * r * r * s + (27 / 2) * r * s * s,
   -(9 / 2) * r + 18 * r * r + (9 / 2) * r * s - (27 / 2) * r * r * r - (27 / 2) * r * r * s,
   1 * r - (9 / 2) * r * r + (9 / 2) * r * r * r,
   9 * s - (45 / 2) * r * s - (45 / 2) * s * s + (27 / 2) * r * r * s + 27 * r * s * s + (27 / 2) * s * s * s,
   27 * r * s - 27 * r * r * s - 27 * r * s * s,
   -(9 / 2) * r * s + (27 / 2) * r * r * s,
   -(9 / 2) * s + (9 / 2) * r * s + 18 * s * s - (27 / 2) * r * s * s - (27 / 2) * s * s * s,
   -(9 / 2) * r * s + (27 / 2) * r * s * s,
   1 * s - (9 / 2) * s * s + (9 / 2) * s * s * s]

/-- `nuto/mechanics/interpolation/InterpolationTriangle3rdOrder.cpp` 88-125: `DerivativeShapeFunctions`, one row per node. -/
def triangle3rdOrderDeriv (x : Nat → K) : List (List K) :=
  let r := x 0
  let s := x 1
  [[-(11 / 2) + 18 * r + 18 * s - (27 / 2) * r * r - 27 * r * s - (27 / 2) * s * s, -(11 / 2) + 18 * r + 18 * s - (27 / 2) * r * r - 27 * r * s - (27 / 2) * s * s],
   [9 - 45 * r - (45 / 2) * s + (81 / 2) * r * r + 54 * r * s + (27 / 2) * s * s, -(45 / 2) * r + 27 * r * r + 27 * r * s],
   [-(9 / 2) + 36 * r + (9 / 2) * s - (81 / 2) * r * r - 27 * r * s, (9 / 2) * r - (27 / 2) * r * r],
   [1 - 9 * r + (27 / 2) * r * r, 0],
   [-(45 / 2) * s + 27 * r * s + 27 * s * s, 9 - (45 / 2) * r - 45 * s + (27 / 2) * r * r + 54 * r * s + (81 / 2) * s * s],
   [27 * s - 54 * r * s - 27 * s * s, 27 * r - 27 * r * r - 54 * r * s],
   [-(9 / 2) * s + 27 * r * s, -(9 / 2) * r + (27 / 2) * r * r],
   [(9 / 2) * s - (27 / 2) * s * s, -(9 / 2) + (9 / 2) * r + 36 * s - 27 * r * s - (81 / 2) * s * s],
   [-(9 / 2) * s + (27 / 2) * s * s, -(9 / 2) * r + 27 * r * s],
   [0, 1 - 9 * s + (27 / 2) * s * s]]

/-- `nuto/mechanics/interpolation/InterpolationTriangle3rdOrder.cpp` 27: `GetNumNodes`, with the functions above. -/
def triangle3rdOrder : Interpolation K := ⟨2, 10, triangle3rdOrderCoords, triangle3rdOrderShape, triangle3rdOrderDeriv⟩

/-- `nuto/mechanics/interpolation/InterpolationTriangle4thOrder.cpp` 37-74: `LocalCoords`; the nodes in the order of the `case`
labels, any other index throws. -/
def triangle4thOrderCoords : List (List K) :=
  [[0, 0],
   [(1 / 4), 0],
   [(1 / 2), 0],
   [(3 / 4), 0],
   [1, 0],
   [0, (1 / 4)],
   [(1 / 4), (1 / 4)],
   [(1 / 2), (1 / 4)],
   [(3 / 4), (1 / 4)],
   [0, (1 / 2)],
   [(1 / 4), (1 / 2)],
   [(1 / 2), (1 / 2)],
   [0, (3 / 4)],
   [(1 / 4), (3 / 4)],
   [0, 1]]

/-- `nuto/mechanics/interpolation/InterpolationTriangle4thOrder.cpp` 76-113: `ShapeFunctions`. -/
def triangle4thOrderShape (x : Nat → K) : List K :=
  let r := x 0
  let s := x 1
  [1 - (833333333333 / 100000000000) * r - (833333333333 / 100000000000) * s + (233333333333 / 10000000000) * r * r + (466666666667 / 10000000000) * r * s + (233333333333 / 10000000000) * s * s - (266666666667 / 10000000000) * r * r * r - 80 * r * r * s - 80 * r * s * s - (266666666667 / 10000000000) * s * s * s + (106666666667 / 10000000000) * s * s * s * s + (426666666667 / 10000000000) * r * s * s * s + 64 * r * r * s * s + (426666666667 / 10000000000) * r * r * r * s + (106666666667 / 10000000000) * r * r * r * r,
   16 * r - (693333333333 / 10000000000) * r * r - (693333333333 / 10000000000) * r * s + 96 * r * r * r + 192 * r * r * s + 96 * r * s * s - (426666666667 / 10000000000) * r * s * s * s - 128 * r * r * s * s - 128 * r * r * r * s - (426666666667 / 10000000000) * r * r * r * r,
   -12 * r + 76 * r * r + 28 * r * s - 128 * r * r * r - 144 * r * r * s - 16 * r * s * s + 64 * r * r * s * s + 128 * r * r * r * s + 64 * r * r * r * r,
   (533333333333 / 100000000000) * r - (373333333333 / 10000000000) * r * r - (533333333333 / 100000000000) * r * s + (746666666667 / 10000000000) * r * r * r + 32 * r * r * s - (426666666667 / 10000000000) * r * r * r * s - (426666666667 / 10000000000) * r * r * r * r,
   -1 * r + (733333333333 / 100000000000) * r * r - 16 * r * r * r + (106666666667 / 10000000000) * r * r * r * r,
   16 * s - (693333333333 / 10000000000) * r * s - (693333333333 / 10000000000) * s * s + 96 * r * r * s + 192 * r * s * s + 96 * s * s * s - (426666666667 / 10000000000) * s * s * s * s - 128 * r * s * s * s - 128 * r * r * s * s - (426666666667 / 10000000000) * r * r * r * s,
   96 * r * s - 224 * r * r * s - 224 * r * s * s + 128 * r * s * s * s + 256 * r * r * s * s + 128 * r * r * r * s,
   -32 * r * s + 160 * r * r * s + 32 * r * s * s - 128 * r * r * s * s - 128 * r * r * r * s,
   (533333333333 / 100000000000) * r * s - 32 * r * r * s + (426666666667 / 10000000000) * r * r * r * s,
   -12 * s + 28 * r * s + 76 * s * s - 16 * r * r * s - 144 * r * s * s - 128 * s * s * s + 64 * s * s * s * s + 128 * r * s * s * s + 64 * r * r * s * s,
   -32 * r * s + 32 * r * r * s + 160 * r * s * s - 128 * r * s * s * s - 128 * r * r * s * s,
   4 * r * s - 16 * r * r * s - 16 * r * s * s + 64 * r * r * s * s,
   (533333333333 / 100000000000) * s - (533333333333 / 100000000000) * r * s - (373333333333 / 10000000000) * s * s + 32 * r * s * s + (746666666667 / 10000000000) * s * s * s - (426666666667 / 10000000000) * s * s * s * s - (426666666667 / 10000000000) * r * s * s * s,
   (533333333333 / 100000000000) * r * s - 32 * r * s * s + (426666666667 / 10000000000) * r * s * s * s,
   -1 * s + (733333333333 / 100000000000) * s * s - 16 * s * s * s + (106666666667 / 10000000000) * s * s * s * s]

/-- `nuto/mechanics/interpolation/InterpolationTriangle4thOrder.cpp` 116-184: `DerivativeShapeFunctions`, one row per node. -/
def triangle4thOrderDeriv (x : Nat → K) : List (List K) :=
  let r := x 0
  let s := x 1
  [[-(833333333333 / 100000000000) + (466666666667 / 10000000000) * r + (466666666667 / 10000000000) * s - 80 * r * r - 160 * r * s - 80 * s * s + (426666666667 / 10000000000) * s * s * s + 128 * r * s * s + 128 * r * r * s + (426666666667 / 10000000000) * r * r * r, -(833333333333 / 100000000000) + (466666666667 / 10000000000) * r + (466666666667 / 10000000000) * s - 80 * r * r - 160 * r * s - 80 * s * s + (426666666667 / 10000000000) * s * s * s + 128 * r * s * s + 128 * r * r * s + (426666666667 / 10000000000) * r * r * r],
   [16 - (138666666667 / 1000000000) * r - (693333333333 / 10000000000) * s + 288 * r * r + 384 * r * s + 96 * s * s - (426666666667 / 10000000000) * s * s * s - 256 * r * s * s - 384 * r * r * s - (170666666667 / 1000000000) * r * r * r, -(693333333333 / 10000000000) * r + 192 * r * r + 192 * r * s - 128 * r * s * s - 256 * r * r * s - 128 * r * r * r],
   [-12 + 152 * r + 28 * s - 384 * r * r - 288 * r * s - 16 * s * s + 128 * r * s * s + 384 * r * r * s + 256 * r * r * r, 28 * r - 144 * r * r - 32 * r * s + 128 * r * r * s + 128 * r * r * r],
   [(533333333333 / 100000000000) - (746666666667 / 10000000000) * r - (533333333333 / 100000000000) * s + 224 * r * r + 64 * r * s - 128 * r * r * s - (170666666667 / 1000000000) * r * r * r, -(533333333333 / 100000000000) * r + 32 * r * r - (426666666667 / 10000000000) * r * r * r],
   [-1 + (146666666667 / 10000000000) * r - 48 * r * r + (426666666667 / 10000000000) * r * r * r, 0],
   [-(693333333333 / 10000000000) * s + 192 * r * s + 192 * s * s - 128 * s * s * s - 256 * r * s * s - 128 * r * r * s, 16 - (693333333333 / 10000000000) * r - (138666666667 / 1000000000) * s + 96 * r * r + 384 * r * s + 288 * s * s - (170666666667 / 1000000000) * s * s * s - 384 * r * s * s - 256 * r * r * s - (426666666667 / 10000000000) * r * r * r],
   [96 * s - 448 * r * s - 224 * s * s + 128 * s * s * s + 512 * r * s * s + 384 * r * r * s, 96 * r - 224 * r * r - 448 * r * s + 384 * r * s * s + 512 * r * r * s + 128 * r * r * r],
   [-32 * s + 320 * r * s + 32 * s * s - 256 * r * s * s - 384 * r * r * s, -32 * r + 160 * r * r + 64 * r * s - 256 * r * r * s - 128 * r * r * r],
   [(533333333333 / 100000000000) * s - 64 * r * s + 128 * r * r * s, (533333333333 / 100000000000) * r - 32 * r * r + (426666666667 / 10000000000) * r * r * r],
   [28 * s - 32 * r * s - 144 * s * s + 128 * s * s * s + 128 * r * s * s, -12 + 28 * r + 152 * s - 16 * r * r - 288 * r * s - 384 * s * s + 256 * s * s * s + 384 * r * s * s + 128 * r * r * s],
   [-32 * s + 64 * r * s + 160 * s * s - 128 * s * s * s - 256 * r * s * s, -32 * r + 32 * r * r + 320 * r * s - 384 * r * s * s - 256 * r * r * s],
   [4 * s - 32 * r * s - 16 * s * s + 128 * r * s * s, 4 * r - 16 * r * r - 32 * r * s + 128 * r * r * s],
   [-(533333333333 / 100000000000) * s + 32 * s * s - (426666666667 / 10000000000) * s * s * s, (533333333333 / 100000000000) - (533333333333 / 100000000000) * r - (746666666667 / 10000000000) * s + 64 * r * s + 224 * s * s - (170666666667 / 1000000000) * s * s * s - 128 * r * s * s],
   [(533333333333 / 100000000000) * s - 32 * s * s + (426666666667 / 10000000000) * s * s * s, (533333333333 / 100000000000) * r - 64 * r * s + 128 * r * s * s],
   [0, -1 + (146666666667 / 10000000000) * s - 48 * s * s + (426666666667 / 10000000000) * s * s * s]]

/-- `nuto/mechanics/interpolation/InterpolationTriangle4thOrder.cpp` 27: `GetNumNodes`, with the functions above. -/
def triangle4thOrder : Interpolation K := ⟨2, 15, triangle4thOrderCoords, triangle4thOrderShape, triangle4thOrderDeriv⟩

/-- `nuto/mechanics/interpolation/InterpolationQuadLinear.cpp` 37-52: `LocalCoords`; the nodes in the order of the `case`
labels, any other index throws. -/
def quadLinearCoords : List (List K) :=
  [[-1, -1],
   [1, -1],
   [1, 1],
   [-1, 1]]

/-- `nuto/mechanics/interpolation/InterpolationQuadLinear.cpp` 54-62: `ShapeFunctions`. -/
def quadLinearShape (x : Nat → K) : List K :=
  [(1 / 4) * (1 - x 0) * (1 - x 1),
   (1 / 4) * (1 + x 0) * (1 - x 1),
   (1 / 4) * (1 + x 0) * (1 + x 1),
   (1 / 4) * (1 - x 0) * (1 + x 1)]

/-- `nuto/mechanics/interpolation/InterpolationQuadLinear.cpp` 64-80: `DerivativeShapeFunctions`, one row per node. -/
def quadLinearDeriv (x : Nat → K) : List (List K) :=
  [[-(1 / 4) * (1 - x 1), -(1 / 4) * (1 - x 0)],
   [(1 / 4) * (1 - x 1), -(1 / 4) * (1 + x 0)],
   [(1 / 4) * (1 + x 1), (1 / 4) * (1 + x 0)],
   [-(1 / 4) * (1 + x 1), (1 / 4) * (1 - x 0)]]

/-- `nuto/mechanics/interpolation/InterpolationQuadLinear.cpp` 27: `GetNumNodes`, with the functions above. -/
def quadLinear : Interpolation K := ⟨2, 4, quadLinearCoords, quadLinearShape, quadLinearDeriv⟩

/-- `nuto/mechanics/interpolation/InterpolationQuadSerendipity.cpp` 37-60: `LocalCoords`; the nodes in the order of the `case`
labels, any other index throws. -/
def quadSerendipityCoords : List (List K) :=
  [[-1, -1],
   [1, -1],
   [1, 1],
   [-1, 1],
   [0, -1],
   [1, 0],
   [0, 1],
   [-1, 0]]

/-- `nuto/mechanics/interpolation/InterpolationQuadSerendipity.cpp` 62-78: `ShapeFunctions`. -/
def quadSerendipityShape (x : Nat → K) : List K :=
  let r := x 0
  let s := x 1
  [-(1 / 4) * (r - 1) * (s - 1) * (r + s + 1),
   (1 / 4) * (r + 1) * (s - 1) * (-r + s + 1),
   (1 / 4) * (r + 1) * (s + 1) * (r + s - 1),
   (1 / 4) * (r - 1) * (s + 1) * (r - s + 1),
   (1 / 2) * (r * r - 1) * (s - 1),
   -(1 / 2) * (r + 1) * (s * s - 1),
   -(1 / 2) * (r * r - 1) * (s + 1),
   (1 / 2) * (r - 1) * (s * s - 1)]

/-- `nuto/mechanics/interpolation/InterpolationQuadSerendipity.cpp` 80-111: `DerivativeShapeFunctions`, one row per node. -/
def quadSerendipityDeriv (x : Nat → K) : List (List K) :=
  let r := x 0
  let s := x 1
  [[(2 * r + s) * (-(1 / 4) * s + (1 / 4)), (-(1 / 4) * r + (1 / 4)) * (r + 2 * s)],
   [(-(1 / 2) * r + (1 / 4) * s) * (s - 1), (1 / 4) * (-r + 2 * s) * (r + 1)],
   [(1 / 4) * (2 * r + s) * (s + 1), (1 / 4) * (r + 1) * (r + 2 * s)],
   [(1 / 4) * (2 * r - s) * (s + 1), ((1 / 4) * r - (1 / 2) * s) * (r - 1)],
   [r * (s - 1), (1 / 2) * r * r - (1 / 2)],
   [-(1 / 2) * s * s + (1 / 2), -s * (r + 1)],
   [-r * (s + 1), -(1 / 2) * r * r + (1 / 2)],
   [(1 / 2) * s * s - (1 / 2), s * (r - 1)]]

/-- `nuto/mechanics/interpolation/InterpolationQuadSerendipity.cpp` 27: `GetNumNodes`, with the functions above. -/
def quadSerendipity : Interpolation K := ⟨2, 8, quadSerendipityCoords, quadSerendipityShape, quadSerendipityDeriv⟩

/-- `nuto/mechanics/interpolation/InterpolationTetrahedronLinear.cpp` 36-51: `LocalCoords`; the nodes in the order of the `case`
labels, any other index throws. -/
def tetrahedronLinearCoords : List (List K) :=
  [[0, 0, 0],
   [1, 0, 0],
   [0, 1, 0],
   [0, 0, 1]]

/-- `nuto/mechanics/interpolation/InterpolationTetrahedronLinear.cpp` 53-61: `ShapeFunctions`. -/
def tetrahedronLinearShape (x : Nat → K) : List K :=
  [1 - (x 0 + x 1 + x 2),
   x 0,
   x 1,
   x 2]

/-- `nuto/mechanics/interpolation/InterpolationTetrahedronLinear.cpp` 63-83: `DerivativeShapeFunctions`, one row per node. -/
def tetrahedronLinearDeriv (_x : Nat → K) : List (List K) :=
  [[-1, -1, -1],
   [1, 0, 0],
   [0, 1, 0],
   [0, 0, 1]]

/-- `nuto/mechanics/interpolation/InterpolationTetrahedronLinear.cpp` 26: `GetNumNodes`, with the functions above. -/
def tetrahedronLinear : Interpolation K := ⟨3, 4, tetrahedronLinearCoords, tetrahedronLinearShape, tetrahedronLinearDeriv⟩

/-- `nuto/mechanics/interpolation/InterpolationTetrahedronQuadratic.cpp` 37-65: `LocalCoords`; the nodes in the order of the `case`
labels, any other index throws. -/
def tetrahedronQuadraticCoords : List (List K) :=
  [[0, 0, 0],
   [1, 0, 0],
   [0, 1, 0],
   [0, 0, 1],
   [(1 / 2), 0, 0],
   [(1 / 2), (1 / 2), 0],
   [0, (1 / 2), 0],
   [0, 0, (1 / 2)],
   [0, (1 / 2), (1 / 2)],
   [(1 / 2), 0, (1 / 2)]]

/-- `nuto/mechanics/interpolation/InterpolationTetrahedronQuadratic.cpp` 67-105: `ShapeFunctions`. -/
def tetrahedronQuadraticShape (x : Nat → K) : List K :=
  let r := x 0
  let s := x 1
  let t := x 2
  [1 - 3 * (r + s + t) + 2 * (r * r + s * s + t * t) + 4 * (r * s + r * t + s * t),
   -r + 2 * r * r,
   -s + 2 * s * s,
   -t + 2 * t * t,
   4 * r * (1 - r - s - t),
   4 * r * s,
   4 * s * (1 - r - s - t),
   4 * t * (1 - r - s - t),
   4 * s * t,
   4 * r * t]

/-- `nuto/mechanics/interpolation/InterpolationTetrahedronQuadratic.cpp` 108-156: `DerivativeShapeFunctions`, one row per node. -/
def tetrahedronQuadraticDeriv (x : Nat → K) : List (List K) :=
  let r := x 0
  let s := x 1
  let t := x 2
  [[-3 + 4 * (r + s + t), -3 + 4 * (r + s + t), -3 + 4 * (r + s + t)],
   [-1 + 4 * r, 0, 0],
   [0, -1 + 4 * s, 0],
   [0, 0, -1 + 4 * t],
   [4 - 8 * r - 4 * s - 4 * t, -4 * r, -4 * r],
   [4 * s, 4 * r, 0],
   [-4 * s, 4 - 8 * s - 4 * r - 4 * t, -4 * s],
   [-4 * t, -4 * t, 4 - 8 * t - 4 * r - 4 * s],
   [0, 4 * t, 4 * s],
   [4 * t, 0, 4 * r]]

/-- `nuto/mechanics/interpolation/InterpolationTetrahedronQuadratic.cpp` 27: `GetNumNodes`, with the functions above. -/
def tetrahedronQuadratic : Interpolation K := ⟨3, 10, tetrahedronQuadraticCoords, tetrahedronQuadraticShape, tetrahedronQuadraticDeriv⟩

/-- `nuto/mechanics/interpolation/InterpolationBrickLinear.cpp` 37-61: `LocalCoords`; the nodes in the order of the `case`
labels, any other index throws. -/
def brickLinearCoords : List (List K) :=
  [[-1, -1, -1],
   [1, -1, -1],
   [1, 1, -1],
   [-1, 1, -1],
   [-1, -1, 1],
   [1, -1, 1],
   [1, 1, 1],
   [-1, 1, 1]]

/-- `nuto/mechanics/interpolation/InterpolationBrickLinear.cpp` 63-85: `ShapeFunctions`. -/
def brickLinearShape (x : Nat → K) : List K :=
  let plus_r := 1 + x 0
  let plus_s := 1 + x 1
  let plus_t := 1 + x 2
  let minus_r := 1 - x 0
  let minus_s := 1 - x 1
  let minus_t := 1 - x 2
  [(1 / 8) * minus_r * minus_s * minus_t,
   (1 / 8) * plus_r * minus_s * minus_t,
   (1 / 8) * plus_r * plus_s * minus_t,
   (1 / 8) * minus_r * plus_s * minus_t,
   (1 / 8) * minus_r * minus_s * plus_t,
   (1 / 8) * plus_r * minus_s * plus_t,
   (1 / 8) * plus_r * plus_s * plus_t,
   (1 / 8) * minus_r * plus_s * plus_t]

/-- `nuto/mechanics/interpolation/InterpolationBrickLinear.cpp` 87-132: `DerivativeShapeFunctions`, one row per node. -/
def brickLinearDeriv (x : Nat → K) : List (List K) :=
  let plus_r := 1 + x 0
  let plus_s := 1 + x 1
  let plus_t := 1 + x 2
  let minus_r := 1 - x 0
  let minus_s := 1 - x 1
  let minus_t := 1 - x 2
  [[-(1 / 8) * minus_s * minus_t, -(1 / 8) * minus_r * minus_t, -(1 / 8) * minus_r * minus_s],
   [(1 / 8) * minus_s * minus_t, -(1 / 8) * plus_r * minus_t, -(1 / 8) * plus_r * minus_s],
   [(1 / 8) * plus_s * minus_t, (1 / 8) * plus_r * minus_t, -(1 / 8) * plus_r * plus_s],
   [-(1 / 8) * plus_s * minus_t, (1 / 8) * minus_r * minus_t, -(1 / 8) * minus_r * plus_s],
   [-(1 / 8) * minus_s * plus_t, -(1 / 8) * minus_r * plus_t, (1 / 8) * minus_r * minus_s],
   [(1 / 8) * minus_s * plus_t, -(1 / 8) * plus_r * plus_t, (1 / 8) * plus_r * minus_s],
   [(1 / 8) * plus_s * plus_t, (1 / 8) * plus_r * plus_t, (1 / 8) * plus_r * plus_s],
   [-(1 / 8) * plus_s * plus_t, (1 / 8) * minus_r * plus_t, (1 / 8) * minus_r * plus_s]]

/-- `nuto/mechanics/interpolation/InterpolationBrickLinear.cpp` 27: `GetNumNodes`, with the functions above. -/
def brickLinear : Interpolation K := ⟨3, 8, brickLinearCoords, brickLinearShape, brickLinearDeriv⟩

/-- `nuto/mechanics/interpolation/InterpolationBrickQuadratic.cpp` 37-92: `LocalCoords`; the nodes in the order of the `case`
labels, any other index throws. -/
def brickQuadraticCoords : List (List K) :=
  [[-1, -1, -1],
   [1, -1, -1],
   [1, 1, -1],
   [-1, 1, -1],
   [-1, -1, 1],
   [1, -1, 1],
   [1, 1, 1],
   [-1, 1, 1],
   [0, -1, -1],
   [1, 0, -1],
   [0, 1, -1],
   [-1, 0, -1],
   [-1, -1, 0],
   [1, -1, 0],
   [1, 1, 0],
   [-1, 1, 0],
   [0, -1, 1],
   [1, 0, 1],
   [0, 1, 1],
   [-1, 0, 1]]

/-- `nuto/mechanics/interpolation/InterpolationBrickQuadratic.cpp` 94-139: `ShapeFunctions`. -/
def brickQuadraticShape (x : Nat → K) : List K :=
  let r := x 0
  let s := x 1
  let t := x 2
  let plus_r := 1 + r
  let plus_s := 1 + s
  let plus_t := 1 + t
  let minus_r := 1 - r
  let minus_s := 1 - s
  let minus_t := 1 - t
  let mid_r := 1 - r * r
  let mid_s := 1 - s * s
  let mid_t := 1 - t * t
  [(1 / 8) * minus_r * minus_s * minus_t * (-r - s - t - 2),
   (1 / 8) * plus_r * minus_s * minus_t * (r - s - t - 2),
   (1 / 8) * plus_r * plus_s * minus_t * (r + s - t - 2),
   (1 / 8) * minus_r * plus_s * minus_t * (-r + s - t - 2),
   (1 / 8) * minus_r * minus_s * plus_t * (-r - s + t - 2),
   (1 / 8) * plus_r * minus_s * plus_t * (r - s + t - 2),
   (1 / 8) * plus_r * plus_s * plus_t * (r + s + t - 2),
   (1 / 8) * minus_r * plus_s * plus_t * (-r + s + t - 2),
   (1 / 4) * mid_r * minus_s * minus_t,
   (1 / 4) * plus_r * mid_s * minus_t,
   (1 / 4) * mid_r * plus_s * minus_t,
   (1 / 4) * minus_r * mid_s * minus_t,
   (1 / 4) * minus_r * minus_s * mid_t,
   (1 / 4) * plus_r * minus_s * mid_t,
   (1 / 4) * plus_r * plus_s * mid_t,
   (1 / 4) * minus_r * plus_s * mid_t,
   (1 / 4) * mid_r * minus_s * plus_t,
   (1 / 4) * plus_r * mid_s * plus_t,
   (1 / 4) * mid_r * plus_s * plus_t,
   (1 / 4) * minus_r * mid_s * plus_t]

/-- `nuto/mechanics/interpolation/InterpolationBrickQuadratic.cpp` 141-263: `DerivativeShapeFunctions`, one row per node. -/
def brickQuadraticDeriv (x : Nat → K) : List (List K) :=
  let r := x 0
  let s := x 1
  let t := x 2
  let plus_r := 1 + r
  let plus_s := 1 + s
  let plus_t := 1 + t
  let minus_r := 1 - r
  let minus_s := 1 - s
  let minus_t := 1 - t
  let mid_r := 1 - r * r
  let mid_s := 1 - s * s
  let mid_t := 1 - t * t
  [[(1 / 8) * minus_s * minus_t * (2 * r + s + t + 1), (1 / 8) * minus_r * minus_t * (r + 2 * s + t + 1), (1 / 8) * minus_r * minus_s * (r + s + 2 * t + 1)],
   [(1 / 8) * minus_s * minus_t * (2 * r - s - t - 1), -(1 / 8) * plus_r * minus_t * (r - 2 * s - t - 1), -(1 / 8) * plus_r * minus_s * (r - s - 2 * t - 1)],
   [(1 / 8) * plus_s * minus_t * (2 * r + s - t - 1), (1 / 8) * plus_r * minus_t * (r + 2 * s - t - 1), -(1 / 8) * plus_r * plus_s * (r + s - 2 * t - 1)],
   [(1 / 8) * plus_s * minus_t * (2 * r - s + t + 1), -(1 / 8) * minus_r * minus_t * (r - 2 * s + t + 1), (1 / 8) * minus_r * plus_s * (r - s + 2 * t + 1)],
   [(1 / 8) * minus_s * plus_t * (2 * r + s - t + 1), (1 / 8) * minus_r * plus_t * (r + 2 * s - t + 1), -(1 / 8) * minus_r * minus_s * (r + s - 2 * t + 1)],
   [(1 / 8) * minus_s * plus_t * (2 * r - s + t - 1), -(1 / 8) * plus_r * plus_t * (r - 2 * s + t - 1), (1 / 8) * plus_r * minus_s * (r - s + 2 * t - 1)],
   [(1 / 8) * plus_s * plus_t * (2 * r + s + t - 1), (1 / 8) * plus_r * plus_t * (r + 2 * s + t - 1), (1 / 8) * plus_r * plus_s * (r + s + 2 * t - 1)],
   [(1 / 8) * plus_s * plus_t * (2 * r - s - t + 1), -(1 / 8) * minus_r * plus_t * (r - 2 * s - t + 1), -(1 / 8) * minus_r * plus_s * (r - s - 2 * t + 1)],
   [-(1 / 2) * r * minus_s * minus_t, -(1 / 4) * mid_r * minus_t, -(1 / 4) * mid_r * minus_s],
   [(1 / 4) * mid_s * minus_t, -(1 / 2) * s * plus_r * minus_t, -(1 / 4) * plus_r * mid_s],
   [-(1 / 2) * r * plus_s * minus_t, (1 / 4) * mid_r * minus_t, -(1 / 4) * mid_r * plus_s],
   [-(1 / 4) * mid_s * minus_t, -(1 / 2) * s * minus_r * minus_t, -(1 / 4) * minus_r * mid_s],
   [-(1 / 4) * minus_s * mid_t, -(1 / 4) * minus_r * mid_t, -(1 / 2) * t * minus_r * minus_s],
   [(1 / 4) * minus_s * mid_t, -(1 / 4) * plus_r * mid_t, -(1 / 2) * t * plus_r * minus_s],
   [(1 / 4) * plus_s * mid_t, (1 / 4) * plus_r * mid_t, -(1 / 2) * t * plus_r * plus_s],
   [-(1 / 4) * plus_s * mid_t, (1 / 4) * minus_r * mid_t, -(1 / 2) * t * minus_r * plus_s],
   [-(1 / 2) * r * minus_s * plus_t, -(1 / 4) * mid_r * plus_t, (1 / 4) * mid_r * minus_s],
   [(1 / 4) * mid_s * plus_t, -(1 / 2) * s * plus_r * plus_t, (1 / 4) * plus_r * mid_s],
   [-(1 / 2) * r * plus_s * plus_t, (1 / 4) * mid_r * plus_t, (1 / 4) * mid_r * plus_s],
   [-(1 / 4) * mid_s * plus_t, -(1 / 2) * s * minus_r * plus_t, (1 / 4) * minus_r * mid_s]]

/-- `nuto/mechanics/interpolation/InterpolationBrickQuadratic.cpp` 27: `GetNumNodes`, with the functions above. -/
def brickQuadratic : Interpolation K := ⟨3, 20, brickQuadraticCoords, brickQuadraticShape, brickQuadraticDeriv⟩

/-- `nuto/mechanics/interpolation/InterpolationPrismLinear.cpp` 37-57: `LocalCoords`; the nodes in the order of the `case`
labels, any other index throws. -/
def prismLinearCoords : List (List K) :=
  [[0, 0, -1],
   [1, 0, -1],
   [0, 1, -1],
   [0, 0, 1],
   [1, 0, 1],
   [0, 1, 1]]

/-- `nuto/mechanics/interpolation/InterpolationPrismLinear.cpp` 59-74: `ShapeFunctions`. -/
def prismLinearShape (x : Nat → K) : List K :=
  let triangle0 := 1 - x 0 - x 1
  let triangle1 := x 0
  let triangle2 := x 1
  [(1 / 2) * triangle0 * (1 - x 2),
   (1 / 2) * triangle1 * (1 - x 2),
   (1 / 2) * triangle2 * (1 - x 2),
   (1 / 2) * triangle0 * (1 + x 2),
   (1 / 2) * triangle1 * (1 + x 2),
   (1 / 2) * triangle2 * (1 + x 2)]

/-- `nuto/mechanics/interpolation/InterpolationPrismLinear.cpp` 76-105: `DerivativeShapeFunctions`, one row per node. -/
def prismLinearDeriv (x : Nat → K) : List (List K) :=
  [[-(1 / 2) * (1 - x 2), -(1 / 2) * (1 - x 2), -(1 / 2) * (1 - x 0 - x 1)],
   [(1 / 2) * (1 - x 2), 0, -(1 / 2) * x 0],
   [0, (1 / 2) * (1 - x 2), -(1 / 2) * x 1],
   [-(1 / 2) * (1 + x 2), -(1 / 2) * (1 + x 2), (1 / 2) * (1 - x 0 - x 1)],
   [(1 / 2) * (1 + x 2), 0, (1 / 2) * x 0],
   [0, (1 / 2) * (1 + x 2), (1 / 2) * x 1]]

/-- `nuto/mechanics/interpolation/InterpolationPrismLinear.cpp` 27: `GetNumNodes`, with the functions above. -/
def prismLinear : Interpolation K := ⟨3, 6, prismLinearCoords, prismLinearShape, prismLinearDeriv⟩

/-- `nuto/mechanics/interpolation/InterpolationPrismQuadratic.cpp` 39-87: `LocalCoords`; the nodes in the order of the `case`
labels, any other index throws. -/
def prismQuadraticCoords : List (List K) :=
  [[0, 0, -1],
   [1, 0, -1],
   [0, 1, -1],
   [0, 0, 1],
   [1, 0, 1],
   [0, 1, 1],
   [(1 / 2), 0, -1],
   [0, (1 / 2), -1],
   [0, 0, 0],
   [(1 / 2), (1 / 2), -1],
   [1, 0, 0],
   [0, 1, 0],
   [(1 / 2), 0, 1],
   [0, (1 / 2), 1],
   [(1 / 2), (1 / 2), 1],
   [(1 / 2), 0, 0],
   [0, (1 / 2), 0],
   [(1 / 2), (1 / 2), 0]]

/-- `nuto/mechanics/interpolation/InterpolationPrismQuadratic.cpp` 89-116: `ShapeFunctions` (`NTriangle2` is `T`, `NTruss2` is `L`). -/
def prismQuadraticShape (x : Nat → K) : List K :=
  let T := fun i => (triangleQuadraticShape x).getD i 0
  let L := fun i => (trussQuadraticShape (fun _ => x 2)).getD i 0
  [T 0 * L 0,
   T 1 * L 0,
   T 2 * L 0,
   T 0 * L 2,
   T 1 * L 2,
   T 2 * L 2,
   T 3 * L 0,
   T 5 * L 0,
   T 0 * L 1,
   T 4 * L 0,
   T 1 * L 1,
   T 2 * L 1,
   T 3 * L 2,
   T 5 * L 2,
   T 4 * L 2,
   T 3 * L 1,
   T 5 * L 1,
   T 4 * L 1]

/-- `nuto/mechanics/interpolation/InterpolationPrismQuadratic.cpp` 118-204: `DerivativeShapeFunctions`, one row per node (`NTriangle2` is `T`, `NTruss2` is `L`). -/
def prismQuadraticDeriv (x : Nat → K) : List (List K) :=
  let T := fun i => (triangleQuadraticShape x).getD i 0
  let L := fun i => (trussQuadraticShape (fun _ => x 2)).getD i 0
  let dT := fun i j => ((triangleQuadraticDeriv x).getD i []).getD j 0
  let dL := fun i j => ((trussQuadraticDeriv (fun _ => x 2)).getD i []).getD j 0
  [[dT 0 0 * L 0, dT 0 1 * L 0, T 0 * dL 0 0],
   [dT 1 0 * L 0, dT 1 1 * L 0, T 1 * dL 0 0],
   [dT 2 0 * L 0, dT 2 1 * L 0, T 2 * dL 0 0],
   [dT 0 0 * L 2, dT 0 1 * L 2, T 0 * dL 2 0],
   [dT 1 0 * L 2, dT 1 1 * L 2, T 1 * dL 2 0],
   [dT 2 0 * L 2, dT 2 1 * L 2, T 2 * dL 2 0],
   [dT 3 0 * L 0, dT 3 1 * L 0, T 3 * dL 0 0],
   [dT 5 0 * L 0, dT 5 1 * L 0, T 5 * dL 0 0],
   [dT 0 0 * L 1, dT 0 1 * L 1, T 0 * dL 1 0],
   [dT 4 0 * L 0, dT 4 1 * L 0, T 4 * dL 0 0],
   [dT 1 0 * L 1, dT 1 1 * L 1, T 1 * dL 1 0],
   [dT 2 0 * L 1, dT 2 1 * L 1, T 2 * dL 1 0],
   [dT 3 0 * L 2, dT 3 1 * L 2, T 3 * dL 2 0],
   [dT 5 0 * L 2, dT 5 1 * L 2, T 5 * dL 2 0],
   [dT 4 0 * L 2, dT 4 1 * L 2, T 4 * dL 2 0],
   [dT 3 0 * L 1, dT 3 1 * L 1, T 3 * dL 1 0],
   [dT 5 0 * L 1, dT 5 1 * L 1, T 5 * dL 1 0],
   [dT 4 0 * L 1, dT 4 1 * L 1, T 4 * dL 1 0]]

/-- `nuto/mechanics/interpolation/InterpolationPrismQuadratic.cpp` 29: `GetNumNodes`, with the functions above. -/
def prismQuadratic : Interpolation K := ⟨3, 18, prismQuadraticCoords, prismQuadraticShape, prismQuadraticDeriv⟩

/-- `nuto/mechanics/interpolation/InterpolationPyramidLinear.cpp` 38-56: `LocalCoords`; the nodes in the order of the `case`
labels, any other index throws. -/
def pyramidLinearCoords : List (List K) :=
  [[1, 1, 0],
   [1, -1, 0],
   [-1, -1, 0],
   [-1, 1, 0],
   [0, 0, 1]]

/-- `nuto/mechanics/interpolation/InterpolationPyramidLinear.cpp` 58-78: `ShapeFunctions` (`x`, `y`, `z` renamed to `xx`, `yy`, `zz`). -/
def pyramidLinearShape [DecidableEq K] (x : Nat → K) : List K :=
  let xx := x 0
  let yy := x 1
  let zz := x 2
  let rationalTerm := if 1 - zz ≠ 0 then xx * yy * zz / (1 - zz) else xx * yy * zz
  [(1 / 4) * ((1 + xx) * (1 + yy) - zz + rationalTerm),
   (1 / 4) * ((1 + xx) * (1 - yy) - zz - rationalTerm),
   (1 / 4) * ((1 - xx) * (1 - yy) - zz + rationalTerm),
   (1 / 4) * ((1 - xx) * (1 + yy) - zz - rationalTerm),
   zz]

/-- `nuto/mechanics/interpolation/InterpolationPyramidLinear.cpp` 80-114: `DerivativeShapeFunctions`, one row per node (`x`, `y`, `z` renamed to `xx`, `yy`, `zz`). -/
def pyramidLinearDeriv [DecidableEq K] (x : Nat → K) : List (List K) :=
  let xx := x 0
  let yy := x 1
  let zz := if 1 - x 2 = 0 then 1 - dblEpsilon else x 2
  [[(1 / 4) * (1 + yy / (1 - zz)), (1 / 4) * (1 + xx / (1 - zz)), (1 / 4) * (-1 + xx * yy / (1 - zz) / (1 - zz))],
   [(1 / 4) * (1 - yy / (1 - zz)), (1 / 4) * (-1 - xx / (1 - zz)), (1 / 4) * (-1 - xx * yy / (1 - zz) / (1 - zz))],
   [(1 / 4) * (-1 + yy / (1 - zz)), (1 / 4) * (-1 + xx / (1 - zz)), (1 / 4) * (-1 + xx * yy / (1 - zz) / (1 - zz))],
   [(1 / 4) * (-1 - yy / (1 - zz)), (1 / 4) * (1 - xx / (1 - zz)), (1 / 4) * (-1 - xx * yy / (1 - zz) / (1 - zz))],
   [0, 0, 1]]

/-- `nuto/mechanics/interpolation/InterpolationPyramidLinear.cpp` 27: `GetNumNodes`, with the functions above. -/
def pyramidLinear [DecidableEq K] : Interpolation K := ⟨3, 5, pyramidLinearCoords, pyramidLinearShape, pyramidLinearDeriv⟩

end Interpolation

end NuTo
