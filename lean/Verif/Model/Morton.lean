/-
`nuto/math/MortonOrder.h`: Morton codes.  `uint32_t` is `BitVec 32`; `int32_t` is an integer, overflow
of signed arithmetic is undefined.
-/
import Verif.Model.Basic

namespace NuTo.Morton

abbrev U32 := BitVec 32

/-- `nuto/math/MortonOrder.h` 20-28: `Part1By1` -/
def part1By1 (x : U32) : U32 :=
  let x := x &&& 0x0000ffff#32
  let x := (x ^^^ (x <<< 8)) &&& 0x00ff00ff#32
  let x := (x ^^^ (x <<< 4)) &&& 0x0f0f0f0f#32
  let x := (x ^^^ (x <<< 2)) &&& 0x33333333#32
  let x := (x ^^^ (x <<< 1)) &&& 0x55555555#32
  x

/-- `nuto/math/MortonOrder.h` 31-39: `Part1By2` -/
def part1By2 (x : U32) : U32 :=
  let x := x &&& 0x000003ff#32
  let x := (x ^^^ (x <<< 16)) &&& 0xff0000ff#32
  let x := (x ^^^ (x <<< 8)) &&& 0x0300f00f#32
  let x := (x ^^^ (x <<< 4)) &&& 0x030c30c3#32
  let x := (x ^^^ (x <<< 2)) &&& 0x09249249#32
  x

/-- `nuto/math/MortonOrder.h` 41-49: `Compact1By1` -/
def compact1By1 (x : U32) : U32 :=
  let x := x &&& 0x55555555#32
  let x := (x ^^^ (x >>> 1)) &&& 0x33333333#32
  let x := (x ^^^ (x >>> 2)) &&& 0x0f0f0f0f#32
  let x := (x ^^^ (x >>> 4)) &&& 0x00ff00ff#32
  let x := (x ^^^ (x >>> 8)) &&& 0x0000ffff#32
  x

/-- `nuto/math/MortonOrder.h` 52-60: `Compact1By2` -/
def compact1By2 (x : U32) : U32 :=
  let x := x &&& 0x09249249#32
  let x := (x ^^^ (x >>> 2)) &&& 0x030c30c3#32
  let x := (x ^^^ (x >>> 4)) &&& 0x0300f00f#32
  let x := (x ^^^ (x >>> 8)) &&& 0xff0000ff#32
  let x := (x ^^^ (x >>> 16)) &&& 0x000003ff#32
  x

/-- `nuto/math/MortonOrder.h` 14-17: `EncodeMorton3D` -/
def encode3D (x y z : U32) : U32 := (part1By2 z <<< 2) + (part1By2 y <<< 1) + part1By2 x

/-- `nuto/math/MortonOrder.h` 62-65: `DecodeMorton2X` -/
def decode2X (code : U32) : U32 := compact1By1 (code >>> 0)

/-- `nuto/math/MortonOrder.h` 67-70: `DecodeMorton2Y` -/
def decode2Y (code : U32) : U32 := compact1By1 (code >>> 1)

/-- `nuto/math/MortonOrder.h` 72-75: `DecodeMorton3X` -/
def decode3X (code : U32) : U32 := compact1By2 (code >>> 0)

/-- `nuto/math/MortonOrder.h` 77-80: `DecodeMorton3Y` -/
def decode3Y (code : U32) : U32 := compact1By2 (code >>> 1)

/-- `nuto/math/MortonOrder.h` 82-85: `DecodeMorton3Z` -/
def decode3Z (code : U32) : U32 := compact1By2 (code >>> 2)

/-- `nuto/math/MortonOrder.h` 87-94: `Neighbor3D`; unsigned sums wrap. -/
def neighbor3D (key dx dy dz : U32) : U32 :=
  encode3D (decode3X key + dx) (decode3Y key + dy) (decode3Z key + dz)

/-- A sum of two `int32_t`. -/
def addInt32 (a b : Int) : Res Int :=
  if -2 ^ 31 ≤ a + b ∧ a + b < 2 ^ 31 then .ok (a + b) else .ub

/-- `nuto/math/MortonOrder.h` 97-107: `NegNeighbor3D`; the arguments are `int32_t`, the sums are evaluated
from left to right until one is negative. -/
def negNeighbor3D (key : U32) (dx dy dz : Int) : Res U32 :=
  (addInt32 (decode3X key).toNat dx).bind fun x =>
    if x < 0 then .ok 0xffffffff#32
    else
      (addInt32 (decode3Y key).toNat dy).bind fun y =>
        if y < 0 then .ok 0xffffffff#32
        else
          (addInt32 (decode3Z key).toNat dz).bind fun z =>
            if z < 0 then .ok 0xffffffff#32
            else .ok (encode3D (BitVec.ofInt 32 x) (BitVec.ofInt 32 y) (BitVec.ofInt 32 z))

end NuTo.Morton
