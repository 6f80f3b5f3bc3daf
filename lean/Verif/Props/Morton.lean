/-
C43: Morton codes.
-/
import Verif.Model.Morton
import Mathlib.Tactic.IntervalCases

namespace NuTo.Morton

/-! ### Bits of the code -/

theorem part1By1_bit (x : U32) (i : Nat) (hi : i < 32) :
    (part1By1 x).getLsbD i = (decide (i % 2 = 0) && x.getLsbD (i / 2)) := by
  unfold part1By1
  interval_cases i <;> simp

theorem part1By2_bit (x : U32) (i : Nat) (hi : i < 32) :
    (part1By2 x).getLsbD i = (decide (i % 3 = 0 ∧ i < 30) && x.getLsbD (i / 3)) := by
  unfold part1By2
  interval_cases i <;> simp

theorem compact1By1_bit (x : U32) (i : Nat) (hi : i < 32) :
    (compact1By1 x).getLsbD i = (decide (i < 16) && x.getLsbD (2 * i)) := by
  unfold compact1By1
  interval_cases i <;> simp

theorem compact1By2_bit (x : U32) (i : Nat) (hi : i < 32) :
    (compact1By2 x).getLsbD i = (decide (i < 10) && x.getLsbD (3 * i)) := by
  unfold compact1By2
  interval_cases i <;> simp

/-- The summands of the code have no common bits, so the sum is their union. -/
theorem encode3D_bit (x y z : U32) (i : Nat) (hi : i < 32) :
    (encode3D x y z).getLsbD i = (decide (i < 30) &&
      (match i % 3 with
        | 0 => x.getLsbD (i / 3)
        | 1 => y.getLsbD (i / 3)
        | _ => z.getLsbD (i / 3))) := by
  have h1 : (part1By2 z <<< 2) &&& (part1By2 y <<< 1) = 0#32 := by
    apply BitVec.eq_of_getLsbD_eq
    intro j hj
    rw [BitVec.getLsbD_and, BitVec.getLsbD_shiftLeft, BitVec.getLsbD_shiftLeft, part1By2_bit _ _ (by omega),
      part1By2_bit _ _ (by omega), BitVec.getLsbD_zero]
    by_cases h : (j - 2) % 3 = 0 ∧ j - 2 < 30
    · by_cases h' : (j - 1) % 3 = 0 ∧ j - 1 < 30
      · have : j < 2 := by omega
        simp [this]
      · simp [h']
    · simp [h]
  have h2 : ((part1By2 z <<< 2) ||| (part1By2 y <<< 1)) &&& part1By2 x = 0#32 := by
    apply BitVec.eq_of_getLsbD_eq
    intro j hj
    rw [BitVec.getLsbD_and, BitVec.getLsbD_or, BitVec.getLsbD_shiftLeft, BitVec.getLsbD_shiftLeft,
      part1By2_bit _ _ (by omega), part1By2_bit _ _ (by omega), part1By2_bit _ _ hj, BitVec.getLsbD_zero]
    by_cases h : j % 3 = 0 ∧ j < 30
    · by_cases h1 : j < 1
      · have : j < 2 := by omega
        simp [h1, this]
      · have e1 : ¬ ((j - 1) % 3 = 0 ∧ j - 1 < 30) := by omega
        have e2 : ¬ ((j - 2) % 3 = 0 ∧ j - 2 < 30) := by omega
        simp [e1, e2]
    · simp [h]
  rw [encode3D, BitVec.add_eq_or_of_and_eq_zero _ _ h1, BitVec.add_eq_or_of_and_eq_zero _ _ h2, BitVec.getLsbD_or,
    BitVec.getLsbD_or, BitVec.getLsbD_shiftLeft, BitVec.getLsbD_shiftLeft, part1By2_bit _ _ (by omega),
    part1By2_bit _ _ (by omega), part1By2_bit _ _ hi]
  interval_cases i <;> simp

/-- A coordinate fits into ten bits. -/
theorem bit_of_lt {x : U32} {n : Nat} (h : x.toNat < 2 ^ n) (i : Nat) (hi : n ≤ i) : x.getLsbD i = false := by
  rw [← BitVec.testBit_toNat]
  exact Nat.testBit_lt_two_pow (lt_of_lt_of_le h (Nat.pow_le_pow_right (by omega) hi))

/-! ### Statements -/

/-- C43: decoding an encoded triple returns the ten low bits of the coordinates: for coordinates below
1024 the coordinates themselves. -/
theorem C43_decode_encode (x y z : U32) (hx : x.toNat < 1024) (hy : y.toNat < 1024) (hz : z.toNat < 1024) :
    decode3X (encode3D x y z) = x ∧ decode3Y (encode3D x y z) = y ∧ decode3Z (encode3D x y z) = z := by
  refine ⟨?_, ?_, ?_⟩ <;> apply BitVec.eq_of_getLsbD_eq <;> intro i hi
  · rw [decode3X, compact1By2_bit _ _ hi, BitVec.getLsbD_ushiftRight]
    by_cases h : i < 10
    · rw [encode3D_bit _ _ _ _ (by omega), show (0 + 3 * i) % 3 = 0 by omega, show (0 + 3 * i) / 3 = i by omega,
        decide_eq_true h, decide_eq_true (show 0 + 3 * i < 30 by omega)]
      simp
    · rw [decide_eq_false h, Bool.false_and, bit_of_lt (n := 10) hx i (by omega)]
  · rw [decode3Y, compact1By2_bit _ _ hi, BitVec.getLsbD_ushiftRight]
    by_cases h : i < 10
    · rw [encode3D_bit _ _ _ _ (by omega), show (1 + 3 * i) % 3 = 1 by omega, show (1 + 3 * i) / 3 = i by omega,
        decide_eq_true h, decide_eq_true (show 1 + 3 * i < 30 by omega)]
      simp
    · rw [decide_eq_false h, Bool.false_and, bit_of_lt (n := 10) hy i (by omega)]
  · rw [decode3Z, compact1By2_bit _ _ hi, BitVec.getLsbD_ushiftRight]
    by_cases h : i < 10
    · rw [encode3D_bit _ _ _ _ (by omega), show (2 + 3 * i) % 3 = 2 by omega, show (2 + 3 * i) / 3 = i by omega,
        decide_eq_true h, decide_eq_true (show 2 + 3 * i < 30 by omega)]
      simp
    · rw [decide_eq_false h, Bool.false_and, bit_of_lt (n := 10) hz i (by omega)]

/-- C43: different triples have different codes. -/
theorem C43_injective (x y z x' y' z' : U32) (hx : x.toNat < 1024) (hy : y.toNat < 1024) (hz : z.toNat < 1024)
    (hx' : x'.toNat < 1024) (hy' : y'.toNat < 1024) (hz' : z'.toNat < 1024)
    (h : encode3D x y z = encode3D x' y' z') : x = x' ∧ y = y' ∧ z = z' := by
  obtain ⟨a1, a2, a3⟩ := C43_decode_encode x y z hx hy hz
  obtain ⟨b1, b2, b3⟩ := C43_decode_encode x' y' z' hx' hy' hz'
  rw [h] at a1 a2 a3
  exact ⟨a1.symm.trans b1, a2.symm.trans b2, a3.symm.trans b3⟩

/-- C43: decoded coordinates are below 1024 and codes below 2^30. -/
theorem C43_range (x y z code : U32) : (decode3X code).toNat < 1024 ∧ (decode3Y code).toNat < 1024 ∧
    (decode3Z code).toNat < 1024 ∧ (encode3D x y z).toNat < 2 ^ 30 := by
  have h : ∀ c : U32, (compact1By2 c).toNat < 2 ^ 10 := by
    intro c
    apply Nat.lt_pow_two_of_testBit
    intro i hi
    rw [BitVec.testBit_toNat]
    by_cases h : i < 32
    · rw [compact1By2_bit _ _ h, decide_eq_false (by omega), Bool.false_and]
    · exact BitVec.getLsbD_of_ge _ _ (by omega)
  refine ⟨h _, h _, h _, ?_⟩
  apply Nat.lt_pow_two_of_testBit
  intro i hi
  rw [BitVec.testBit_toNat]
  by_cases h : i < 32
  · rw [encode3D_bit _ _ _ _ h, decide_eq_false (by omega), Bool.false_and]
  · exact BitVec.getLsbD_of_ge _ _ (by omega)

/-- C43: every code below 2^30 is the code of its decoded triple. -/
theorem C43_encode_decode (code : U32) (h : code.toNat < 2 ^ 30) :
    encode3D (decode3X code) (decode3Y code) (decode3Z code) = code := by
  apply BitVec.eq_of_getLsbD_eq
  intro i hi
  rw [encode3D_bit _ _ _ _ hi]
  by_cases h30 : i < 30
  · have h3 : i % 3 = 0 ∨ i % 3 = 1 ∨ i % 3 = 2 := by omega
    rw [decide_eq_true h30, Bool.true_and]
    rcases h3 with h3 | h3 | h3
    · rw [h3]
      rw [decode3X, compact1By2_bit _ _ (by omega), BitVec.getLsbD_ushiftRight, decide_eq_true (by omega),
        Bool.true_and, show 0 + 3 * (i / 3) = i by omega]; rfl
    · rw [h3]
      rw [decode3Y, compact1By2_bit _ _ (by omega), BitVec.getLsbD_ushiftRight, decide_eq_true (by omega),
        Bool.true_and, show 1 + 3 * (i / 3) = i by omega]; rfl
    · rw [h3]
      rw [decode3Z, compact1By2_bit _ _ (by omega), BitVec.getLsbD_ushiftRight, decide_eq_true (by omega),
        Bool.true_and, show 2 + 3 * (i / 3) = i by omega]; rfl
  · rw [decide_eq_false h30, Bool.false_and, bit_of_lt (n := 30) h i (by omega)]

/-- C43: encoding only uses the ten low bits of the coordinates. -/
theorem C43_low_bits (x y z : U32) : encode3D x y z = encode3D (x &&& 1023#32) (y &&& 1023#32) (z &&& 1023#32) := by
  apply BitVec.eq_of_getLsbD_eq
  intro i hi
  rw [encode3D_bit _ _ _ _ hi, encode3D_bit _ _ _ _ hi]
  by_cases h30 : i < 30
  · have hm : ∀ v : U32, (v &&& 1023#32).getLsbD (i / 3) = v.getLsbD (i / 3) := by
      intro v
      have : (1023#32).getLsbD (i / 3) = true := by
        have : i / 3 < 10 := by omega
        generalize i / 3 = k at this
        interval_cases k <;> decide
      rw [BitVec.getLsbD_and, this, Bool.and_true]
    rw [hm, hm, hm]
  · rw [decide_eq_false h30, Bool.false_and, Bool.false_and]

/-- C43: as long as the shifted coordinates stay below 1024, the neighbour's code decodes to them.
At the boundary of the grid the code wraps: see the counterexample. -/
theorem C43_neighbor_partial (key dx dy dz : U32) (hx : (decode3X key + dx).toNat < 1024)
    (hy : (decode3Y key + dy).toNat < 1024) (hz : (decode3Z key + dz).toNat < 1024) :
    decode3X (neighbor3D key dx dy dz) = decode3X key + dx ∧
    decode3Y (neighbor3D key dx dy dz) = decode3Y key + dy ∧
    decode3Z (neighbor3D key dx dy dz) = decode3Z key + dz :=
  C43_decode_encode _ _ _ hx hy hz

/-- C43: the neighbour of the last cell of a row in direction x is the first cell of that row. -/
theorem C43_neighbor_counterexample :
    neighbor3D (encode3D 1023#32 5#32 7#32) 1#32 0#32 0#32 = encode3D 0#32 5#32 7#32 := by decide

/-- C43: shifts by signed offsets: a negative coordinate yields the value `2^32 - 1`, which is no code;
otherwise, as long as the coordinates stay below 1024, the code decodes to the shifted coordinates. -/
theorem C43_negNeighbor_partial (key : U32) (dx dy dz : Int)
    (hx : -2 ^ 31 ≤ dx ∧ ((decode3X key).toNat : Int) + dx < 1024)
    (hy : -2 ^ 31 ≤ dy ∧ ((decode3Y key).toNat : Int) + dy < 1024)
    (hz : -2 ^ 31 ≤ dz ∧ ((decode3Z key).toNat : Int) + dz < 1024) :
    ((((decode3X key).toNat : Int) + dx < 0 ∨ ((decode3Y key).toNat : Int) + dy < 0 ∨
        ((decode3Z key).toNat : Int) + dz < 0) → negNeighbor3D key dx dy dz = .ok 0xffffffff#32) ∧
    (0 ≤ ((decode3X key).toNat : Int) + dx → 0 ≤ ((decode3Y key).toNat : Int) + dy →
      0 ≤ ((decode3Z key).toNat : Int) + dz →
      ∃ c, negNeighbor3D key dx dy dz = .ok c ∧ c.toNat < 2 ^ 30 ∧
        ((decode3X c).toNat : Int) = (decode3X key).toNat + dx ∧
        ((decode3Y c).toNat : Int) = (decode3Y key).toNat + dy ∧
        ((decode3Z c).toNat : Int) = (decode3Z key).toNat + dz) := by
  have add : ∀ (a : Nat) (b : Int), -2 ^ 31 ≤ b → (a : Int) + b < 1024 → addInt32 a b = .ok (a + b) := by
    intro a b h1 h2
    rw [addInt32, if_pos ⟨by omega, by omega⟩]
  rw [negNeighbor3D, add _ _ hx.1 hx.2, add _ _ hy.1 hy.2, add _ _ hz.1 hz.2]
  simp only [Res.bind_ok']
  generalize ((decode3X key).toNat : Int) + dx = X at *
  generalize ((decode3Y key).toNat : Int) + dy = Y at *
  generalize ((decode3Z key).toNat : Int) + dz = Z at *
  constructor
  · intro h
    by_cases h1 : X < 0
    · rw [if_pos h1]
    · rw [if_neg h1]
      by_cases h2 : Y < 0
      · rw [if_pos h2]
      · rw [if_neg h2, if_pos (by omega)]
  · intro h1 h2 h3
    rw [if_neg (by omega), if_neg (by omega), if_neg (by omega)]
    have conv : ∀ v : Int, 0 ≤ v → v < 1024 → (BitVec.ofInt 32 v).toNat < 1024 ∧ ((BitVec.ofInt 32 v).toNat : Int) = v := by
      intro v hv0 hv1
      rw [BitVec.toNat_ofInt]
      omega
    obtain ⟨x1, x2⟩ := conv X h1 hx.2
    obtain ⟨y1, y2⟩ := conv Y h2 hy.2
    obtain ⟨z1, z2⟩ := conv Z h3 hz.2
    obtain ⟨d1, d2, d3⟩ := C43_decode_encode _ _ _ x1 y1 z1
    exact ⟨_, rfl, (C43_range _ _ _ 0#32).2.2.2, by rw [d1, x2], by rw [d2, y2], by rw [d3, z2]⟩

/-- C43: in two dimensions, interleaving sixteen bit coordinates and decoding returns them. -/
theorem C43_decode2D (x y : U32) (hx : x.toNat < 2 ^ 16) (hy : y.toNat < 2 ^ 16) :
    decode2X ((part1By1 y <<< 1) ||| part1By1 x) = x ∧ decode2Y ((part1By1 y <<< 1) ||| part1By1 x) = y := by
  refine ⟨?_, ?_⟩ <;> apply BitVec.eq_of_getLsbD_eq <;> intro i hi
  · rw [decode2X, compact1By1_bit _ _ hi, BitVec.getLsbD_ushiftRight]
    by_cases h : i < 16
    · rw [BitVec.getLsbD_or, BitVec.getLsbD_shiftLeft, part1By1_bit _ _ (by omega), part1By1_bit _ _ (by omega),
        decide_eq_true h, show (0 + 2 * i) / 2 = i by omega]
      by_cases h0 : i = 0
      · subst h0; simp
      · rw [decide_eq_false (show ¬ (0 + 2 * i - 1) % 2 = 0 by omega)]
        simp
    · rw [decide_eq_false h, Bool.false_and, bit_of_lt (n := 16) hx i (by omega)]
  · rw [decode2Y, compact1By1_bit _ _ hi, BitVec.getLsbD_ushiftRight]
    by_cases h : i < 16
    · rw [BitVec.getLsbD_or, BitVec.getLsbD_shiftLeft, part1By1_bit _ _ (by omega), part1By1_bit _ _ (by omega),
        decide_eq_true h, show (1 + 2 * i - 1) / 2 = i by omega,
        decide_eq_false (show ¬ (1 + 2 * i) % 2 = 0 by omega),
        decide_eq_true (show (1 + 2 * i - 1) % 2 = 0 by omega), decide_eq_true (show 1 + 2 * i < 32 by omega),
        decide_eq_false (show ¬ 1 + 2 * i < 1 by omega)]
      simp
    · rw [decide_eq_false h, Bool.false_and, bit_of_lt (n := 16) hy i (by omega)]

/-- Codes of the order of magnitude of the bounds. -/
example : decode3Y (encode3D 1023#32 512#32 3#32) = 512#32 := by decide

end NuTo.Morton
