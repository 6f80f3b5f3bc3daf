import Verif.Model.EigenIO
import Verif.Lemmas.MatrixAssembler
import Mathlib.Tactic.IntervalCases
import Mathlib.Tactic.FieldSimp
import Mathlib.Tactic.Linarith
import Mathlib.Tactic.Positivity
import Mathlib.Tactic.Ring

/-!
C87: matrices written to a file and read back.
-/
namespace NuTo
namespace EigenIO

/-! ### digits -/

theorem digit_facts (n : Nat) : (digit n).isDigit = true ∧ digitVal (digit n) = n % 10 ∧ space (digit n) = false ∧
    digit n ≠ '-' ∧ digit n ≠ '+' ∧ digit n ≠ '.' := by
  have h : n % 10 < 10 := Nat.mod_lt _ (by norm_num)
  unfold digit digitVal
  generalize n % 10 = r at h
  interval_cases r <;> decide

theorem digits_length (k m : Nat) : (digits k m).length = k := by
  induction k generalizing m with
  | zero => rfl
  | succ k ih => simp [digits, ih]

theorem digits_isDigit (k m : Nat) : ∀ c ∈ digits k m, c.isDigit = true := by
  induction k generalizing m with
  | zero => simp [digits]
  | succ k ih =>
    intro c hc
    simp only [digits, List.mem_append, List.mem_singleton] at hc
    rcases hc with hc | rfl
    · exact ih _ c hc
    · exact (digit_facts m).1

theorem digits_noSpace (k m : Nat) : ∀ c ∈ digits k m, space c = false := by
  induction k generalizing m with
  | zero => simp [digits]
  | succ k ih =>
    intro c hc
    simp only [digits, List.mem_append, List.mem_singleton] at hc
    rcases hc with hc | rfl
    · exact ih _ c hc
    · exact (digit_facts m).2.2.1

theorem number_from (b : List Char) : ∀ n : Nat, b.foldl (fun n c => 10 * n + digitVal c) n = n * 10 ^ b.length + number b := by
  induction b with
  | nil => intro n; simp [number]
  | cons c b ih =>
    intro n
    unfold number
    rw [List.foldl_cons, ih, List.foldl_cons, ih (10 * 0 + digitVal c)]
    rw [List.length_cons, pow_succ]
    ring

theorem number_append (a b : List Char) : number (a ++ b) = number a * 10 ^ b.length + number b := by
  unfold number
  rw [List.foldl_append, number_from]
  rfl

theorem number_digits (k m : Nat) : number (digits k m) = m % 10 ^ k := by
  induction k generalizing m with
  | zero => simp [digits, number, Nat.mod_one]
  | succ k ih =>
    simp only [digits]
    rw [number_append, ih]
    have : number [digit m] = m % 10 := by simp [number, (digit_facts m).2.1]
    rw [this, pow_succ', Nat.mod_mul]
    simp only [List.length_singleton, pow_one]
    ring

theorem span_digits (l r : List Char) (c : Char) (hl : ∀ x ∈ l, x.isDigit = true) (hc : c.isDigit = false) :
    (l ++ c :: r).span Char.isDigit = (l, c :: r) := by
  rw [List.span_eq_takeWhile_dropWhile]
  rw [List.takeWhile_append_of_pos (by simpa using hl), List.dropWhile_append_of_pos (by simpa using hl)]
  simp [hc]

theorem exponent_digits (e : Int) : number (digits (max 2 (Nat.log 10 e.natAbs + 1)) e.natAbs) = e.natAbs := by
  rw [number_digits]
  apply Nat.mod_eq_of_lt
  calc e.natAbs < 10 ^ (Nat.log 10 e.natAbs + 1) := Nat.lt_pow_succ_log_self (by norm_num) _
    _ ≤ _ := Nat.pow_le_pow_right (by norm_num) (le_max_right _ _)

theorem takeSign_digit (n : Nat) (r : List Char) : takeSign (digit n :: r) = (false, digit n :: r) := by
  obtain ⟨_, _, _, h1, h2, _⟩ := digit_facts n
  unfold takeSign
  split
  · next h => simp at h; exact absurd h.1 h1
  · next h => simp at h; exact absurd h.1 h2
  · rfl

theorem takeExponent_ok (e : Int) : takeExponent ('e' :: exponent e) = some e := by
  unfold takeExponent exponent
  set l := digits (max 2 (Nat.log 10 e.natAbs + 1)) e.natAbs with hl
  have htw : l.takeWhile Char.isDigit = l := by
    have := List.takeWhile_append_of_pos (p := Char.isDigit) (l₁ := l) (l₂ := []) (fun c hc => digits_isDigit _ _ c hc)
    simpa using this
  have hne : l ≠ [] := by
    intro h
    have h2 := digits_length (max 2 (Nat.log 10 e.natAbs + 1)) e.natAbs
    rw [← hl, h] at h2
    have := le_max_left 2 (Nat.log 10 e.natAbs + 1)
    simp only [List.length_nil] at h2
    omega
  by_cases he : e < 0
  · have hs : takeSign ('-' :: l) = (true, l) := rfl
    simp only [if_pos he, hs, htw, if_neg hne]
    rw [hl, exponent_digits]
    simp only [if_true, Option.some.injEq]; omega
  · have hs : takeSign ('+' :: l) = (false, l) := rfl
    simp only [if_neg he, hs, htw, if_neg hne]
    rw [hl, exponent_digits]
    simp; omega

/-- the value of the text of a mantissa and an exponent -/
theorem parse_unsigned (neg : Bool) (e : Int) (m : Nat) (hm : m < 10 ^ 13) :
    parse ((if neg then ['-'] else []) ++ unsigned (e, m)) =
      (if neg then -1 else 1) * ((m : ℚ) * 10 ^ (e - 12)) := by
  have h1 : takeSign ((if neg then ['-'] else []) ++ unsigned (e, m)) = (neg, unsigned (e, m)) := by
    cases neg with
    | true => rfl
    | false => exact takeSign_digit _ _
  have h2 : (unsigned (e, m)).span Char.isDigit =
      (digits 1 (m / 10 ^ 12), '.' :: digits 12 m ++ 'e' :: exponent e) := by
    unfold unsigned
    simp only [List.append_assoc, List.cons_append]
    exact span_digits _ _ _ (digits_isDigit _ _) (by decide)
  have h3 : takeFraction ('.' :: digits 12 m ++ 'e' :: exponent e) = (digits 12 m, 'e' :: exponent e) := by
    unfold takeFraction
    exact span_digits _ _ _ (digits_isDigit _ _) (by decide)
  have h4 : digits 1 (m / 10 ^ 12) ++ digits 12 m ≠ [] := by
    intro h
    have := congrArg List.length h
    rw [List.length_append, digits_length, digits_length] at this
    simp at this
  have h5 : number (digits 1 (m / 10 ^ 12) ++ digits 12 m) = m := by
    rw [number_append, number_digits, number_digits, digits_length]
    have : m / 10 ^ 12 < 10 ^ 1 := by
      rw [Nat.div_lt_iff_lt_mul (by norm_num)]; omega
    rw [Nat.mod_eq_of_lt this]
    exact Nat.div_add_mod' m (10 ^ 12)
  unfold parse
  rw [h1]; simp only
  rw [h2]; simp only
  rw [h3]; simp only
  rw [if_neg h4, takeExponent_ok]; simp only
  rw [h5, digits_length]
  cases neg <;> simp

/-! ### rounding -/

theorem roundEven_err (q : ℚ) : |(roundEven q : ℚ) - q| ≤ 1 / 2 := by
  have h0 := Int.floor_le q
  have h1 := Int.lt_floor_add_one q
  unfold roundEven
  simp only
  split_ifs with a b c <;> rw [abs_le] <;> constructor <;> push_cast <;> linarith

theorem roundEven_int (n : Int) : roundEven n = n := by
  unfold roundEven
  simp

theorem roundEven_mono_le {q : ℚ} {n : Int} (h : (n : ℚ) ≤ q) : n ≤ roundEven q := by
  have h1 : n ≤ ⌊q⌋ := Int.le_floor.mpr h
  unfold roundEven
  simp only
  split_ifs <;> omega

theorem roundEven_mono_ge {q : ℚ} {n : Int} (h : q < n) : roundEven q ≤ n := by
  have h1 : ⌊q⌋ < n := Int.floor_lt.mpr h
  unfold roundEven
  simp only
  split_ifs <;> omega

/-- value of a rounded positive number -/
def sciVal (x : ℚ) : ℚ := ((sci x).2 : ℚ) * 10 ^ ((sci x).1 - 12)

theorem log_bounds {x : ℚ} (hx : 0 < x) : (10 : ℚ) ^ (Int.log 10 x) ≤ x ∧ x < (10 : ℚ) ^ (Int.log 10 x + 1) := by
  refine ⟨?_, ?_⟩
  · have := Int.zpow_log_le_self (b := 10) (by norm_num) hx
    exact_mod_cast this
  · have := Int.lt_zpow_succ_log_self (b := 10) (by norm_num) x
    exact_mod_cast this

theorem sci_facts {x : ℚ} (hx : 0 < x) : (sci x).2 < 10 ^ 13 ∧ 10 ^ 12 ≤ (sci x).2 ∧
    sciVal x = (roundEven (x * 10 ^ (12 - Int.log 10 x)) : ℚ) * 10 ^ (Int.log 10 x - 12) := by
  obtain ⟨hb1, hb2⟩ := log_bounds hx
  set e := Int.log 10 x with he
  have h10 : (0 : ℚ) < 10 ^ (12 - e) := zpow_pos (by norm_num) _
  have l1 : ((10 ^ 12 : Int) : ℚ) ≤ x * 10 ^ (12 - e) := by
    have : (10 : ℚ) ^ e * 10 ^ (12 - e) ≤ x * 10 ^ (12 - e) := mul_le_mul_of_nonneg_right hb1 h10.le
    rw [← zpow_add₀ (by norm_num), show e + (12 - e) = 12 by ring] at this
    exact_mod_cast this
  have l2 : x * 10 ^ (12 - e) < ((10 ^ 13 : Int) : ℚ) := by
    have : x * 10 ^ (12 - e) < (10 : ℚ) ^ (e + 1) * 10 ^ (12 - e) := mul_lt_mul_of_pos_right hb2 h10
    rw [← zpow_add₀ (by norm_num), show e + 1 + (12 - e) = 13 by ring] at this
    exact_mod_cast this
  have r1 := roundEven_mono_le l1
  have r2 := roundEven_mono_ge l2
  set R := roundEven (x * 10 ^ (12 - e)) with hR
  have hcast : ((R.toNat : Nat) : ℚ) = (R : ℚ) := by
    have : ((R.toNat : Nat) : Int) = R := Int.toNat_of_nonneg (by omega)
    exact_mod_cast this
  unfold sciVal sci
  simp only [← he, ← hR]
  by_cases hc : R.toNat = 10 ^ 13
  · rw [if_pos hc]
    refine ⟨by norm_num, by norm_num, ?_⟩
    rw [← hcast, hc]
    simp only
    rw [show e + 1 - 12 = 1 + (e - 12) by ring, zpow_add₀ (by norm_num)]
    push_cast
    ring
  · rw [if_neg hc]
    refine ⟨by omega, by omega, ?_⟩
    simp only
    rw [hcast]

theorem sciVal_err {x : ℚ} (hx : 0 < x) : |sciVal x - x| ≤ x / (2 * 10 ^ 12) := by
  obtain ⟨_, _, h⟩ := sci_facts hx
  obtain ⟨hb1, _⟩ := log_bounds hx
  set e := Int.log 10 x with he
  have hp : (0 : ℚ) < 10 ^ (e - 12) := zpow_pos (by norm_num) _
  have hx' : x = x * 10 ^ (12 - e) * 10 ^ (e - 12) := by
    rw [mul_assoc, ← zpow_add₀ (by norm_num)]; simp
  rw [h]
  have : (roundEven (x * 10 ^ (12 - e)) : ℚ) * 10 ^ (e - 12) - x =
      ((roundEven (x * 10 ^ (12 - e)) : ℚ) - x * 10 ^ (12 - e)) * 10 ^ (e - 12) := by
    rw [sub_mul, ← hx']
  rw [this, abs_mul, abs_of_pos hp]
  calc _ ≤ 1 / 2 * (10 : ℚ) ^ (e - 12) := mul_le_mul_of_nonneg_right (roundEven_err _) hp.le
    _ = 10 ^ e / (2 * 10 ^ 12) := by
      rw [zpow_sub₀ (by norm_num)]; norm_num; ring
    _ ≤ _ := by
      apply div_le_div_of_nonneg_right hb1; positivity

/-- numbers with 13 significant digits are not changed -/
theorem sciVal_exact (k : Nat) (j : Int) (hk0 : 0 < k) (hk : k < 10 ^ 13) : sciVal ((k : ℚ) * 10 ^ j) = (k : ℚ) * 10 ^ j := by
  have hk' : (0 : ℚ) < k := by exact_mod_cast hk0
  have hx : (0 : ℚ) < (k : ℚ) * 10 ^ j := mul_pos hk' (zpow_pos (by norm_num) _)
  obtain ⟨_, _, h⟩ := sci_facts hx
  obtain ⟨hb1, _⟩ := log_bounds hx
  set e := Int.log 10 ((k : ℚ) * 10 ^ j) with he
  have hlt : (10 : ℚ) ^ e < 10 ^ (13 + j) := by
    refine lt_of_le_of_lt hb1 ?_
    rw [zpow_add₀ (by norm_num)]
    apply mul_lt_mul_of_pos_right _ (zpow_pos (by norm_num) _)
    exact_mod_cast hk
  have hej : e < 13 + j := (zpow_lt_zpow_iff_right₀ (by norm_num)).mp hlt
  have hint : (k : ℚ) * 10 ^ j * 10 ^ (12 - e) = (((k : Int) * 10 ^ (j + 12 - e).toNat : Int) : ℚ) := by
    rw [mul_assoc, ← zpow_add₀ (by norm_num)]
    push_cast
    rw [← zpow_natCast (10 : ℚ), Int.toNat_of_nonneg (by omega)]
    congr 2; ring
  rw [h, hint, roundEven_int, ← hint, mul_assoc, mul_assoc, ← zpow_add₀ (by norm_num)]
  simp

/-- the number read back -/
def rounded (x : ℚ) : ℚ := if x = 0 then 0 else if x < 0 then -sciVal (-x) else sciVal x

theorem parse_format (x : ℚ) : parse (format x) = rounded x := by
  unfold format rounded
  by_cases h0 : x = 0
  · rw [if_pos h0, if_pos h0]
    have := parse_unsigned false 0 0 (by norm_num)
    simpa using this
  rw [if_neg h0, if_neg h0]
  by_cases h1 : x < 0
  · rw [if_pos h1, if_pos h1]
    have := parse_unsigned true (sci (-x)).1 (sci (-x)).2 (sci_facts (by linarith)).1
    simpa [sciVal] using this
  · rw [if_neg h1, if_neg h1]
    have := parse_unsigned false (sci x).1 (sci x).2 (sci_facts (lt_of_le_of_ne (not_lt.mp h1) (Ne.symm h0))).1
    simpa [sciVal] using this

theorem rounded_err (x : ℚ) : |rounded x - x| ≤ |x| / (2 * 10 ^ 12) := by
  unfold rounded
  by_cases h0 : x = 0
  · simp [h0]
  rw [if_neg h0]
  by_cases h1 : x < 0
  · rw [if_pos h1, abs_of_neg h1]
    have := sciVal_err (x := -x) (by linarith)
    rw [show -sciVal (-x) - x = -(sciVal (-x) - -x) by ring, abs_neg]
    exact this
  · have hx : 0 < x := lt_of_le_of_ne (not_lt.mp h1) (Ne.symm h0)
    rw [if_neg h1, abs_of_pos hx]
    exact sciVal_err hx

theorem rounded_exact (k : Int) (j : Int) (hk : |k| < 10 ^ 13) : rounded ((k : ℚ) * 10 ^ j) = (k : ℚ) * 10 ^ j := by
  have hp : (0 : ℚ) < 10 ^ j := zpow_pos (by norm_num) _
  unfold rounded
  by_cases h0 : (k : ℚ) * 10 ^ j = 0
  · rw [if_pos h0, h0]
  rw [if_neg h0]
  have hk0 : k ≠ 0 := by rintro rfl; simp at h0
  have hn : ((k.natAbs : Nat) : ℚ) = |(k : ℚ)| := by
    rw [← Int.cast_abs, Int.abs_eq_natAbs]; simp
  have hlt : k.natAbs < 10 ^ 13 := by
    rw [Int.abs_eq_natAbs] at hk; exact_mod_cast hk
  have hpos : 0 < k.natAbs := Int.natAbs_pos.mpr hk0
  have hex := sciVal_exact k.natAbs j hpos hlt
  rw [hn] at hex
  by_cases h1 : (k : ℚ) * 10 ^ j < 0
  · have hkneg : (k : ℚ) < 0 := by
      by_contra h; exact absurd (mul_nonneg (not_lt.mp h) hp.le) (not_le.mpr h1)
    rw [if_pos h1]
    rw [abs_of_neg hkneg] at hex
    rw [show -((k : ℚ) * 10 ^ j) = -(k : ℚ) * 10 ^ j by ring, hex]; ring
  · have hkpos : 0 ≤ (k : ℚ) := by
      by_contra h
      exact h1 (mul_neg_of_neg_of_pos (not_le.mp h) hp)
    rw [if_neg h1]
    rw [abs_of_nonneg hkpos] at hex
    exact hex

/-- rounding twice is rounding once -/
theorem rounded_rounded (x : ℚ) : rounded (rounded x) = rounded x := by
  have key : ∀ y : ℚ, 0 < y → ∃ (k : Nat) (j : Int), k < 10 ^ 13 ∧ sciVal y = (k : ℚ) * 10 ^ j := fun y hy =>
    ⟨(sci y).2, (sci y).1 - 12, (sci_facts hy).1, rfl⟩
  by_cases h0 : x = 0
  · simp [rounded, h0]
  by_cases h1 : x < 0
  · obtain ⟨k, j, hk, e⟩ := key (-x) (by linarith)
    have : rounded x = ((-(k : Int) : Int) : ℚ) * 10 ^ j := by
      unfold rounded; rw [if_neg h0, if_pos h1, e]; push_cast; ring
    rw [this]
    exact rounded_exact _ _ (by rw [abs_neg]; simpa using (by exact_mod_cast hk : ((k : Int)) < 10 ^ 13))
  · obtain ⟨k, j, hk, e⟩ := key x (lt_of_le_of_ne (not_lt.mp h1) (Ne.symm h0))
    have : rounded x = (((k : Int) : Int) : ℚ) * 10 ^ j := by
      unfold rounded; rw [if_neg h0, if_neg h1, e]; push_cast; ring
    rw [this]
    exact rounded_exact _ _ (by simpa using (by exact_mod_cast hk : ((k : Int)) < 10 ^ 13))

/-- the text of a rounded number is the text of the number -/
theorem sci_sciVal {x : ℚ} (hx : 0 < x) : 0 < sciVal x ∧ sci (sciVal x) = sci x := by
  obtain ⟨h1, h2, _⟩ := sci_facts hx
  set e := (sci x).1 with he
  set m := (sci x).2 with hm
  have hv : sciVal x = (m : ℚ) * 10 ^ (e - 12) := rfl
  have hp : (0 : ℚ) < 10 ^ (e - 12) := zpow_pos (by norm_num) _
  have hm1 : ((10 : ℚ) ^ (12 : Int)) ≤ m := by exact_mod_cast h2
  have hm2 : (m : ℚ) < (10 : ℚ) ^ (13 : Int) := by exact_mod_cast h1
  have hpos : 0 < sciVal x := by rw [hv]; exact mul_pos (lt_of_lt_of_le (by norm_num) hm1) hp
  have hlog : Int.log 10 (sciVal x) = e := by
    apply le_antisymm
    · have : sciVal x < (((10 : Nat)) : ℚ) ^ (e + 1) := by
        rw [hv]
        have := mul_lt_mul_of_pos_right hm2 hp
        rw [← zpow_add₀ (by norm_num), show (13 : Int) + (e - 12) = e + 1 by ring] at this
        exact_mod_cast this
      have := (Int.lt_zpow_iff_log_lt (by norm_num) hpos).mp this
      omega
    · apply (Int.zpow_le_iff_le_log (by norm_num) hpos).mp
      rw [hv]
      have := mul_le_mul_of_nonneg_right hm1 hp.le
      rw [← zpow_add₀ (by norm_num), show (12 : Int) + (e - 12) = e by ring] at this
      exact_mod_cast this
  refine ⟨hpos, ?_⟩
  have hr : roundEven (sciVal x * 10 ^ (12 - e)) = (m : Int) := by
    rw [hv, mul_assoc, ← zpow_add₀ (by norm_num)]
    simp only [sub_add_sub_cancel, sub_self, zpow_zero, mul_one]
    exact_mod_cast roundEven_int (m : Int)
  rw [sci, hlog]
  simp only [hr, Int.toNat_natCast]
  rw [if_neg (by omega)]

theorem format_rounded (x : ℚ) : format (rounded x) = format x := by
  by_cases h0 : x = 0
  · simp [rounded, h0]
  by_cases h1 : x < 0
  · obtain ⟨k1, k2⟩ := sci_sciVal (x := -x) (by linarith)
    have : rounded x = -sciVal (-x) := by unfold rounded; rw [if_neg h0, if_pos h1]
    rw [this]
    unfold format
    rw [if_neg (by linarith), if_pos (by linarith), if_neg h0, if_pos h1, neg_neg, k2]
  · obtain ⟨k1, k2⟩ := sci_sciVal (lt_of_le_of_ne (not_lt.mp h1) (Ne.symm h0))
    have : rounded x = sciVal x := by unfold rounded; rw [if_neg h0, if_neg h1]
    rw [this]
    unfold format
    rw [if_neg (by linarith), if_neg (by linarith), if_neg h0, if_neg h1, k2]

/-! ### words and lines -/

theorem unsigned_noSpace (p : Int × Nat) : ∀ c ∈ unsigned p, space c = false := by
  intro c hc
  simp only [unsigned, exponent, List.mem_append, List.mem_cons, List.append_assoc, List.cons_append] at hc
  rcases hc with h | rfl | h | rfl | h | h
  · exact digits_noSpace _ _ c h
  · decide
  · exact digits_noSpace _ _ c h
  · decide
  · rw [h]; split <;> decide
  · exact digits_noSpace _ _ c h

theorem format_noSpace (x : ℚ) : (∀ c ∈ format x, space c = false) ∧ format x ≠ [] := by
  have hne : ∀ p, unsigned p ≠ [] := by
    intro p h; simp [unsigned] at h
  unfold format
  split_ifs
  · exact ⟨unsigned_noSpace _, hne _⟩
  · refine ⟨?_, by simp⟩
    intro c hc
    simp only [List.mem_cons] at hc
    rcases hc with rfl | hc
    · decide
    · exact unsigned_noSpace _ c hc
  · exact ⟨unsigned_noSpace _, hne _⟩

theorem wordsGo_word (w : List Char) (hw : ∀ c ∈ w, space c = false) : ∀ (r cur : List Char),
    wordsGo (w ++ r) cur = wordsGo r (cur ++ w) := by
  induction w with
  | nil => intro r cur; simp
  | cons c w ih =>
    intro r cur
    have hc := hw c (by simp)
    rw [List.cons_append, wordsGo, if_neg (by simp [hc]), ih (fun d hd => hw d (by simp [hd]))]
    simp

theorem wordsGo_spaces (d : List Char) (hd : ∀ c ∈ d, space c = true) : ∀ (r : List Char), wordsGo (d ++ r) [] = wordsGo r [] := by
  induction d with
  | nil => intro r; rfl
  | cons c d ih =>
    intro r
    rw [List.cons_append, wordsGo, if_pos (hd c (by simp)), if_pos rfl, ih (fun e he => hd e (by simp [he]))]

/-- a word followed by white space -/
theorem words_word (w d r : List Char) (hw : ∀ c ∈ w, space c = false) (hne : w ≠ []) (hd : ∀ c ∈ d, space c = true)
    (hdn : d ≠ []) : words (w ++ d ++ r) = w :: words r := by
  unfold words
  rw [List.append_assoc, wordsGo_word w hw, List.nil_append]
  cases d with
  | nil => exact absurd rfl hdn
  | cons c d =>
    rw [List.cons_append, wordsGo, if_pos (hd c (by simp)), if_neg hne, wordsGo_spaces d (fun e he => hd e (by simp [he]))]

theorem words_last (w : List Char) (hw : ∀ c ∈ w, space c = false) (hne : w ≠ []) : words w = [w] := by
  unfold words
  have := wordsGo_word w hw [] []
  rw [List.append_nil] at this
  rw [this]
  simp [wordsGo, hne]

/-- delimiters made of blanks and tabs -/
def Blank (d : List Char) : Prop := d ≠ [] ∧ ∀ c ∈ d, c = ' ' ∨ c = '\t'

theorem Blank.space {d : List Char} (h : Blank d) : ∀ c ∈ d, space c = true := by
  intro c hc
  rcases h.2 c hc with rfl | rfl <;> decide

theorem words_line (d : List Char) (hd : Blank d) (r : List ℚ) : words (line d r) = r.map format := by
  induction r with
  | nil => rfl
  | cons x r ih =>
    cases r with
    | nil => exact words_last _ (format_noSpace x).1 (format_noSpace x).2
    | cons y r =>
      rw [line, words_word _ _ _ (format_noSpace x).1 (format_noSpace x).2 hd.space hd.1, ih]
      rfl

theorem line_noNewline (d : List Char) (hd : Blank d) (r : List ℚ) : ∀ c ∈ line d r, c ≠ '\n' := by
  have hf : ∀ x, ∀ c ∈ format x, c ≠ '\n' := by
    intro x c hc h
    have := (format_noSpace x).1 c hc
    rw [h] at this; exact absurd this (by decide)
  induction r with
  | nil => simp [line]
  | cons x r ih =>
    cases r with
    | nil => exact hf x
    | cons y r =>
      intro c hc
      rw [line] at hc
      simp only [List.mem_append] at hc
      rcases hc with (h | h) | h
      · exact hf x c h
      · rcases hd.2 c h with rfl | rfl <;> decide
      · exact ih c h

theorem linesGo_line (l : List Char) (hl : ∀ c ∈ l, c ≠ '\n') : ∀ (r cur : List Char),
    linesGo (l ++ r) cur = linesGo r (cur ++ l) := by
  induction l with
  | nil => intro r cur; simp
  | cons c l ih =>
    intro r cur
    rw [List.cons_append, linesGo, if_neg (hl c (by simp)), ih (fun d hd => hl d (by simp [hd]))]
    simp

theorem lines_cons (l r : List Char) (hl : ∀ c ∈ l, c ≠ '\n') : lines (l ++ '\n' :: r) = l :: lines r := by
  unfold lines
  rw [linesGo_line l hl, linesGo, if_pos rfl]
  simp

theorem lines_last (l : List Char) (hl : ∀ c ∈ l, c ≠ '\n') (hne : l ≠ []) : lines l = [l] := by
  unfold lines
  have := linesGo_line l hl [] []
  rw [List.append_nil] at this
  rw [this]
  simp [linesGo, hne]

theorem lines_write (d : List Char) (hd : Blank d) (m : List (List ℚ)) (hm : ∀ r ∈ m, r ≠ []) :
    lines (writeFile d m) = m.map (line d) := by
  have hne : ∀ r : List ℚ, r ≠ [] → line d r ≠ [] := by
    intro r hr h
    have := words_line d hd r
    rw [h] at this
    simp [words, wordsGo] at this
    exact hr this
  induction m with
  | nil => rfl
  | cons r m ih =>
    cases m with
    | nil =>
      rw [writeFile, lines_last _ (line_noNewline d hd r) (hne r (hm r (by simp)))]
      rfl
    | cons s m =>
      rw [writeFile, lines_cons _ _ (line_noNewline d hd r), ih (fun t ht => hm t (by simp [ht]))]
      rfl

theorem readLoop (cols : Nat) (ls : List (List Char)) (hl : ∀ l ∈ ls, (words l).length ≤ cols) : ∀ acc,
    Res.foldlM (fun (m : List (List (Option ℚ))) l => (readRow cols l).bind fun r => .ok (m ++ [r])) acc ls =
    .ok (acc ++ ls.map fun l => (stringToDoubles l).map some ++ List.replicate (cols - (words l).length) none) := by
  induction ls with
  | nil => intro acc; simp
  | cons l ls ih =>
    intro acc
    have h : (stringToDoubles l).length = (words l).length := by simp [stringToDoubles]
    have h1 : readRow cols l = .ok ((stringToDoubles l).map some ++ List.replicate (cols - (words l).length) none) := by
      unfold readRow Res.require
      simp only [h]
      rw [if_pos (hl l (by simp))]
    rw [Res.foldlM_cons, h1]
    simp only [Res.bind_ok']
    rw [ih (fun k hk => hl k (by simp [hk]))]
    simp

/-- a matrix with `cols` columns -/
def IsMat (cols : Nat) (m : List (List ℚ)) : Prop := ∀ r ∈ m, r.length = cols

/-- C87: a matrix with at least one row and column that is written with blanks or tabs between the entries is read back with the
same shape; every entry is the written one rounded to 13 significant digits: the relative error is at most 5e-13, numbers with at
most 13 significant digits are not changed at all, and writing the result again gives the same file. -/
theorem C87_roundtrip (d : List Char) (hd : Blank d) (m : List (List ℚ)) (cols : Nat) (hm : IsMat cols m) (hc : 0 < cols)
    (hr : m ≠ []) :
    ∃ n : List (List ℚ), readFile (writeFile d m) = .ok ⟨m.length, cols, n.map (List.map some)⟩ ∧
      n.length = m.length ∧ IsMat cols n ∧
      (∀ (i j : Nat) (x : ℚ), (m[i]?.bind fun r => r[j]?) = some x → ∃ y, (n[i]?.bind fun r => r[j]?) = some y ∧
        |y - x| ≤ |x| / (2 * 10 ^ 12) ∧
        ∀ (k e : Int), |k| < 10 ^ 13 → x = (k : ℚ) * 10 ^ e → y = x) ∧
      writeFile d n = writeFile d m := by
  refine ⟨m.map (List.map rounded), ?_, by simp, ?_, ?_, ?_⟩
  · have hl := lines_write d hd m (fun r hrm h => by have := hm r hrm; rw [h] at this; simp at this; omega)
    have hstr : ∀ r : List ℚ, stringToDoubles (line d r) = r.map rounded := by
      intro r
      unfold stringToDoubles
      rw [words_line d hd, List.map_map]
      exact List.map_congr_left fun x _ => parse_format x
    unfold readFile
    simp only [hl]
    cases m with
    | nil => exact absurd rfl hr
    | cons r m =>
      have hcols : (stringToDoubles ((List.map (line d) (r :: m)).headD [])).length = cols := by
        simp only [List.map_cons, List.headD_cons]
        rw [hstr, List.length_map]; exact hm r (by simp)
      rw [hcols, readLoop cols _ (by
        intro l hl
        obtain ⟨s, hs, rfl⟩ := List.mem_map.mp hl
        rw [words_line d hd, List.length_map, hm s hs])]
      simp only [Res.bind_ok', List.nil_append, List.length_map, List.map_map]
      congr 2
      apply List.map_congr_left
      intro s hs
      simp only [Function.comp]
      rw [hstr, words_line d hd, List.length_map, hm s hs]
      simp
  · intro r hrm
    obtain ⟨s, hs, rfl⟩ := List.mem_map.mp hrm
    rw [List.length_map]; exact hm s hs
  · intro i j x hx
    refine ⟨rounded x, ?_, rounded_err x, ?_⟩
    · cases hi : m[i]? with
      | none => rw [hi] at hx; simp at hx
      | some r => rw [hi] at hx; simp at hx; simp [hi, hx]
    · rintro k e hk rfl
      exact rounded_exact k e hk
  · have hline : ∀ r : List ℚ, line d (r.map rounded) = line d r := by
      intro r
      induction r with
      | nil => rfl
      | cons x r ih =>
        cases r with
        | nil => exact format_rounded x
        | cons y r =>
          simp only [List.map_cons, line] at ih ⊢
          rw [ih, format_rounded]
    clear hm hr
    induction m with
    | nil => rfl
    | cons r m ih =>
      cases m with
      | nil => exact hline r
      | cons s m =>
        simp only [List.map_cons, writeFile] at ih ⊢
        rw [ih, hline]

/-- C87: what is read from an arbitrary file: one row per line, as many columns as the first line has words, one entry per word;
missing entries stay uninitialised.  A line with more words than the first one is written out of range. -/
theorem C87_read (f : List Char) :
    (∀ l ∈ lines f, (words l).length ≤ (words ((lines f).headD [])).length) ∧
      readFile f = .ok ⟨(lines f).length, (words ((lines f).headD [])).length, (lines f).map fun l =>
        (words l).map (fun w => some (parse w)) ++
          List.replicate ((words ((lines f).headD [])).length - (words l).length) none⟩ ∨
    (∃ l ∈ lines f, (words ((lines f).headD [])).length < (words l).length) ∧ readFile f = .ub := by
  have hlen : ∀ l, (stringToDoubles l).length = (words l).length := fun l => by simp [stringToDoubles]
  unfold readFile
  simp only [hlen]
  generalize (words ((lines f).headD [])).length = cols
  generalize lines f = ls
  by_cases h : ∀ l ∈ ls, (words l).length ≤ cols
  · left
    refine ⟨h, ?_⟩
    rw [readLoop cols ls h]
    simp [stringToDoubles, List.map_map, Function.comp_def]
  · right
    push Not at h
    refine ⟨h, ?_⟩
    have : ∀ acc, Res.foldlM (fun (m : List (List (Option ℚ))) l => (readRow cols l).bind fun r => .ok (m ++ [r])) acc ls =
        .ub := by
      clear f
      induction ls with
      | nil => obtain ⟨l, hl, _⟩ := h; simp at hl
      | cons a ls ih =>
        intro acc
        rw [Res.foldlM_cons]
        by_cases ha : (words a).length ≤ cols
        · have h1 : readRow cols a = .ok ((stringToDoubles a).map some ++ List.replicate (cols - (words a).length) none) := by
            unfold readRow Res.require
            simp only [hlen]
            rw [if_pos ha]
          rw [h1]
          simp only [Res.bind_ok']
          apply ih
          obtain ⟨l, hl, hlt⟩ := h
          simp only [List.mem_cons] at hl
          rcases hl with rfl | hl
          · omega
          · exact ⟨l, hl, hlt⟩
        · have h1 : readRow cols a = .ub := by
            unfold readRow Res.require
            simp only [hlen]
            rw [if_neg ha]
          rw [h1]; rfl
    rw [this]; rfl

/-- C87: a newline at the end of the last line makes no difference (result files are written line by line) -/
theorem C87_trailing_newline (f : List Char) (c : Char) (hc : c ≠ '\n') :
    readFile (f ++ [c] ++ ['\n']) = readFile (f ++ [c]) := by
  have : lines (f ++ [c] ++ ['\n']) = lines (f ++ [c]) := by
    have key : ∀ cur : List Char, linesGo (f ++ [c] ++ ['\n']) cur = linesGo (f ++ [c]) cur := by
      induction f with
      | nil => intro cur; simp [linesGo, hc]
      | cons a f ih =>
        intro cur
        simp only [List.cons_append, linesGo]
        split
        · rw [ih]
        · rw [ih]
    exact key []
  unfold readFile
  rw [this]

example : Blank [' '] ∧ IsMat 2 [[1, -2 / 3], [0, 4]] ∧
    readFile (writeFile [' '] [[1, -2 / 3], [0, 4]]) =
      .ok ⟨2, 2, [[some 1, some (-6666666666667 / 10000000000000)], [some 0, some 4]]⟩ := by
  refine ⟨⟨by simp, by simp⟩, by intro r hr; simp at hr; rcases hr with rfl | rfl <;> rfl, by decide +kernel⟩

/-- C87 is false for other delimiters: with a comma, all columns but the first are lost silently. -/
theorem C87_delimiter_counterexample :
    readFile (writeFile [','] [[1, 2], [3, 4]]) = .ok ⟨2, 1, [[some 1], [some 3]]⟩ := by decide +kernel

/-- C87 is false for matrices without entries: three rows without columns become two, columns without rows vanish. -/
theorem C87_empty_counterexample :
    readFile (writeFile [' '] [[], [], []]) = .ok ⟨2, 0, [[], []]⟩ ∧ readFile (writeFile [' '] []) = .ok ⟨0, 0, []⟩ := by
  decide +kernel

/-- the two ways a table can be irregular: a line that is too long is undefined, words that are no numbers count as 0 -/
example : readFile "1 2\n3 4 5".toList = .ub ∧ readFile "time force\n3 4".toList = .ok ⟨2, 2, [[some 0, some 0], [some 3, some 4]]⟩ ∧
    readFile "1 2\n3\n".toList = .ok ⟨2, 2, [[some 1, some 2], [some 3, none]]⟩ := by decide +kernel

end EigenIO
end NuTo
