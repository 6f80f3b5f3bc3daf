/-
C44: serialised data is read back unchanged.
-/
import Verif.Model.Serialize
import Mathlib.Data.List.Basic
import Mathlib.Tactic.Ring

namespace NuTo.Serialize

/-- Specification: an object of the type fits its size; a matrix has as many entries as its size says. -/
def Item.Valid : Item → Prop
  | .prim t v => v < 256 ^ t.size
  | .matrix t rows cols data => data.length = rows * cols ∧ ∀ v ∈ data, v < 256 ^ t.size
  | .separator => True

/-- Specification: the object read into has the type and size of the item written. -/
def SameShape : Item → Item → Prop
  | .prim t _, .prim t' _ => t = t'
  | .matrix t r c _, .matrix t' r' c' _ => t = t' ∧ r = r' ∧ c = c'
  | .separator, .separator => True
  | _, _ => False

/-! ### Binary -/

theorem toBytes_length (n v : Nat) : (toBytes n v).length = n := by
  induction n generalizing v with
  | zero => rfl
  | succ n ih => rw [toBytes, List.length_cons, ih]

theorem fromBytes_toBytes (n v : Nat) (h : v < 256 ^ n) : fromBytes (toBytes n v) = v := by
  induction n generalizing v with
  | zero => rw [Nat.pow_zero] at h; rw [toBytes, fromBytes]; omega
  | succ n ih =>
    have h' : v / 256 < 256 ^ n := Nat.div_lt_of_lt_mul (by rw [Nat.pow_succ] at h; omega)
    rw [toBytes, fromBytes, ih _ h']
    exact Nat.mod_add_div v 256

theorem read_full (old new tail : List (Fin 256)) (h : old.length = new.length) :
    BinIn.read ⟨new ++ tail, true⟩ old = (new, ⟨tail, true⟩) := by
  rw [BinIn.read, if_pos rfl]
  have h1 : old.drop (new ++ tail).length = [] := by
    rw [List.drop_eq_nil_iff, List.length_append]; omega
  have h2 : decide (old.length ≤ (new ++ tail).length) = true := by
    rw [decide_eq_true_eq, List.length_append]; omega
  rw [h1, List.append_nil]
  dsimp only
  rw [h2, h, List.take_left, List.drop_left]

theorem flatMap_bytes_length (size : Nat) (data : List Nat) :
    (data.flatMap (toBytes size)).length = data.length * size := by
  induction data with
  | nil => simp
  | cons x t ih => rw [List.flatMap_cons, List.length_append, ih, toBytes_length, List.length_cons]; ring

theorem chunks_flatMap (size : Nat) (data : List Nat) (h : ∀ v ∈ data, v < 256 ^ size) :
    chunks size data.length (data.flatMap (toBytes size)) = data := by
  induction data with
  | nil => rfl
  | cons x t ih =>
    have hx : (toBytes size x ++ t.flatMap (toBytes size)).take size = toBytes size x := by
      rw [List.take_append_of_le_length (by rw [toBytes_length]), List.take_of_length_le (by rw [toBytes_length])]
    have hd : (toBytes size x ++ t.flatMap (toBytes size)).drop size = t.flatMap (toBytes size) := by
      have := List.drop_left (l₁ := toBytes size x) (l₂ := t.flatMap (toBytes size))
      rwa [toBytes_length] at this
    rw [List.flatMap_cons, List.length_cons, chunks, hx, hd,
      fromBytes_toBytes size x (h x List.mem_cons_self), ih fun v hv => h v (List.mem_cons_of_mem _ hv)]

theorem writeBin_read (item old : Item) (hne : item ≠ .separator) (hv : item.Valid) (hold : old.Valid)
    (hs : SameShape item old) : ∃ b, writeBin item = .ok b ∧ ∀ tail,
      readBin ⟨b ++ tail, true⟩ old = .ok (item, ⟨tail, true⟩) := by
  cases item with
  | prim t v =>
    cases old with
    | prim t' v' =>
      obtain rfl : t = t' := hs
      refine ⟨toBytes t.size v, rfl, fun tail => ?_⟩
      rw [readBin, read_full _ _ _ (by rw [toBytes_length, toBytes_length]), fromBytes_toBytes _ _ hv]
    | matrix => exact absurd hs id
    | separator => exact absurd hs id
  | matrix t r c data =>
    cases old with
    | matrix t' r' c' data' =>
      obtain ⟨rfl, rfl, rfl⟩ := hs
      refine ⟨data.flatMap (toBytes t.size), rfl, fun tail => ?_⟩
      have hlen : data'.length = data.length := by rw [hold.1, hv.1]
      rw [readBin, read_full _ _ _ (by rw [flatMap_bytes_length, flatMap_bytes_length, hlen])]
      dsimp only
      rw [← hv.1, chunks_flatMap _ _ hv.2]
    | prim => exact absurd hs id
    | separator => exact absurd hs id
  | separator => exact absurd rfl hne

/-- C44: binary files without separators: whatever is written is read back exactly, into any objects of
the same types and sizes, and the file is used up.  With separators see the counterexample. -/
theorem C44_binary_partial (items olds : List Item) (hne : ∀ i ∈ items, i ≠ .separator)
    (hv : ∀ i ∈ items, i.Valid) (hold : ∀ o ∈ olds, o.Valid) (hs : List.Forall₂ SameShape items olds) :
    ∃ file, writeAllBin items = .ok file ∧ readAllBin ⟨file, true⟩ olds = .ok (items, ⟨[], true⟩) := by
  have key : ∀ (items olds : List Item), List.Forall₂ SameShape items olds →
      (∀ i ∈ items, i ≠ .separator) → (∀ i ∈ items, i.Valid) → (∀ o ∈ olds, o.Valid) →
      ∃ file, (∀ pre, Res.foldlM (fun (file : List (Fin 256)) (i : Item) =>
        (writeBin i).bind fun b => .ok (file ++ b)) pre items = .ok (pre ++ file)) ∧
        readAllBin ⟨file, true⟩ olds = .ok (items, ⟨[], true⟩) := by
    intro items olds hs
    induction hs with
    | nil => intro _ _ _; exact ⟨[], fun pre => by simp, rfl⟩
    | @cons i o is os hio _ ih =>
      intro h1 h2 h3
      obtain ⟨b, hb, hr⟩ := writeBin_read i o (h1 i List.mem_cons_self) (h2 i List.mem_cons_self)
        (h3 o List.mem_cons_self) hio
      obtain ⟨file, hf, hf'⟩ := ih (fun j hj => h1 j (List.mem_cons_of_mem _ hj))
        (fun j hj => h2 j (List.mem_cons_of_mem _ hj)) (fun j hj => h3 j (List.mem_cons_of_mem _ hj))
      refine ⟨b ++ file, fun pre => ?_, ?_⟩
      · rw [Res.foldlM_cons, hb, Res.bind_ok', Res.bind_ok', hf, List.append_assoc]
      · rw [readAllBin, hr, Res.bind_ok', hf', Res.bind_ok']
  obtain ⟨file, h1, h2⟩ := key items olds hs hne hv hold
  exact ⟨file, (h1 []).trans (by rw [List.nil_append]), h2⟩

/-- C44: in binary mode writing and reading a separator are both undefined: `sizeof(SEPARATOR)` is the
size of a pointer. -/
theorem C44_binary_separator_counterexample (items : List Item) (s : BinIn) :
    writeAllBin (.separator :: items) = .ub ∧ readBin s .separator = .ub := ⟨rfl, rfl⟩

/-- C44: reading past the end of a binary file is not reported: objects keep their content. -/
theorem C44_binary_truncated (t : Prim) (old : Nat) (h : old < 256 ^ t.size) :
    readBin ⟨[], true⟩ (.prim t old) = .ok (.prim t old, ⟨[], false⟩) := by
  have hlen := toBytes_length t.size old
  rw [readBin, BinIn.read, if_pos rfl]
  dsimp only
  rw [List.take_nil, List.nil_append, List.length_nil, List.drop_zero, fromBytes_toBytes _ _ h, List.drop_nil, hlen]
  cases t <;> rfl

/-! ### Text -/

/-- Specification of the C++ library: the printed numbers and type names contain no newline and parsing
returns the printed number, for the values in `good`. -/
structure Codec.Lawful (c : Codec) (good : Prim → Nat → Prop) : Prop where
  out : ∀ t v, good t v → '\n' ∉ c.out t v ∧ c.parse t (c.out t v) = .ok v
  outAsDouble : ∀ t v, good t v → '\n' ∉ c.outAsDouble t v ∧ c.parse t (c.outAsDouble t v) = .ok v
  typeName : ∀ t, '\n' ∉ c.typeName t

/-- Specification: the values of the item are handled by the library. -/
def Item.Good (good : Prim → Nat → Prop) : Item → Prop
  | .prim t v => good t v
  | .matrix t rows cols data => data.length = rows * cols ∧ ∀ v ∈ data, good t v
  | .separator => True

theorem getline_line (l tail line : List Char) (h : '\n' ∉ l) :
    TextIn.getline ⟨l ++ ['\n'] ++ tail, true⟩ line = (l, ⟨tail, true⟩) := by
  have h1 : (l ++ ['\n'] ++ tail).takeWhile (· ≠ '\n') = l := by
    rw [List.append_assoc, List.takeWhile_append_of_pos]
    · simp
    · intro c hc
      simp only [ne_eq, decide_eq_true_eq]
      rintro rfl
      exact h hc
  have h2 : (l ++ ['\n'] ++ tail).dropWhile (· ≠ '\n') = '\n' :: tail := by
    rw [List.append_assoc, List.dropWhile_append_of_pos]
    · simp
    · intro c hc
      simp only [ne_eq, decide_eq_true_eq]
      rintro rfl
      exact h hc
  rw [TextIn.getline, if_pos rfl]
  dsimp only
  rw [h2, h1]

theorem header_no_newline (r c : Nat) : '\n' ∉ header r c := by
  have hd : ∀ n : Nat, '\n' ∉ Nat.toDigits 10 n := by
    intro n h
    have := Nat.isDigit_of_mem_toDigits (by decide) (by decide) h
    exact absurd this (by decide)
  unfold header
  simp only [List.mem_append, not_or]
  refine ⟨⟨⟨⟨by decide, hd r⟩, by decide⟩, hd c⟩, by decide⟩

theorem readEntries_write (c : Codec) (good : Prim → Nat → Prop) (hc : c.Lawful good) (t : Prim) (data : List Nat)
    (hg : ∀ v ∈ data, good t v) (tail line : List Char) :
    readEntries c t data.length line ⟨(data.flatMap fun x => c.out t x ++ ['\n']) ++ tail, true⟩ =
      .ok (data, ⟨tail, true⟩) := by
  induction data generalizing line with
  | nil => rfl
  | cons x d ih =>
    obtain ⟨h1, h2⟩ := hc.out t x (hg x List.mem_cons_self)
    rw [List.length_cons, readEntries, List.flatMap_cons, List.append_assoc, getline_line _ _ _ h1]
    dsimp only
    rw [h2, Res.bind_ok', ih (fun v hv => hg v (List.mem_cons_of_mem _ hv)), Res.bind_ok']

theorem writeText_read (c : Codec) (good : Prim → Nat → Prop) (hc : c.Lawful good) (item old : Item)
    (hg : item.Good good) (hs : SameShape item old) (tail : List Char) :
    readText c ⟨writeText c item ++ tail, true⟩ old = .ok (item, ⟨tail, true⟩) := by
  cases item with
  | prim t v =>
    cases old with
    | prim t' v' =>
      obtain rfl : t = t' := hs
      obtain ⟨h1, h2⟩ := hc.outAsDouble t v hg
      rw [readText, writeText, List.append_assoc, getline_line _ _ _ (hc.typeName t)]
      dsimp only
      rw [getline_line _ _ _ h1]
      dsimp only
      rw [h2, Res.bind_ok']
    | matrix => exact absurd hs id
    | separator => exact absurd hs id
  | matrix t r cc data =>
    cases old with
    | matrix t' r' c' data' =>
      obtain ⟨rfl, rfl, rfl⟩ := hs
      rw [readText, writeText, List.append_assoc, getline_line _ _ _ (header_no_newline r cc)]
      dsimp only
      rw [← hg.1, readEntries_write c good hc t data hg.2, Res.bind_ok']
    | prim => exact absurd hs id
    | separator => exact absurd hs id
  | separator =>
    cases old with
    | separator =>
      rw [readText, writeText, getline_line _ _ _ (by decide)]
      dsimp only
      rw [if_neg (not_not.2 rfl)]
    | prim => exact absurd hs id
    | matrix => exact absurd hs id

/-- C44: text files: whatever is written, separators included, is read back exactly, into any objects of
the same types and sizes. -/
theorem C44_text (c : Codec) (good : Prim → Nat → Prop) (hc : c.Lawful good) (items olds : List Item)
    (hg : ∀ i ∈ items, i.Good good) (hs : List.Forall₂ SameShape items olds) :
    readAllText c ⟨writeAllText c items, true⟩ olds = .ok (items, ⟨[], true⟩) := by
  unfold writeAllText
  induction hs with
  | nil => rfl
  | @cons i o is os hio _ ih =>
    rw [List.flatMap_cons, readAllText, writeText_read c good hc i o (hg i List.mem_cons_self) hio, Res.bind_ok',
      ih fun j hj => hg j (List.mem_cons_of_mem _ hj), Res.bind_ok']

/-- C44: a reader that expects a separator raises exactly if the next line is not the separator; at the
end of the file it raises. -/
theorem C44_missing_separator (c : Codec) (line tail : List Char) (h : '\n' ∉ line) :
    (readText c ⟨line ++ ['\n'] ++ tail, true⟩ .separator = .throw ↔ line ≠ ['#']) ∧
    readText c ⟨[], true⟩ .separator = .throw ∧ ∀ rest, readText c ⟨rest, false⟩ .separator = .throw := by
  refine ⟨?_, rfl, fun _ => rfl⟩
  rw [readText, getline_line _ _ _ h]
  dsimp only
  by_cases hl : line = ['#']
  · rw [if_neg (not_not.2 hl)]; simp [hl]
  · rw [if_pos hl]; simp [hl]

/-- C44: a value written where a separator is expected makes the reader raise, unless the type name is
the separator. -/
theorem C44_value_for_separator (c : Codec) (good : Prim → Nat → Prop) (hc : c.Lawful good) (t : Prim) (v : Nat)
    (hn : c.typeName t ≠ ['#']) (items : List Item) :
    readText c ⟨writeAllText c (.prim t v :: items), true⟩ .separator = .throw := by
  rw [writeAllText, List.flatMap_cons, writeText, List.append_assoc]
  exact ((C44_missing_separator c (c.typeName t) _ (hc.typeName t)).1).2 hn

/-- A lawful library: decimal numbers. -/
def decimalCodec : Codec where
  out := fun _ v => Nat.toDigits 10 v
  outAsDouble := fun _ v => Nat.toDigits 10 v
  parse := fun _ l => .ok (Nat.ofDigitChars 10 l 0)
  typeName := fun t => match t with
    | .double => ['d']
    | .int => ['i']
    | .bool => ['b']

/-- Its laws hold for all values, so the hypotheses of `C44_text` can be met. -/
example : decimalCodec.Lawful fun _ _ => True := by
  have hd : ∀ n : Nat, '\n' ∉ Nat.toDigits 10 n := by
    intro n h
    have := Nat.isDigit_of_mem_toDigits (by decide) (by decide) h
    exact absurd this (by decide)
  have hp : ∀ n : Nat, Res.ok (Nat.ofDigitChars 10 (Nat.toDigits 10 n) 0) = .ok n := fun n => by
    rw [Nat.ofDigitChars_toDigits (by decide) (by decide)]
  exact ⟨fun _ v _ => ⟨hd v, hp v⟩, fun _ v _ => ⟨hd v, hp v⟩, fun t => by cases t <;> decide⟩

/-- Two items that meet the hypotheses of `C44_binary_partial`. -/
example : Item.Valid (.matrix .int 2 3 [1, 2, 3, 4, 5, 4294967295]) ∧
    SameShape (.matrix .int 2 3 [1, 2, 3, 4, 5, 4294967295]) (.matrix .int 2 3 [0, 0, 0, 0, 0, 0]) :=
  ⟨⟨rfl, by decide⟩, rfl, rfl, rfl⟩

end NuTo.Serialize
