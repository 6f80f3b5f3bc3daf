import Verif.Lemmas.InputReader
import Mathlib.Tactic.NormNum
import Mathlib.Data.Rat.Floor

/-!
C96: the parameters of a particle simulation are those of the input file.
-/
namespace NuTo
namespace InputReader

open GmshText

/-- C96: a file in the documented form is read as written.  The result holds exactly the numbers of the text, the directory without white space,
and `is2D` for a value that begins with T, t, Y, y or 1; values that make no sense are refused.

Partial: comments of more than 999 characters, directories of more than 57 characters, text behind the semicolon of the directory, numbers
that are cut off, and files with missing entries are not read as written, see below. -/
theorem C96_read_partial (f : File) (h : f.Valid) (events threads type : Int) (he : f.numEventsMax.value.value = events)
    (he1 : -2 ^ 63 ≤ events) (he2 : events < 2 ^ 63) (ht : f.numThreads.value.value = threads) (ht1 : -2 ^ 31 ≤ threads) (ht2 : threads < 2 ^ 31)
    (hb : f.boxType.value.value = type) (hb1 : -2 ^ 31 ≤ type) (hb2 : type < 2 ^ 31) (h6 : f.boundingBox.items.length = 6)
    (hn : f.numSieves.value.value = f.sieves.length) (hn1 : f.sieves.length < 2 ^ 31) (h3 : ∀ v ∈ f.sieves, v.items.length = 3)
    (tail : List Char) (htail : Ends tail) (fuel : Nat) (hf : 6 ≤ fuel) :
    readFile fuel (f.text ++ tail) = some (
      if 0 ≤ f.relativeGrowthRate.value.value ∧ 0 ≤ f.absoluteDistance.value.value ∧ 0 < f.volumeFraction.value.value ∧
          0 ≤ f.shrinkage.value.value ∧ f.shrinkage.value.value < 1 then
        .ok {
          directory := f.directory.filter fun c => !space c
          numEventsMax := events
          timeMax := f.timeMax.value.value
          timePrintOut := f.timePrintOut.value.value
          initialTimeBarrier := f.initialTimeBarrier.value.value
          randomVelocityRange := f.randomVelocityRange.value.value
          relativeGrowthRate := f.relativeGrowthRate.value.value
          absoluteGrowthRate := f.absoluteGrowthRate.value.value
          numThreads := threads
          typeOfSpecimen := type
          boundingBox := f.boundingBox.items.map fun x => x.2.value
          is2D := ['T', 't', 'Y', 'y', '1'].contains f.is2D
          gradingCurve := f.sieves.map fun v => v.items.map fun x => x.2.value
          volumeFraction := f.volumeFraction.value.value
          absoluteDistance := f.absoluteDistance.value.value
          shrinkage := f.shrinkage.value.value }
      else .throw) := by
  obtain ⟨v1, v2, v3, ⟨nl, v4⟩, v5, v6, v7, v8, v9, v10⟩ := h
  simp only [List.mem_cons, List.not_mem_nil, or_false, forall_eq_or_imp, forall_eq] at v5
  obtain ⟨n1, n2, n3, n4, n5, n6, n7, n8, n9, n10, n11, n12⟩ := v5
  have sepN : ∀ (n : Number) (_ : Ends n.comment) (r : List Char), Sep (n.text ++ r) := by
    intro n hn r
    have := Ends.append hn ('=' :: (n.pad ++ n.value.text) ++ r)
    rwa [Number.text, List.append_assoc]
  have sepV : ∀ (v : Numbers) (_ : Ends v.comment) (r : List Char), Sep (v.text ++ r) := by
    intro n hn r
    have := Ends.append hn ('=' :: (itemsText n.items ++ [n.stop]) ++ r)
    rwa [Numbers.text, List.append_assoc]
  have hsim : readSimulation (.at (f.text ++ tail)) = .ok (⟨f.directory.filter fun c => !space c, events, f.timeMax.value.value,
      f.timePrintOut.value.value, f.initialTimeBarrier.value.value, f.randomVelocityRange.value.value, f.relativeGrowthRate.value.value,
      f.absoluteGrowthRate.value.value, threads⟩, .at (f.boxType.text ++ (f.boundingBox.text ++ (f.is2DComment ++ '=' ::
        (f.is2DPad ++ f.is2D :: (f.numSieves.text ++ (f.sieves.flatMap Numbers.text ++ (f.volumeFraction.text ++ (f.absoluteDistance.text ++
        (f.shrinkage.text ++ tail)))))))))) := by
    have e : ∀ R, f.numEventsMax.text ++ R = '\n' :: (nl ++ '=' :: (f.numEventsMax.pad ++ f.numEventsMax.value.text) ++ R) := by
      intro R
      rw [Number.text, v4]
      simp
    have e1 : ∀ R, readString (.at (f.header ++ '=' :: (f.directory ++ ';' :: (f.numEventsMax.text ++ R)))) =
        .ok (f.directory.filter fun c => !space c, .at (f.numEventsMax.text ++ R)) := by
      intro R
      rw [e R, readString_at _ _ _ v1 v2 v3]
    simp only [File.text, List.append_assoc, List.cons_append]
    rw [readSimulation, e1, Res.bind_ok', readInt_at 64 _ n1.1 events he he1 he2 _ (sepN _ n2.2 _), Res.bind_ok',
      readNumber_at _ n2.1 _ (sepN _ n3.2 _), Res.bind_ok', readNumber_at _ n3.1 _ (sepN _ n4.2 _), Res.bind_ok',
      readNumber_at _ n4.1 _ (sepN _ n5.2 _), Res.bind_ok', readNumber_at _ n5.1 _ (sepN _ n6.2 _), Res.bind_ok',
      readNumber_at _ n6.1 _ (sepN _ n7.2 _), Res.bind_ok', readNumber_at _ n7.1 _ (sepN _ n8.2 _), Res.bind_ok',
      readInt_at 32 _ n8.1 threads ht ht1 ht2 _ (sepN _ n9.2 _), Res.bind_ok']
  have hbox : ∀ R, readBoundingBox fuel (.at (f.boxType.text ++ (f.boundingBox.text ++ (f.is2DComment ++ '=' ::
      (f.is2DPad ++ f.is2D :: R))))) = some (.ok ((type, f.boundingBox.value, ['T', 't', 'Y', 'y', '1'].contains f.is2D), .at R)) := by
    intro R
    have g := v7 f.boundingBox List.mem_cons_self
    rw [readBoundingBox, readInt_at 32 _ n9.1 type hb hb1 hb2 _ (sepV _ g.2 _)]
    simp only [next]
    rw [readVector_at _ g.1 _ fuel (by omega)]
    simp only
    rw [if_neg (by simp [Numbers.value, h6]), readBool_at _ _ _ _ v8 v9 v10]
  have hcurve : readGradingCurve fuel (.at (f.numSieves.text ++ (f.sieves.flatMap Numbers.text ++ (f.volumeFraction.text ++
      (f.absoluteDistance.text ++ (f.shrinkage.text ++ tail)))))) = some (.ok ((f.sieves.map Numbers.value, f.volumeFraction.value.value,
        f.absoluteDistance.value.value), .at (f.shrinkage.text ++ tail))) := by
    have hs : Sep (f.sieves.flatMap Numbers.text ++ (f.volumeFraction.text ++ (f.absoluteDistance.text ++ (f.shrinkage.text ++ tail)))) := by
      have hv : ∀ v ∈ f.sieves, Ends v.comment := fun v hv => (v7 v (List.mem_cons_of_mem _ hv)).2
      revert hv
      cases f.sieves with
      | nil => exact fun _ => sepN _ n10.2 _
      | cons v l =>
        intro hv
        rw [List.flatMap_cons, List.append_assoc]
        exact sepV _ (hv v List.mem_cons_self) _
    rw [readGradingCurve, readInt_at 32 _ v6 f.sieves.length (by rw [hn]; simp) (by omega) (by omega) _ hs]
    simp only [next]
    rw [if_neg (by omega), Int.toNat_natCast, readSieves_at fuel (by omega) f.sieves
      (fun v hv => (v7 v (List.mem_cons_of_mem _ hv)).1) h3]
    simp only
    rw [readNumber_at _ n10.1 _ (sepN _ n11.2 _)]
    simp only
    rw [readNumber_at _ n11.1 _ (sepN _ n12.2 _)]
  have hsim' : readSimulation ⟨f.text ++ tail, false, false⟩ = _ := hsim
  rw [readFile, hsim']
  simp only [next]
  rw [hbox]
  simp only
  rw [hcurve]
  simp only
  have := readNumber_at _ n12.1 tail (by have := Ends.append htail []; rwa [List.append_nil] at this)
  rw [this]
  simp only [checkInputs, Option.some.injEq]
  by_cases c1 : f.relativeGrowthRate.value.value < 0
  · rw [if_pos c1, if_neg (fun c => absurd c.1 (not_le.mpr c1))]
  rw [if_neg c1]
  by_cases c2 : f.absoluteDistance.value.value < 0
  · rw [if_pos c2, if_neg (fun c => absurd c.2.1 (not_le.mpr c2))]
  rw [if_neg c2]
  by_cases c3 : f.volumeFraction.value.value ≤ 0
  · rw [if_pos c3, if_neg (fun c => absurd c.2.2.1 (not_lt.mpr c3))]
  rw [if_neg c3]
  by_cases c4 : 1 ≤ f.shrinkage.value.value ∨ f.shrinkage.value.value < 0
  · rw [if_pos c4, if_neg (fun c => c4.elim (fun d => absurd c.2.2.2.2 (not_lt.mpr d)) fun d => absurd c.2.2.2.1 (not_le.mpr d))]
  rw [if_neg c4, if_pos ⟨not_lt.mp c1, not_lt.mp c2, not_le.mp c3, not_lt.mp fun c => c4 (.inr c), not_le.mp fun c => c4 (.inl c)⟩]
  rfl

/-- C96: a file that is refused or read has sensible values: whatever is in the file, a result has passed the checks. -/
theorem C96_checked (fuel : Nat) (text : List Char) (i : Input) (h : readFile fuel text = some (.ok i)) :
    0 ≤ i.relativeGrowthRate ∧ 0 ≤ i.absoluteDistance ∧ 0 < i.volumeFraction ∧ 0 ≤ i.shrinkage ∧ i.shrinkage < 1 ∧
    i.boundingBox.length = 6 ∧ ∀ v ∈ i.gradingCurve, v.length = 3 := by
  have nextOk : ∀ {α β : Type} {x : Option (Res α)} {g : α → Option (Res β)} {b : β}, next x g = some (.ok b) →
      ∃ a, x = some (.ok a) ∧ g a = some (.ok b) := by
    intro α β x g b hx
    match x, hx with
    | some (.ok a), hx => exact ⟨a, rfl, hx⟩
  have sieves : ∀ (n : Nat) (s : Stream) (r : List (List ℚ) × Stream), readSieves fuel n s = some (.ok r) → ∀ v ∈ r.1, v.length = 3 := by
    intro n
    induction n with
    | zero =>
      intro s r hr v hv
      rw [readSieves, Option.some.injEq, Res.ok.injEq] at hr
      rw [← hr] at hv
      simp at hv
    | succ n ih =>
      intro s r hr
      rw [readSieves] at hr
      obtain ⟨a, _, h2⟩ := nextOk hr
      split_ifs at h2 with hl
      · simp at h2
      obtain ⟨b, h3, h4⟩ := nextOk h2
      rw [Option.some.injEq, Res.ok.injEq] at h4
      rw [← h4]
      intro v hv
      rcases List.mem_cons.mp hv with rfl | hv
      · exact not_not.mp hl
      · exact ih _ _ h3 v hv
  rw [readFile] at h
  obtain ⟨sim, _, h⟩ := nextOk h
  obtain ⟨box, h1, h⟩ := nextOk h
  obtain ⟨curve, h2, h⟩ := nextOk h
  obtain ⟨shrinkage, _, h⟩ := nextOk h
  rw [readBoundingBox] at h1
  obtain ⟨type, _, h1⟩ := nextOk h1
  obtain ⟨vec, _, h1⟩ := nextOk h1
  split_ifs at h1 with hl
  · simp at h1
  obtain ⟨b, _, h1⟩ := nextOk h1
  rw [Option.some.injEq, Res.ok.injEq] at h1
  rw [readGradingCurve] at h2
  obtain ⟨n, _, h2⟩ := nextOk h2
  split_ifs at h2
  · simp at h2
  obtain ⟨sv, h3, h2⟩ := nextOk h2
  obtain ⟨fr, _, h2⟩ := nextOk h2
  obtain ⟨di, _, h2⟩ := nextOk h2
  rw [Option.some.injEq, Res.ok.injEq] at h2
  rw [Option.some.injEq, checkInputs] at h
  split_ifs at h with c1 c2 c3 c4
  rw [Res.ok.injEq] at h
  rw [← h]
  refine ⟨not_lt.mp c1, not_lt.mp c2, not_le.mp c3, not_lt.mp fun c => c4 (.inr c), not_le.mp fun c => c4 (.inl c), ?_, ?_⟩
  · rw [← h1]
    exact not_not.mp hl
  · rw [← h2]
    exact sieves _ _ _ h3

/-- C96: a fraction of an integer parameter is dropped without a message. -/
theorem C96_truncated (bits : Nat) (x : ℚ) (h0 : 0 ≤ x) (h1 : x < 2 ^ (bits - 1)) : toInt bits x = .ok ⌊x⌋ := by
  have e : x.num.tdiv x.den = ⌊x⌋ := by
    rw [Int.tdiv_eq_ediv_of_nonneg (Rat.num_nonneg.mpr h0), Rat.floor_def', ]
  have hf : 0 ≤ ⌊x⌋ := Int.floor_nonneg.mpr h0
  have hlt : ⌊x⌋ < 2 ^ (bits - 1) := by
    rw [Int.floor_lt]
    push_cast
    exact h1
  rw [toInt]
  simp only [e]
  rw [if_pos ⟨by have : (0 : Int) < 2 ^ (bits - 1) := by positivity
                 omega, hlt⟩]

/-- C96: only 999 characters of a comment are skipped, and one more.  If there is no equal sign among them, the value is read from the
text that follows. -/
theorem C96_long_comment (c r : List Char) (hl : c.length = 1000) (hc : '=' ∉ c) : skipToNextData (.at (c ++ r)) = .at r := by
  have h : ((c ++ r).takeWhile (· != '=')).take 999 = c.take 999 := by
    rw [List.takeWhile_append_of_pos, List.take_append_of_le_length (by omega)]
    intro a ha
    simp only [bne_iff_ne, ne_eq]
    rintro rfl
    exact hc ha
  obtain ⟨a, ha⟩ : ∃ a, c.drop 999 = [a] := by
    apply List.length_eq_one_iff.mp
    rw [List.length_drop]; omega
  have h2 : (c ++ r).drop 999 = a :: r := by
    rw [List.drop_append_of_le_length (by omega), ha]; rfl
  have hne : c.take 999 ≠ [] := by
    intro h
    have := congrArg List.length h
    simp [hl] at this
  have e : getText 1000 '=' (.at (c ++ r)) = (c.take 999, .at (a :: r)) := by
    rw [getText]
    simp only [Stream.at, Bool.or_self, Bool.false_eq_true, if_false, h, show 1000 - 1 = 999 from rfl]
    simp [hl, h2, hne]
  rw [skipToNextData, e]
  rfl

/-- C96 is false for long comments: a number in the comment is taken for the value. -/
theorem C96_comment_counterexample (c : List Char) (hl : c.length = 1000) (hc : '=' ∉ c) (x : RealText) (hx : x.Valid) (n : Number)
    (hn : Ends n.comment) : readNumber (.at (c ++ (x.text ++ n.text))) = .ok (x.value, .at n.text) := by
  have h := C96_long_comment c (x.text ++ n.text) hl hc
  have h2 : Sep n.text := Ends.append hn _
  rw [readNumber, h, extractDouble_start x _ hx h2]

/-- The loop for a vector does not end once the stream has failed. -/
theorem C96_hang (x : ℚ) (acc : List ℚ) (s : Stream) (hs : s.eof = true ∨ s.fail = true) (fuel : Nat) : vectorLoop fuel (some x) acc s = none := by
  induction fuel generalizing acc s with
  | zero => rfl
  | succ fuel ih =>
    have hb : (s.eof || s.fail) = true := by simpa using hs
    have h1 : extractDouble s = (none, { s with fail := true }) := by simp [extractDouble, skip, hb]
    have h2 : getChar { s with fail := true } = (none, { s with fail := true }) := by simp [getChar]
    rw [vectorLoop, h1]
    simp only [Option.orElse, h2, Option.getD_none, if_true]
    exact ih _ _ (.inr rfl)

/-- C96 is false for a vector with text that is not a number: instead of an exception the loop goes on until there is no memory left. -/
theorem C96_no_number (c pad r : List Char) (a : Char) (hc : Comment c) (hp : ∀ x ∈ pad, space x = true) (hs : space a = false)
    (hd : a.isDigit = false) (h1 : a ≠ '-') (h2 : a ≠ '+') (h3 : a ≠ '.') (fuel : Nat) :
    readVector fuel (.at (c ++ '=' :: (pad ++ a :: r))) = none := by
  rw [readVector, skipToNextData_at _ _ hc]
  cases fuel with
  | zero => rfl
  | succ fuel =>
    have h : takeSign (a :: r) = (false, a :: r) := by
      rw [takeSign.eq_def]
      split
      · rename_i heq; exact absurd (List.cons.inj heq).1 h1
      · rename_i heq; exact absurd (List.cons.inj heq).1 h2
      · rfl
    have hspan : (a :: r).span Char.isDigit = ([], a :: r) := by
      rw [List.span_eq_takeWhile_dropWhile]
      simp [hd]
    have hfr : takeFraction (a :: r) = ([], a :: r) := by
      rw [takeFraction.eq_def]
      split
      · rename_i heq; exact absurd (List.cons.inj heq).1 h3
      · rfl
    have e : extractDouble (.at (pad ++ a :: r)) = (some 0, ⟨a :: r, false, true⟩) := by
      rw [extractDouble, skip_at _ _ _ hp hs]
      simp [Stream.at, h, List.takeWhile_cons, List.dropWhile_cons, hd, hfr]
    rw [vectorLoop, e]
    simp only [Option.orElse, getChar, Bool.or_true, if_true, Option.getD_none]
    exact C96_hang _ _ _ (.inr rfl) fuel

/-- C96 is false for a file that ends with the last number of a vector: the loop does not end. -/
theorem C96_vector_at_end (l : List (List Char × RealText)) (h : ∀ x ∈ l, (∀ c ∈ x.1, space c = true) ∧ x.2.Valid) (c : List Char)
    (hc : Comment c) (last : Nat) (hlast : last < 10) (fuel : Nat) :
    readVector fuel (.at (c ++ '=' :: (l.flatMap (fun x => x.1 ++ x.2.text ++ [',']) ++ [digitChar ⟨last, hlast⟩]))) = none := by
  rw [readVector, skipToNextData_at _ _ hc]
  generalize (none : Option ℚ) = x
  generalize ([] : List ℚ) = acc
  induction fuel generalizing l x acc with
  | zero => rfl
  | succ fuel ih =>
    cases l with
    | nil =>
      have e : ∀ d : Fin 10, extractDouble (.at [digitChar d]) = (some (d.val : ℚ), ⟨[], true, false⟩) := by decide +kernel
      rw [List.flatMap_nil, List.nil_append, vectorLoop, e]
      simp only [Option.orElse, getChar, Bool.or_false, if_true, Option.getD_none]
      exact C96_hang _ _ _ (.inr rfl) fuel
    | cons y l =>
      have hy := h y List.mem_cons_self
      have e := extractDouble_at y.1 y.2 (',' :: (l.flatMap (fun x => x.1 ++ x.2.text ++ [',']) ++ [digitChar ⟨last, hlast⟩])) hy.1 hy.2
        ⟨_, _, rfl, by decide⟩
      have e2 : (y :: l).flatMap (fun x => x.1 ++ x.2.text ++ [',']) ++ [digitChar ⟨last, hlast⟩] =
          y.1 ++ y.2.text ++ ',' :: (l.flatMap (fun x => x.1 ++ x.2.text ++ [',']) ++ [digitChar ⟨last, hlast⟩]) := by simp
      rw [e2, vectorLoop, e]
      exact ih l (fun z hz => h z (List.mem_cons_of_mem _ hz)) _ _

/-- C96 is false for files that end too early: the values are undefined, there is no message. -/
theorem C96_end (s : Stream) (hs : s.eof = true ∨ s.fail = true) (fuel : Nat) :
    readNumber s = .ub ∧ readBool s = .ub ∧ readVector (fuel + 1) s = some .ub ∧ readString s = .throw := by
  have hb : (s.eof || s.fail) = true := by simpa using hs
  have h : skipToNextData s = { s with fail := true } := by simp [skipToNextData, getText, getChar, hb]
  have h1 : skip { s with fail := true } = ({ s with fail := true }, false) := by simp [skip]
  refine ⟨?_, ?_, ?_, ?_⟩
  · simp [readNumber, h, extractDouble, h1]
  · simp [readBool, h, extractChar, h1]
  · simp [readVector, vectorLoop, h, extractDouble, h1]
  · simp [readString, h, getText]

/-- C96 is false for values without a comment: `get` without a character puts the stream into the failed state, nothing is read
from there on. -/
theorem C96_no_comment_counterexample (r : List Char) (fuel : Nat) :
    readNumber (.at ('=' :: r)) = .ub ∧ readBool (.at ('=' :: r)) = .ub ∧ readVector (fuel + 1) (.at ('=' :: r)) = some .ub ∧
      readString (.at ('=' :: r)) = .throw := by
  have h : skipToNextData (.at ('=' :: r)) = ⟨'=' :: r, false, true⟩ := by
    simp [skipToNextData, getText, getChar, Stream.at]
  have h1 : skip ⟨'=' :: r, false, true⟩ = (⟨'=' :: r, false, true⟩, false) := by simp [skip]
  refine ⟨?_, ?_, ?_, ?_⟩
  · simp [readNumber, h, extractDouble, h1]
  · simp [readBool, h, extractChar, h1]
  · simp [readVector, vectorLoop, h, extractDouble, h1]
  · simp [readString, h, getText]

/-- C96 is false for a negative number of sieves: there is no message. -/
theorem C96_negative_sieves_counterexample (s t : Stream) (x : ℚ) (h : readNumber s = .ok (x, t)) (h0 : x ≤ -1) (h1 : -2 ^ 31 ≤ x)
    (fuel : Nat) : readGradingCurve fuel s = some .ub := by
  have hn : x.num.tdiv x.den ≤ -1 := by
    have hd : (0 : Int) < x.den := by exact_mod_cast x.den_pos
    have h2 : x.num ≤ -(x.den : Int) := by
      have := Rat.num_div_den x
      have hx : (x.num : ℚ) = x * x.den := by rw [eq_comm, Rat.mul_den_eq_num]
      have hdq : (0 : ℚ) < x.den := by exact_mod_cast x.den_pos
      have : (x.num : ℚ) ≤ -(x.den : ℚ) := by rw [hx]; nlinarith
      exact_mod_cast this
    have h3 : (-x.num).tdiv x.den = -(x.num.tdiv x.den) := Int.neg_tdiv _ _
    have h4 : 1 ≤ (-x.num).tdiv x.den := by
      rw [Int.tdiv_eq_ediv_of_nonneg (by omega)]
      exact (Int.le_ediv_iff_mul_le hd).2 (by omega)
    omega
  have hl : -(2 : Int) ^ 31 ≤ x.num.tdiv x.den := by
    have hd : (0 : Int) < x.den := by exact_mod_cast x.den_pos
    have h2 : -(2 : Int) ^ 31 * x.den ≤ x.num := by
      have hx : (x.num : ℚ) = x * x.den := by rw [eq_comm, Rat.mul_den_eq_num]
      have hdq : (0 : ℚ) < x.den := by exact_mod_cast x.den_pos
      have : -(2 : ℚ) ^ 31 * (x.den : ℚ) ≤ (x.num : ℚ) := by rw [hx]; nlinarith
      exact_mod_cast this
    have h3 : (-x.num).tdiv x.den = -(x.num.tdiv x.den) := Int.neg_tdiv _ _
    have h4 : (-x.num).tdiv x.den ≤ 2 ^ 31 := by
      by_cases hneg : 0 ≤ -x.num
      · rw [Int.tdiv_eq_ediv_of_nonneg hneg]
        exact Int.ediv_le_of_le_mul hd (by linarith)
      · have : x.num.tdiv x.den ≥ 0 := Int.tdiv_nonneg (by omega) hd.le
        omega
    omega
  have hi : readInt 32 s = .ok (x.num.tdiv x.den, t) := by
    rw [readInt, h, Res.bind_ok', toInt]
    dsimp only
    rw [if_pos ⟨hl, by omega⟩, Res.bind_ok']
  rw [readGradingCurve, hi, next]
  exact if_pos (by dsimp only; omega)

/-- The file text `#=-2 ` meets the hypotheses. -/
example : ∃ t, readNumber (.at ['#', '=', '-', '2', ' ']) = .ok (-2, t) := ⟨.at [' '], by decide +kernel⟩

end InputReader
end NuTo
