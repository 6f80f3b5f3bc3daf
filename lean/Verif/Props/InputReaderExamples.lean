import Verif.Props.InputReader
import Verif.Model.Chars

/-!
C96: the directory, the documented example of a file, and a file that meets the hypotheses.
-/
namespace NuTo
namespace InputReader

open GmshText

/-- The directory is the line behind the equal sign without its last character and without white space. -/
theorem C96_line (c l r : List Char) (hc : Comment c) (h0 : l ≠ []) (hl : '\n' ∉ l) (hn : l.length ≤ 58) :
    readString (.at (c ++ '=' :: (l ++ '\n' :: r))) = .ok (l.dropLast.filter fun c => !space c, .at ('\n' :: r)) := by
  rw [readString, skipToNextData_at _ _ hc, getText_at _ _ l r h0 (by simpa [show ';'.toNat = 59 from rfl] using hn) hl]
  simp [h0]

/-- C96 is false for text behind the semicolon of the directory: it becomes part of the directory, in all lines that are not too long. -/
theorem C96_remark_counterexample (c d t r : List Char) (a : Char) (hc : Comment c) (hd : '\n' ∉ d) (ht : '\n' ∉ t) (ha : a ≠ '\n')
    (hn : (d ++ ';' :: (t ++ [a])).length ≤ 58) :
    readString (.at (c ++ '=' :: ((d ++ ';' :: (t ++ [a])) ++ '\n' :: r))) =
      .ok (d.filter (fun c => !space c) ++ ';' :: t.filter (fun c => !space c), .at ('\n' :: r)) := by
  have h : d ++ ';' :: (t ++ [a]) = (d ++ ';' :: t) ++ [a] := by simp
  rw [C96_line c _ r hc (by simp) (by simp [hd, ht, Ne.symm ha]) hn, h, List.dropLast_concat, List.filter_append, List.filter_cons_of_pos (by decide)]

/-- C96 is false for directories with more than 57 characters: the rest is cut off, and the length of the buffer is the code of the semicolon. -/
theorem C96_directory_counterexample (c d r : List Char) (hc : Comment c) (hd : '\n' ∉ d) (hn : 58 ≤ d.length) :
    ∃ s, readString (.at (c ++ '=' :: (d ++ r))) = .ok ((d.take 57).filter fun c => !space c, s) := by
  have h : ((d ++ r).takeWhile (· != '\n')).take 58 = d.take 58 := by
    rw [List.takeWhile_append_of_pos, List.take_append_of_le_length (by omega)]
    intro a ha
    simp only [bne_iff_ne, ne_eq]
    rintro rfl
    exact hd ha
  have hne : d.take 58 ≠ [] := by
    intro h
    have := congrArg List.length h
    rw [List.length_take, Nat.min_eq_left hn] at this
    simp at this
  have hdl : (d.take 58).dropLast = d.take 57 := by
    rw [List.dropLast_eq_take, List.take_take, List.length_take]
    congr 1
    omega
  have e : (getText ';'.toNat '\n' (.at (d ++ r))).1 = d.take 58 := by
    rw [getText]
    simp only [Stream.at, Bool.or_self, Bool.false_eq_true, if_false, show ';'.toNat - 1 = 58 from rfl, h]
  rw [readString, skipToNextData_at _ _ hc]
  simp only [e, if_neg hne, hdl]
  exact ⟨_, rfl⟩

/-- C96 is false for an empty directory: `std::string::erase` throws an exception of the library. -/
theorem C96_empty_directory (c r : List Char) (hc : Comment c) : readString (.at (c ++ '=' :: ('\n' :: r))) = .throw := by
  rw [readString, skipToNextData_at _ _ hc]
  simp [getText, Stream.at]

/-- The example in the documentation, InputReader.h 17-55 -/
def documented : List Char := List.flatten [
  chars! "particle simulation input file\n",
  chars! "\n",
  chars! "1) avoid equal signes in comments\n",
  chars! "2) avoid comments before ';' in vector definitions\n",
  chars! " ------------------------------------------\n",
  chars! "| simulation parameters and stop criterion |\n",
  chars! " ------------------------------------------\n",
  chars! "directory = myNutoExamples/c++/GradingCurveA/;\n",
  chars! "\n",
  chars! "numEventsMax = 1.e10;              Simulation stops after [numEventsMax] events\n",
  chars! "timeMax = 600.;                    Simulation stops after [timeMax] seconds\n",
  chars! "timePrintOut = 2.;                 There is a print out every [timePrintOut] seconds\n",
  chars! "initialTimeBarrier = .1;           Adaption during simulation, not that important\n",
  chars! "randomVelocityRange = 0.1;         equal distr. range[randomVelocityRange],center[0.0]\n",
  chars! "growthRates = 1.;                  Growth rate for all particles\n",
  chars! "numThreads = 8;                    Number of threads for parallelization\n",
  chars! "\n",
  chars! " ------------------------------------------\n",
  chars! "|        bounding box definition           |\n",
  chars! " ------------------------------------------\n",
  chars! "boxType = 0;                       0.. cube | 1.. dogbone | 2.. cylinder\n",
  chars! "boundingBox = 0.,80.,\n",
  chars! "              0.,80.,\n",
  chars! "              0.,80.;            x-y-z- range\n",
  chars! "is2D = false;\n",
  chars! " ------------------------------------------\n",
  chars! "|           particle definition            |\n",
  chars! " ------------------------------------------\n",
  chars! "\n",
  chars! "numSieves = 3;                     size of the grading curve\n",
  chars! "   sieve1 =  8., 16., 0.40;        1st row: min particle size\n",
  chars! "   sieve2 =  4.,  8., 0.24;        2nd row: max particle size\n",
  chars! "   sieve3 =  2.,  4., 0.15;        3rd row: volume fraction of this class\n",
  chars! "\n",
  chars! "\n",
  chars! "volumeFraction = 0.7;             overall particle volume fraction\n",
  chars! "absoluteDistance = 0.0;            minimal distance between two particles\n",
  chars! "\n",
  chars! "shrinkage = 0.10;              0.0 -> no EDMD\n"]

/-- The loop for the bounding box does not end if the text behind the next equal sign is not a number. -/
theorem stuck (d c r : List Char) (n m : Nat) (fuel : Nat) (h1 : (match readSimulation (.at d) with
      | .ok x => decide (x.2 = .at (d.drop n))
      | _ => false) = true) (h2 : (match readInt 32 (.at (d.drop n)) with
      | .ok x => decide (x.2 = .at (d.drop m))
      | _ => false) = true) (hc : c ≠ [] ∧ c.length ≤ 999 ∧ '=' ∉ c) (h3 : d.drop m = c ++ '=' :: ' ' :: 'f' :: r) : readFile fuel d = none := by
  split at h1
  · rename_i x hx
    split at h2
    · rename_i y hy
      have hx2 := of_decide_eq_true h1
      have hy2 := of_decide_eq_true h2
      have h1' : readSimulation ⟨d, false, false⟩ = .ok x := hx
      rw [readFile, h1']
      simp only [next]
      rw [hx2, readBoundingBox, hy]
      simp only [next]
      have h := C96_no_number c [' '] r 'f' hc (by decide) (by decide) (by decide) (by decide) (by decide) (by decide) fuel
      rw [List.singleton_append] at h
      rw [hy2, h3, h]
    · exact absurd h2 (by simp)
  · exact absurd h1 (by simp)

/-- C96 is false for the example of the documentation: the absolute growth rate is missing, all values after it go to the wrong
parameters, and where the bounding box is expected the text "false" makes the loop run forever. -/
theorem C96_documented_counterexample (fuel : Nat) : readFile fuel documented = none :=
  stuck documented ((documented.drop 1069).takeWhile (· != '=')) (((documented.drop 1069).dropWhile (· != '=')).drop 3) 991 1069 fuel
    (by decide +kernel) (by decide +kernel) (by decide +kernel) (by decide +kernel)

/-- A file that is read -/
def exFile : File where
  header := (chars! "Parameters\ndirectory ")
  directory := (chars! " out/A 1/")
  numEventsMax := ⟨(chars! "\nnumEventsMax "), [' '], ⟨false, [1], some [], some (none, [1, 0])⟩⟩
  timeMax := ⟨(chars! ";  in seconds\ntimeMax "), [' '], ⟨false, [6, 0, 0], some [], none⟩⟩
  timePrintOut := ⟨(chars! ";\ntimePrintOut "), [' '], ⟨false, [2], none, none⟩⟩
  initialTimeBarrier := ⟨(chars! ";\ninitialTimeBarrier "), [' '], ⟨false, [], some [1], none⟩⟩
  randomVelocityRange := ⟨(chars! ";\nrandomVelocityRange "), [' '], ⟨false, [0], some [1], none⟩⟩
  relativeGrowthRate := ⟨(chars! ";\nrelativeGrowthRate "), [' '], ⟨false, [1], none, none⟩⟩
  absoluteGrowthRate := ⟨(chars! ";\nabsoluteGrowthRate "), [' '], ⟨false, [0], none, none⟩⟩
  numThreads := ⟨(chars! ";\nnumThreads "), [' '], ⟨false, [4], none, none⟩⟩
  boxType := ⟨(chars! ";\nboxType "), [' '], ⟨false, [2], none, none⟩⟩
  boundingBox := ⟨(chars! ";  0.. cube, 1.. dogbone, 2.. cylinder\nboundingBox "), [([' '], ⟨true, [1, 6], some [], none⟩), ([], ⟨false, [1, 6], none, none⟩),
    (['\n'], ⟨false, [0], none, none⟩), ([], ⟨false, [1], none, none⟩), (['\n', '\t'], ⟨false, [0], none, none⟩), ([], ⟨false, [1], none, none⟩)], ';'⟩
  is2DComment := (chars! "  x-y-z\nis2D ")
  is2DPad := [' ']
  is2D := 'y'
  numSieves := ⟨(chars! "es;\nnumSieves "), [' '], ⟨false, [1], none, none⟩⟩
  sieves := [⟨(chars! ";\n  sieve1 "), [([' '], ⟨false, [8], none, none⟩), ([' '], ⟨false, [1, 6], none, none⟩), ([' '], ⟨false, [0], some [4], none⟩)], ';'⟩]
  volumeFraction := ⟨(chars! "\nvolumeFraction "), [' '], ⟨false, [0], some [6], none⟩⟩
  absoluteDistance := ⟨(chars! ";\nabsoluteDistance "), [' '], ⟨false, [0], none, none⟩⟩
  shrinkage := ⟨(chars! ";\nshrinkage "), [' '], ⟨false, [5], none, some (some true, [2])⟩⟩

theorem exFile_text : exFile.text ++ [';', '\n'] = [chars! "Parameters\ndirectory = out/A 1/;\nnumEventsMax = 1.e10;  in seconds\ntimeMax = 600.;\n",
    chars! "timePrintOut = 2;\ninitialTimeBarrier = .1;\nrandomVelocityRange = 0.1;\nrelativeGrowthRate = 1;\nabsoluteGrowthRate = 0;\n",
    chars! "numThreads = 4;\nboxType = 2;  0.. cube, 1.. dogbone, 2.. cylinder\nboundingBox = -16.,16,\n0,1,\n\t0,1;  x-y-z\nis2D = yes;\n",
    chars! "numSieves = 1;\n  sieve1 = 8, 16, 0.4;\nvolumeFraction = 0.6;\nabsoluteDistance = 0;\nshrinkage = 5e-2;\n"].flatten := by decide +kernel

theorem exFile_valid : exFile.Valid := by
  have hE : ∀ (a : Char) (r : List Char), a = ';' ∨ a = '\n' → Ends (a :: r) := by
    rintro a r (rfl | rfl)
    · exact ⟨_, _, rfl, by decide⟩
    · exact ⟨_, _, rfl, by decide⟩
  have hN : ∀ n : Number, (n.comment ≠ [] ∧ n.comment.length ≤ 999 ∧ '=' ∉ n.comment) ∧ (∀ c ∈ n.pad, space c = true) ∧
      n.value.int ++ n.value.frac.getD [] ≠ [] ∧ (∀ e ∈ n.value.exp, e.2 ≠ []) → n.Valid := fun n h => h
  have hV : ∀ v : Numbers, (v.comment ≠ [] ∧ v.comment.length ≤ 999 ∧ '=' ∉ v.comment) ∧ v.items ≠ [] ∧
      (∀ x ∈ v.items, (∀ c ∈ x.1, space c = true) ∧ x.2.int ++ x.2.frac.getD [] ≠ [] ∧ (∀ e ∈ x.2.exp, e.2 ≠ [])) ∧ v.stop = ';' → v.Valid := by
    intro v h
    obtain ⟨h1, h2, h3, h4⟩ := h
    exact ⟨h1, h2, h3, h4 ▸ hE _ _ (.inl rfl), h4 ▸ by decide⟩
  have hC : ∀ n ∈ [exFile.numEventsMax, exFile.timeMax, exFile.timePrintOut,
      exFile.initialTimeBarrier, exFile.randomVelocityRange, exFile.relativeGrowthRate,
      exFile.absoluteGrowthRate, exFile.numThreads, exFile.boxType, exFile.volumeFraction,
      exFile.absoluteDistance, exFile.shrinkage, exFile.numSieves], (n.comment ≠ [] ∧ n.comment.length ≤ 999 ∧ '=' ∉ n.comment) ∧
      (∀ c ∈ n.pad, space c = true) ∧ n.value.int ++ n.value.frac.getD [] ≠ [] ∧ (∀ e ∈ n.value.exp, e.2 ≠ []) := by decide +kernel
  have hD : ∀ v ∈ exFile.boundingBox :: exFile.sieves, (v.comment ≠ [] ∧ v.comment.length ≤ 999 ∧ '=' ∉ v.comment) ∧ v.items ≠ [] ∧
      (∀ x ∈ v.items, (∀ c ∈ x.1, space c = true) ∧ x.2.int ++ x.2.frac.getD [] ≠ [] ∧ (∀ e ∈ x.2.exp, e.2 ≠ [])) ∧ v.stop = ';' := by
    decide +kernel
  have hF : ∀ c ∈ [exFile.header, exFile.is2DComment], c ≠ [] ∧ c.length ≤ 999 ∧ '=' ∉ c := by decide +kernel
  refine ⟨hF _ (by simp), by decide +kernel, by decide +kernel, ⟨_, rfl⟩, ?_, hN _ (hC _ (by simp)), ?_, hF _ (by simp), by decide +kernel,
    by decide +kernel⟩
  · intro n hn
    refine ⟨hN _ (hC n (by simp only [List.mem_cons, List.not_mem_nil, or_false] at hn ⊢; tauto)), ?_⟩
    simp only [List.mem_cons, List.not_mem_nil, or_false] at hn
    rcases hn with rfl | rfl | rfl | rfl | rfl | rfl | rfl | rfl | rfl | rfl | rfl | rfl <;> first | exact hE _ _ (.inl rfl) | exact hE _ _ (.inr rfl)
  · intro v hv
    refine ⟨hV v (hD v hv), ?_⟩
    rcases List.mem_cons.mp hv with rfl | hv
    · exact hE _ _ (.inl rfl)
    · rw [List.mem_singleton.mp hv]
      exact hE _ _ (.inl rfl)

/-- the hypotheses of `C96_read_partial` hold for it -/
example : readFile 6 (exFile.text ++ [';', '\n']) = some (.ok ⟨chars! "out/A1/", 10000000000, 600, 2, 1 / 10, 1 / 10, 1, 0, 4, 2,
    [-16, 16, 0, 1, 0, 1], true, [[8, 16, 2 / 5]], 3 / 5, 0, 1 / 20⟩) := by
  rw [C96_read_partial exFile exFile_valid 10000000000 4 2 (by decide +kernel) (by decide) (by decide) (by decide +kernel) (by decide) (by decide)
    (by decide +kernel) (by decide) (by decide) rfl (by decide +kernel) (by decide) (by decide) [';', '\n'] ⟨_, _, rfl, by decide⟩ 6 le_rfl]
  decide +kernel

/-- a comment of 1000 blanks: the 7 behind it is taken for the number of threads -/
example : readNumber (.at (List.replicate 1000 ' ' ++ ((⟨false, [7], none, none⟩ : RealText).text ++ exFile.numThreads.text))) =
    .ok ((⟨false, [7], none, none⟩ : RealText).value, .at exFile.numThreads.text) ∧ (⟨false, [7], none, none⟩ : RealText).value = 7 :=
  ⟨C96_comment_counterexample _ List.length_replicate (fun h => absurd (List.eq_of_mem_replicate h) (by decide)) _ ⟨by decide, by decide⟩ _ ⟨_, _, rfl, by decide⟩, by decide +kernel⟩

/-- a file that ends with a sieve without semicolon -/
example (fuel : Nat) : readVector fuel (.at (chars! "sieve1 = 8, 16,4")) = none :=
  C96_vector_at_end [([' '], ⟨false, [8], none, none⟩), ([' '], ⟨false, [1, 6], none, none⟩)]
    (by
      intro x hx
      simp only [List.mem_cons, List.not_mem_nil, or_false] at hx
      rcases hx with rfl | rfl
      · exact ⟨by decide, by decide, by decide⟩
      · exact ⟨by decide, by decide, by decide⟩) (chars! "sieve1 ") ⟨by decide, by decide, by decide⟩ 4 (by decide) fuel

/-- a directory with 60 characters -/
example : ∃ s, readString (.at (chars! "directory " ++ '=' :: (List.replicate 60 'a' ++ [';', '\n']))) = .ok (List.replicate 57 'a', s) := by
  obtain ⟨s, h⟩ := C96_directory_counterexample (chars! "directory ") (List.replicate 60 'a') [';', '\n'] ⟨by decide, by decide, by decide⟩
    (by simp) (by simp)
  exact ⟨s, h⟩

/-- three and a half threads are three threads -/
example : toInt 32 (7 / 2) = .ok 3 := by
  rw [C96_truncated 32 (7 / 2) (by norm_num) (by norm_num)]
  norm_num

end InputReader
end NuTo
