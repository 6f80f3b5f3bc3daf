import Verif.Lemmas.GmshText

/-!
C93: gmsh text files are read as written or refused.
-/
namespace NuTo
namespace GmshText

open Gmsh

/-- C93: a text file with the documented header and any documented sections in any order is read completely: the numbers, elements and
names are those of the text; a section that is repeated replaces the one before.  Lines may end with or without carriage return, numbers
may have fraction and exponent.  (`fuel` is the number of rounds of the loop over the sections.)

Partial: see the counterexamples for elements with other types and for files with missing lines; names with blanks are not read
completely (`C71_blank_counterexample`). -/
theorem C93_read_partial (binary : Res Stream) (eol : List Char) (h : eol = ['\n'] ∨ eol = ['\r', '\n']) (version : RealText) (size : IntText)
    (hv : version.Valid) (h2 : 2 ≤ version.value) (hs : size.Valid) (l : List Section) (hl : ∀ x ∈ l, x.Valid) (fuel : Nat)
    (hf : l.length + 2 ≤ fuel) :
    readFile binary fuel (headerText eol version size ++ l.flatMap (Section.text eol)) = some (.ok (l.foldl Section.put {})) := by
  have := header_at h binary version size hv h2 hs (l.flatMap (Section.text eol))
  rw [Stream.at] at this
  rw [readFile, this]
  exact sections_at h l hl _ _ hf

/-- C93: reading ends for every file: the loop over the sections needs at most as many rounds as the file has characters, and two more.
(`binary` stands for what is left after the header of a binary file, see `readHeader`.) -/
theorem C93_terminates (binary : Res Stream) (text : List Char)
    (hb : ∀ s, binary = .ok s → s.fail = false ∧ s.rest.length ≤ text.length) (fuel : Nat) (hf : text.length + 2 ≤ fuel) :
    readFile binary fuel text ≠ none := by
  rw [readFile]
  have key : ∀ s, readHeader binary ⟨text, false, false⟩ = .ok s → s.fail = false ∧ s.rest.length ≤ text.length := by
    intro s h
    rcases header_ok h with h | ⟨t, h1, h2⟩
    · exact hb s h
    · obtain ⟨h3, q, h4, h5⟩ := expect_ok (by decide) h2
      have e1 := h1.length_le
      have e2 := congrArg List.length h4
      have e3 := h5.length_le
      rw [List.length_append] at e2
      exact ⟨h3, e3.trans ((Nat.le_add_left _ _).trans (e2.symm.le.trans e1))⟩
  cases h : readHeader binary ⟨text, false, false⟩ with
  | ok s =>
    obtain ⟨h1, h2⟩ := key s h
    exact sections_end fuel _ s (.inr ⟨h1, by omega⟩)
  | throw => simp
  | ub => simp

/-- C93: whatever the characters, reading nodes or names is never undefined. -/
theorem C93_nodes_names_defined (s : Stream) : readNodes s ≠ .ub ∧ readNames s ≠ .ub := by
  have hc : readCount s ≠ .ub := by
    rw [readCount, stoi]
    split_ifs <;> simp only [Res.bind_ok', Res.bind_throw', ne_eq, reduceCtorEq, not_false_eq_true]
    split_ifs <;> simp
  have he : ∀ s w, expect s w ≠ .ub := by
    intro s w
    rw [expect]
    split <;> simp
  have ht : ∀ {α : Type} (read : Stream → α × Stream) n s, times (fun s => .ok (read s)) n s ≠ .ub := by
    intro α read n
    induction n with
    | zero => intro s; simp [times]
    | succ n ih =>
      intro s
      rw [times, Res.bind_ok']
      cases h : times (fun s => .ok (read s)) n (read s).2 with
      | ok r => simp
      | throw => simp
      | ub => exact absurd h (ih _)
  have key : ∀ {α : Type} (read : Stream → α × Stream) w, (readCount s).bind (fun c => (times (fun s => .ok (read s)) c.1 c.2).bind fun r =>
      (expect r.2 w).bind fun s => .ok (r.1, s)) ≠ .ub := by
    intro α read w
    cases h1 : readCount s with
    | ok c =>
      rw [Res.bind_ok']
      cases h2 : times (fun s => .ok (read s)) c.1 c.2 with
      | ok r =>
        rw [Res.bind_ok']
        cases h3 : expect r.2 w with
        | ok s => simp
        | throw => simp
        | ub => exact absurd h3 (he _ _)
      | throw => simp
      | ub => exact absurd h2 (ht _ _ _)
    | throw => simp
    | ub => exact absurd h1 hc
  exact ⟨key _ _, key _ _⟩

/-- C93: nodes are only accepted if their section is closed by `$EndNodes`, and the same for elements and names: a file cut off within a
section is not accepted. -/
theorem C93_end_marker (s : Stream) :
    (∀ r, readNodes s = .ok r → "$EndNodes".toList <:+: s.rest) ∧ (∀ r, readElements s = .ok r → "$EndElements".toList <:+: s.rest) ∧
    (∀ r, readNames s = .ok r → "$EndPhysicalNames".toList <:+: s.rest) := by
  refine ⟨fun r h => ?_, fun r h => ?_, fun r h => ?_⟩
  · obtain ⟨_, p, q, e, _⟩ := readNodes_ok h
    exact ⟨p, q, e.symm⟩
  · obtain ⟨_, p, q, e, _⟩ := readElements_ok h
    exact ⟨p, q, e.symm⟩
  · obtain ⟨_, p, q, e, _⟩ := readNames_ok h
    exact ⟨p, q, e.symm⟩

/-- C93: the numbers of records in a file must be right: if the section of nodes or names after any valid sections announces another
number (in the range of `int`), reading throws; so does a section of elements that announces fewer elements.  `r` is the rest of the file. -/
theorem C93_wrong_number (binary : Res Stream) (eol : List Char) (h : eol = ['\n'] ∨ eol = ['\r', '\n']) (version : RealText) (size : IntText)
    (hv : version.Valid) (h2 : 2 ≤ version.value) (hs : size.Valid) (l : List Section) (hl : ∀ x ∈ l, x.Valid) (x : Section)
    (hx : match x with
      | .nodes n m => n.Valid ∧ n.value ≠ m.length ∧ ∀ y ∈ m, y.Valid
      | .names n m => n.Valid ∧ n.value ≠ m.length ∧ ∀ y ∈ m, y.Valid
      | .elements n m => n.Valid ∧ n.value < m.length ∧ ∀ y ∈ m, y.Valid) (r : List Char) (fuel : Nat) :
    readFile binary (l.length + (fuel + 1)) (headerText eol version size ++ (l.flatMap (Section.text eol) ++ (x.text eol ++ r))) =
      some .throw := by
  rw [readFile_then binary h version size hv h2 hs l hl, sections]
  simp only [Stream.at, Bool.false_eq_true, if_false]
  have key : ∀ c, processSection c (.at (x.text eol ++ r)) = .throw := by
    intro c
    cases x with
    | nodes n m =>
      obtain ⟨g1, g2, g3⟩ := hx
      rw [section_nodes h c n m r]
      have := records_wrong readNode (NodeLine.text eol) NodeLine.record NodeLine.Valid (fun a r ha => by rw [readNode_at h a ha])
        (fun s hs => readNode_failed hs) readNode_dollar
        (fun a ha => by
          obtain ⟨c, w, e, hc⟩ := IntText.first ha.1
          exact ⟨c, _, by rw [NodeLine.text, e]; rfl, hc⟩) m g3 h n g1 g2 "EndNodes".toList ("EndNodes".toList ++ eol ++ r)
      exact congrArg (fun z => z.bind fun a => Res.ok (({ c with nodes := a.1 } : Content), a.2)) this
    | names n m =>
      obtain ⟨g1, g2, g3⟩ := hx
      rw [section_names h c n m r]
      have := records_wrong readPhysicalName (NameLine.text eol) NameLine.record NameLine.Valid (fun a r ha => by rw [readName_at h a ha])
        (fun s hs => readName_failed hs) readName_dollar
        (fun a ha => by
          obtain ⟨c, w, e, hc⟩ := IntText.first ha.1
          exact ⟨c, _, by rw [NameLine.text, e]; rfl, hc⟩) m g3 h n g1 g2 "EndPhysicalNames".toList ("EndPhysicalNames".toList ++ eol ++ r)
      exact congrArg (fun z => z.bind fun a => Res.ok (({ c with names := a.1 } : Content), a.2)) this
    | elements n m =>
      obtain ⟨g1, g2, g3⟩ := hx
      rw [section_elements h c n m r]
      have : readElements (.at (n.text ++ eol ++ (m.flatMap (ElementLine.text eol) ++ ("$EndElements".toList ++ eol ++ r)))) = .throw := by
        rw [readElements]
        rcases lt_or_ge n.value 0 with h0 | h0
        · rw [count_negative h n g1 h0]
          rfl
        · obtain ⟨k, hk⟩ := Int.eq_ofNat_of_zero_le h0
          rw [readCount_at h n g1 k hk, Res.bind_ok']
          exact records_fewer readElement (ElementLine.text eol) ElementLine.record ElementLine.Valid
            (fun a r ha => readElement_at h a ha r) (fun a ha => by
              obtain ⟨c, w, e, hc⟩ := IntText.first ha.1
              exact ⟨c, _, by rw [ElementLine.text, e]; rfl, hc⟩) m g3 "EndElements".toList _ k (by omega)
      rw [this]
      rfl
  have := key (l.foldl Section.put {})
  rw [Stream.at] at this
  rw [this]

/-- C93: a section with another name is refused: a non-empty line that begins with none of the three names. -/
theorem C93_unknown_section (binary : Res Stream) (eol : List Char) (h : eol = ['\n'] ∨ eol = ['\r', '\n']) (version : RealText) (size : IntText)
    (hv : version.Valid) (h2 : 2 ≤ version.value) (hs : size.Valid) (l : List Section) (hl : ∀ x ∈ l, x.Valid) (line : List Char)
    (hne : line ≠ []) (hnl : ∀ c ∈ line, c ≠ '\n') (h3 : ∀ w ∈ ["$PhysicalNames", "$Nodes", "$Elements"], ¬ w.toList <+: line) (r : List Char)
    (fuel : Nat) :
    readFile binary (l.length + (fuel + 1)) (headerText eol version size ++ (l.flatMap (Section.text eol) ++ (line ++ eol ++ r))) =
      some .throw := by
  rw [readFile_then binary h version size hv h2 hs l hl, sections]
  simp only [Stream.at, Bool.false_eq_true, if_false]
  obtain ⟨cr, hcr, e⟩ := getline_at h line r hnl
  have key : processSection (l.foldl Section.put {}) (.at (line ++ eol ++ r)) = .throw := by
    have hcmp : ∀ w ∈ ["$PhysicalNames", "$Nodes", "$Elements"], compareLeft (line ++ cr) w.toList ≠ true := by
      intro w hw hc
      rw [compareLeft, beq_iff_eq] at hc
      have hp : w.toList <+: line ++ cr := hc ▸ List.take_prefix _ _
      have hspace : ∀ w ∈ ["$PhysicalNames", "$Nodes", "$Elements"], ∀ c ∈ w.toList, space c = false := by decide
      rcases List.prefix_or_prefix_of_prefix hp (List.prefix_append line cr) with h4 | ⟨t, ht⟩
      · exact h3 w hw h4
      · cases t with
        | nil => exact h3 w hw (by rw [← ht, List.append_nil])
        | cons c t =>
          rw [← ht, List.prefix_append_right_inj] at hp
          have h5 := (hcr c (hp.subset List.mem_cons_self)).1
          rw [hspace w hw c (by rw [← ht]; simp)] at h5
          simp at h5
    rw [processSection, e]
    simp only
    rw [if_neg (by simp [hne]), if_neg (hcmp _ (by simp)), if_neg (hcmp _ (by simp)), if_neg (hcmp _ (by simp))]
  rw [Stream.at] at key
  rw [key]

/-- C93: a section of elements with fewer lines than announced is not refused but undefined: the number of tags is used without a value. -/
theorem C93_missing_elements_counterexample (binary : Res Stream) (eol : List Char) (h : eol = ['\n'] ∨ eol = ['\r', '\n']) (version : RealText)
    (size : IntText) (hv : version.Valid) (h2 : 2 ≤ version.value) (hs : size.Valid) (l : List Section) (hl : ∀ x ∈ l, x.Valid) (n : IntText)
    (hn : n.Valid) (m : List ElementLine) (hm : ∀ y ∈ m, y.Valid) (hlt : (m.length : Int) < n.value) (r : List Char) (fuel : Nat) :
    readFile binary (l.length + (fuel + 1))
      (headerText eol version size ++ (l.flatMap (Section.text eol) ++ ((Section.elements n m).text eol ++ r))) = some .ub := by
  rw [readFile_then binary h version size hv h2 hs l hl, sections]
  simp only [Stream.at, Bool.false_eq_true, if_false]
  have key : ∀ c, processSection c (.at ((Section.elements n m).text eol ++ r)) = .ub := by
    intro c
    rw [section_elements h c n m r]
    have := elements_more h n hn m hm hlt ("EndElements".toList ++ eol ++ r)
    exact congrArg (fun z => z.bind fun a => Res.ok (({ c with elements := a.1 } : Content), a.2)) this
  have := key (l.foldl Section.put {})
  rw [Stream.at] at this
  rw [this]

/-- C93: an element of a type that `NumNodes` does not know, such as the quadrilateral with 16 nodes (type 36), is undefined: the table is
read out of range. -/
theorem C93_type_counterexample : readElement (.at "1 36 0 1 2\n".toList) = .ub := by decide +kernel

/-- C93: an empty file, or one in which no numbers follow the first line, is undefined: version and format are used without a value. -/
theorem C93_empty_counterexample (binary : Res Stream) (fuel : Nat) :
    readFile binary fuel [] = some .ub ∧ readFile binary fuel "$MeshFormat\n$EndMeshFormat\n".toList = some .ub := ⟨rfl, rfl⟩

/-! ### Examples -/

/-- 2.2 -/
def exVersion : RealText := ⟨false, [2], some [2], none⟩
def exOne : IntText := ⟨false, [1]⟩
def exTwo : IntText := ⟨false, [2]⟩
/-- -1.5e-03 -/
def exReal : RealText := ⟨true, [1], some [5], some (some true, [0, 3])⟩
def exZero : RealText := ⟨false, [0], none, none⟩

/-- A mesh of one line between two nodes -/
def exSections : List Section :=
  [.names exOne [⟨exOne, ⟨false, [7]⟩, "Rod".toList⟩],
   .nodes exTwo [⟨exOne, exReal, exZero, exZero⟩, ⟨exTwo, exVersion, exZero, exZero⟩],
   .elements exOne [⟨exOne, exOne, exTwo, [⟨false, [7]⟩, ⟨false, [7]⟩], [exOne, exTwo]⟩]]

example : headerText ['\n'] exVersion ⟨false, [8]⟩ ++ exSections.flatMap (Section.text ['\n']) =
    ("$MeshFormat\n2.2 0 8\n$EndMeshFormat\n$PhysicalNames\n1\n1 7 \"Rod\"\n$EndPhysicalNames\n$Nodes\n2\n" ++
      "1 -1.5e-03 0 0\n2 2.2 0 0\n$EndNodes\n$Elements\n1\n1 1 2 7 7 1 2\n$EndElements\n").toList := by decide +kernel

theorem exValid : exVersion.Valid ∧ 2 ≤ exVersion.value ∧ IntText.Valid ⟨false, [8]⟩ ∧ ∀ x ∈ exSections, x.Valid := by
  have h1 : exOne.Valid := ⟨by decide, by decide, by decide⟩
  have h2 : exTwo.Valid := ⟨by decide, by decide, by decide⟩
  have h7 : IntText.Valid ⟨false, [7]⟩ := ⟨by decide, by decide, by decide⟩
  have hr : exReal.Valid := ⟨by decide, by simp [exReal]⟩
  have hz : exZero.Valid := ⟨by decide, by simp [exZero]⟩
  have hv : exVersion.Valid := ⟨by decide, by simp [exVersion]⟩
  refine ⟨hv, by decide +kernel, ⟨by decide, by decide, by decide⟩, ?_⟩
  intro x hx
  simp only [exSections, List.mem_cons, List.not_mem_nil, or_false] at hx
  rcases hx with rfl | rfl | rfl
  · exact ⟨h1, rfl, by simp only [List.mem_singleton, forall_eq]; exact ⟨h1, h7, by decide⟩⟩
  · refine ⟨h2, rfl, ?_⟩
    simp only [List.mem_cons, List.not_mem_nil, or_false, forall_eq_or_imp, forall_eq]
    exact ⟨⟨h1, hr, hz, hz⟩, ⟨h2, hv, hz, hz⟩⟩
  · refine ⟨h1, rfl, ?_⟩
    simp only [List.mem_singleton, forall_eq]
    refine ⟨h1, h1, h2, rfl, ?_, ?_, rfl⟩
    · simp only [List.mem_cons, List.not_mem_nil, or_false, forall_eq_or_imp, forall_eq]
      exact ⟨h7, h7⟩
    · simp only [List.mem_cons, List.not_mem_nil, or_false, forall_eq_or_imp, forall_eq]
      exact ⟨h1, h2⟩

/-- The hypotheses of `C93_read_partial` are met by a file with names, nodes and elements. -/
example : readFile .throw 10 (headerText ['\n'] exVersion ⟨false, [8]⟩ ++ exSections.flatMap (Section.text ['\n'])) =
    some (.ok ⟨[⟨1, -3 / 2000, 0, 0⟩, ⟨2, 11 / 5, 0, 0⟩], [⟨1, 1, [7, 7], [1, 2]⟩], [⟨1, 7, "Rod".toList⟩]⟩) := by
  rw [C93_read_partial .throw _ (.inl rfl) exVersion ⟨false, [8]⟩ exValid.1 exValid.2.1 exValid.2.2.1 exSections exValid.2.2.2 10 (by decide)]
  have e1 : exReal.value = -3 / 2000 := by decide +kernel
  have e2 : exVersion.value = 11 / 5 := by decide +kernel
  have e3 : exZero.value = 0 := by decide +kernel
  simp only [exSections, List.foldl_cons, List.foldl_nil, Section.put, List.map_cons, List.map_nil, NodeLine.record, e1, e2, e3]
  rfl

/-- The same file with carriage returns, and of any length in rounds, ends. -/
example : readFile .throw 200 (headerText ['\r', '\n'] exVersion ⟨false, [8]⟩ ++ exSections.flatMap (Section.text ['\r', '\n'])) ≠ none :=
  C93_terminates .throw _ (by simp) 200 (by decide +kernel)

/-- The sections of the example are refused if followed by nodes with a wrong number, and if followed by another section. -/
example (r : List Char) :
    readFile .throw 4 (headerText ['\n'] exVersion ⟨false, [8]⟩ ++ (exSections.flatMap (Section.text ['\n']) ++
      ((Section.nodes exTwo [⟨exOne, exZero, exZero, exZero⟩]).text ['\n'] ++ r))) = some .throw ∧
    readFile .throw 4 (headerText ['\n'] exVersion ⟨false, [8]⟩ ++ (exSections.flatMap (Section.text ['\n']) ++
      ("$NodeData".toList ++ ['\n'] ++ r))) = some .throw := by
  have hz : exZero.Valid := ⟨by decide, by simp [exZero]⟩
  constructor
  · exact C93_wrong_number .throw _ (.inl rfl) exVersion ⟨false, [8]⟩ exValid.1 exValid.2.1 exValid.2.2.1 exSections exValid.2.2.2
      (.nodes exTwo [⟨exOne, exZero, exZero, exZero⟩])
      ⟨⟨by decide, by decide, by decide⟩, by decide, by
        simp only [List.mem_singleton, forall_eq]
        exact ⟨⟨by decide, by decide, by decide⟩, hz, hz, hz⟩⟩ r 0
  · exact C93_unknown_section .throw _ (.inl rfl) exVersion ⟨false, [8]⟩ exValid.1 exValid.2.1 exValid.2.2.1 exSections exValid.2.2.2
      "$NodeData".toList (by decide) (by decide) (by decide) r 0

/-- Two elements announced, one given -/
example (r : List Char) : readFile .throw 4 (headerText ['\n'] exVersion ⟨false, [8]⟩ ++ (exSections.flatMap (Section.text ['\n']) ++
      ((Section.elements exTwo [⟨exOne, exOne, ⟨false, [0]⟩, [], [exOne, exTwo]⟩]).text ['\n'] ++ r))) = some .ub :=
  C93_missing_elements_counterexample .throw _ (.inl rfl) exVersion ⟨false, [8]⟩ exValid.1 exValid.2.1 exValid.2.2.1 exSections exValid.2.2.2
    exTwo ⟨by decide, by decide, by decide⟩ [⟨exOne, exOne, ⟨false, [0]⟩, [], [exOne, exTwo]⟩] (by
      simp only [List.mem_singleton, forall_eq]
      refine ⟨⟨by decide, by decide, by decide⟩, ⟨by decide, by decide, by decide⟩, ⟨by decide, by decide, by decide⟩, rfl, by simp, ?_, rfl⟩
      simp only [List.mem_cons, List.not_mem_nil, or_false, forall_eq_or_imp, forall_eq]
      exact ⟨⟨by decide, by decide, by decide⟩, ⟨by decide, by decide, by decide⟩⟩) (by decide) r 0

end GmshText
end NuTo
