import Verif.Lemmas.GmshBytes

/-!
C127: binary gmsh files are read as written or refused.
-/
namespace NuTo
namespace GmshBytes

open Gmsh GmshText

/-- C127: a binary file with the documented header and any documented sections in any order is read completely, if every header of elements
is followed by one element: numbers of nodes, coordinates as in IEEE 754, elements and names are those of the file, whatever bytes they
consist of; a section that is repeated replaces the one before.  (`fuel` is the number of rounds of the loop over the sections.)

Partial: false for headers followed by more elements, see `C127_blocks_counterexample`. -/
theorem C127_read_partial (eol : List Char) (h : eol = ['\n'] ∨ eol = ['\r', '\n']) (version : RealText) (size : IntText)
    (hv : version.Valid) (h2 : 2 ≤ version.value) (hs : size.Valid) (l : List Part) (hl : ∀ x ∈ l, x.Valid) (h1 : ∀ x ∈ l, x.Single)
    (fuel : Nat) (hf : l.length + 2 ≤ fuel) :
    readFile fuel (headerBytes eol version size (intBytes 1) ++ l.flatMap (Part.bytes eol)) = some (.ok (l.foldl Part.put {})) := by
  have := header_one h version size hv h2 hs (intBytes 1) rfl (l.flatMap (Part.bytes eol))
  rw [Stream.at, if_pos (intOf_intBytes 1 (by constructor <;> norm_num))] at this
  rw [readFile, this]
  exact parts_at h l hl h1 _ _ hf

/-- C127: a file written with another order of bytes is refused: every file whose four bytes after the first lines are not those of the
number 1, whatever follows. -/
theorem C127_byte_order (eol : List Char) (h : eol = ['\n'] ∨ eol = ['\r', '\n']) (version : RealText) (size : IntText)
    (hv : version.Valid) (h2 : 2 ≤ version.value) (hs : size.Valid) (one : List Char) (hlen : one.length = 4) (hbyte : ∀ c ∈ one, c.toNat < 256)
    (hne : one ≠ ['\x01', '\x00', '\x00', '\x00']) (r : List Char) (fuel : Nat) :
    readFile fuel (headerBytes eol version size one ++ r) = some .throw := by
  have hone : intOf one ≠ 1 := by
    intro h
    match one, hlen with
    | [a, b, c, d], _ =>
      have ha := hbyte a (by simp)
      have hb := hbyte b (by simp)
      have hc := hbyte c (by simp)
      have hd := hbyte d (by simp)
      have e : natOf [a, b, c, d] = 1 := by
        rw [intOf] at h
        have hlt : natOf [a, b, c, d] < 2 ^ 32 := by
          simp only [natOf, List.foldr_cons, List.foldr_nil]
          omega
        split_ifs at h with h0 <;> norm_num at hlt h0 h <;> omega
      simp only [natOf, List.foldr_cons, List.foldr_nil] at e
      have inj : ∀ (x : Char) (n : Nat) (y : Char), x.toNat = n → y.toNat = n → x = y := fun x n y hx hy =>
        Char.toNat_inj.1 (hx.trans hy.symm)
      refine hne ?_
      rw [inj a 1 '\x01' (by omega) rfl, inj b 0 '\x00' (by omega) rfl, inj c 0 '\x00' (by omega) rfl, inj d 0 '\x00' (by omega) rfl]
  have := header_one h version size hv h2 hs one hlen r
  rw [Stream.at, if_neg hone] at this
  rw [readFile, this]

/-- C127: text files are read as by the model of text files (C93): if the result of the latter does not depend on its outcome for
binary files, it is the result. -/
theorem C127_text (fuel : Nat) (text : List Char) (h : GmshText.readFile .throw fuel text = GmshText.readFile .ub fuel text) :
    readFile fuel text = GmshText.readFile .throw fuel text := by
  have hsec : ∀ (fuel : Nat) (c : Content) (s : Stream), sections false fuel c s = GmshText.sections fuel c s := by
    intro fuel
    induction fuel with
    | zero => exact fun c s => rfl
    | succ fuel ih =>
      intro c s
      have hp : processSection false c s = GmshText.processSection c s := rfl
      rw [sections, GmshText.sections, hp]
      split
      · rfl
      · cases GmshText.processSection c s with
        | ok r => exact ih _ _
        | throw => rfl
        | ub => rfl
  rw [readFile]
  rw [GmshText.readFile, GmshText.readFile] at h
  rw [GmshText.readFile]
  rw [GmshText.readHeader, GmshText.readHeader] at h
  rw [GmshText.readHeader, readHeader]
  simp only at h ⊢
  cases hver : (extractDouble (getline ⟨text, false, false⟩).2).1 with
  | none => rfl
  | some v =>
    cases hflag : (extractInt (extractDouble (getline ⟨text, false, false⟩).2).2).1 with
    | none => rfl
    | some b =>
      rw [hver, hflag] at h
      simp only at h ⊢
      by_cases c1 : v < 2
      · simp only [c1, if_true]
      · by_cases c2 : b ≠ 0
        · simp only [c1, c2, if_false, if_true, ne_eq, not_false_eq_true, Option.some.injEq, reduceCtorEq] at h
        · simp only [c1, c2, if_false]
          cases expect _ "$EndMeshFormat".toList with
          | ok s => exact hsec _ _ _
          | throw => rfl
          | ub => rfl

theorem readBytes_suffix (n : Nat) (s : Stream) : (readBytes n s).2.rest <:+ s.rest := by
  rw [readBytes]
  split
  · exact List.suffix_refl _
  · split
    · exact List.drop_suffix _ _
    · exact List.nil_suffix

theorem readNode_suffix (s : Stream) : (readNode s).2.rest <:+ s.rest :=
  (readBytes_suffix _ _).trans (readBytes_suffix _ _)

theorem readCount_suffix (s : Stream) {r : Nat × Stream} (h : readCount s = .ok r) : r.2.rest <:+ s.rest := by
  rw [readCount] at h
  simp only at h
  split at h
  · simp at h
  · obtain rfl := Res.ok.inj h
    exact (getline_suffix _).trans (extractInt_suffix s)

theorem readNodes_ok {s : Stream} {r : List (NodeRecord ℚ) × Stream} (h : readNodes s = .ok r) :
    r.2.fail = false ∧ ∃ p q, s.rest = p ++ "$EndNodes".toList ++ q ∧ r.2.rest <:+ q := by
  obtain ⟨a, h1, h2⟩ := bind_ok_iff.1 h
  obtain ⟨b, h3, h4⟩ := bind_ok_iff.1 h2
  obtain ⟨c, h5, h6⟩ := bind_ok_iff.1 h4
  obtain rfl := Res.ok.inj h6
  obtain ⟨hf, q, h7, h8⟩ := expect_ok (by decide) h5
  obtain ⟨p, hp⟩ := ((getline_suffix _).trans (times_suffix (fun s r h => by obtain rfl := Res.ok.inj h; exact readNode_suffix s) _ _ _ h3)).trans
    (readCount_suffix s h1)
  exact ⟨hf, p, q, by rw [← hp, h7, List.append_assoc], h8⟩

theorem readElements_ok {s : Stream} {r : List Element × Stream} (h : readElements s = .ok r) :
    r.2.fail = false ∧ ∃ p q, s.rest = p ++ "$EndElements".toList ++ q ∧ r.2.rest <:+ q := by
  obtain ⟨a, h1, h2⟩ := bind_ok_iff.1 h
  obtain ⟨b, h3, h4⟩ := bind_ok_iff.1 h2
  obtain ⟨c, h5, h6⟩ := bind_ok_iff.1 h4
  obtain rfl := Res.ok.inj h6
  obtain ⟨hf, q, h7, h8⟩ := expect_ok (by decide) h5
  have hd : ∀ k, (getline { a.2 with rest := a.2.rest.drop k }).2.rest <:+ s.rest := fun k =>
    (getline_suffix _).trans ((List.drop_suffix k a.2.rest).trans (readCount_suffix s h1))
  obtain ⟨p, hp⟩ := hd (4 * ((if a.2.eof || a.2.fail then [] else words a.2.rest).length - b.rest.length))
  exact ⟨hf, p, q, by rw [← hp, h7, List.append_assoc], h8⟩

/-- C127: binary sections are only accepted if they are closed by `$EndNodes` or `$EndElements`: a file cut off within a section is not
accepted. -/
theorem C127_end_marker (s : Stream) :
    (∀ r, readNodes s = .ok r → "$EndNodes".toList <:+: s.rest) ∧ (∀ r, readElements s = .ok r → "$EndElements".toList <:+: s.rest) := by
  refine ⟨fun r h => ?_, fun r h => ?_⟩
  · obtain ⟨_, p, q, e, _⟩ := readNodes_ok h
    exact ⟨p, q, e.symm⟩
  · obtain ⟨_, p, q, e, _⟩ := readElements_ok h
    exact ⟨p, q, e.symm⟩

theorem section_progress {bin : Bool} {c : Content} {s : Stream} (hf : s.fail = false) (he : s.eof = false) {r : Content × Stream}
    (h : processSection bin c s = .ok r) : r.2.eof = true ∨ (r.2.fail = false ∧ r.2.rest.length < s.rest.length) := by
  cases bin with
  | false => exact GmshText.section_progress hf he (c := c) h
  | true =>
    by_cases hb : (getline s).1 = [] ∨ compareLeft (getline s).1 "$PhysicalNames".toList = true ∨
        (compareLeft (getline s).1 "$Nodes".toList = false ∧ compareLeft (getline s).1 "$Elements".toList = false)
    · refine GmshText.section_progress hf he (c := c) (r := r) ?_
      rw [← h, processSection, GmshText.processSection]
      simp only
      rcases hb with hb | hb | ⟨hb1, hb2⟩
      · rw [if_pos hb, if_pos hb]
      · by_cases h0 : (getline s).1 = []
        · rw [if_pos h0, if_pos h0]
        · rw [if_neg h0, if_neg h0, if_pos hb, if_pos hb]
      · rw [hb1, hb2]
        rfl
    · push Not at hb
      obtain ⟨hne, hb2, hb3⟩ := hb
      right
      have key : ∀ t : Stream, (t.fail = false ∧ ∃ p q : List Char, ∃ w, (getline s).2.rest = p ++ w ++ q ∧ t.rest <:+ q) →
          t.fail = false ∧ t.rest.length < s.rest.length := by
        intro t ⟨h1, p, q, w, h2, h3⟩
        obtain ⟨_, _, _, p', h4, h5⟩ := getline_nonempty s hne
        have l1 := h3.length_le
        have l2 := h5.length_le
        have l3 : 0 < (getline s).1.length := List.length_pos_iff.2 hne
        have l4 := congrArg List.length h2
        have l5 := congrArg List.length h4
        simp only [List.length_append] at l4 l5
        exact ⟨h1, by omega⟩
      rw [processSection] at h
      simp only [if_neg hne, if_neg hb2, if_true] at h
      split at h
      · obtain ⟨a, h1, h2⟩ := bind_ok_iff.1 h
        obtain rfl := Res.ok.inj h2
        obtain ⟨g1, p, q, g2, g3⟩ := readNodes_ok h1
        exact key a.2 ⟨g1, p, q, _, g2, g3⟩
      · split at h
        · obtain ⟨a, h1, h2⟩ := bind_ok_iff.1 h
          obtain rfl := Res.ok.inj h2
          obtain ⟨g1, p, q, g2, g3⟩ := readElements_ok h1
          exact key a.2 ⟨g1, p, q, _, g2, g3⟩
        · simp at h

theorem sections_end (bin : Bool) (fuel : Nat) : ∀ (c : Content) (s : Stream),
    (s.eof = true ∧ 1 ≤ fuel) ∨ (s.fail = false ∧ s.rest.length + 2 ≤ fuel) → sections bin fuel c s ≠ none := by
  induction fuel with
  | zero => intro c s h; omega
  | succ fuel ih =>
    intro c s h
    rw [sections]
    split
    · simp
    · rename_i he
      rw [Bool.not_eq_true] at he
      obtain ⟨hf, hl⟩ : s.fail = false ∧ s.rest.length + 2 ≤ fuel + 1 := by
        rcases h with h | h
        · exact absurd h.1 (by simp [he])
        · exact h
      cases hp : processSection bin c s with
      | ok r =>
        refine ih _ _ ?_
        rcases section_progress hf he hp with h1 | ⟨h1, h2⟩
        · exact .inl ⟨h1, by omega⟩
        · exact .inr ⟨h1, by omega⟩
      | throw => simp
      | ub => simp

/-- C127: reading ends for every file, text or binary or neither: the loop over the sections needs at most as many rounds as the file has
bytes, and two more. -/
theorem C127_terminates (bytes : List Char) (fuel : Nat) (hf : bytes.length + 2 ≤ fuel) : readFile fuel bytes ≠ none := by
  rw [readFile]
  have key : ∀ r, readHeader ⟨bytes, false, false⟩ = .ok r → r.2.fail = false ∧ r.2.rest.length ≤ bytes.length := by
    intro r h
    have fin : ∀ (t : Stream) (b : Bool), t.rest <:+ bytes → (expect t "$EndMeshFormat".toList).bind (fun s => .ok (b, s)) = .ok r →
        r.2.fail = false ∧ r.2.rest.length ≤ bytes.length := by
      intro t b h1 h2
      obtain ⟨s, h3, h4⟩ := bind_ok_iff.1 h2
      obtain rfl := Res.ok.inj h4
      obtain ⟨h5, q, h6, h7⟩ := expect_ok (by decide) h3
      have e1 := h1.length_le
      have e2 := congrArg List.length h6
      have e3 := h7.length_le
      rw [List.length_append] at e2
      exact ⟨h5, e3.trans ((Nat.le_add_left _ _).trans (e2.symm.le.trans e1))⟩
    have base : ∀ s : Stream, (getline (extractInt (extractInt (extractDouble (getline s).2).2).2).2).2.rest <:+ s.rest := fun s =>
      (getline_suffix _).trans ((extractInt_suffix _).trans ((extractInt_suffix _).trans ((extractDouble_suffix _).trans (getline_suffix _))))
    rw [readHeader] at h
    simp only at h
    split at h
    · split at h
      · simp at h
      · split at h
        · split at h
          · rename_i l s' e
            split at h
            · simp at h
            · refine fin _ _ ?_ h
              have := readBytes_suffix 4 (getline (extractInt (extractInt (extractDouble (getline ⟨bytes, false, false⟩).2).2).2).2).2
              rw [e] at this
              exact (getline_suffix _).trans (this.trans (base _))
          · simp at h
        · exact fin _ _ (base _) h
    · simp at h
  cases h : readHeader ⟨bytes, false, false⟩ with
  | ok r =>
    obtain ⟨h1, h2⟩ := key r h
    exact sections_end _ fuel _ _ (.inr ⟨h1, by omega⟩)
  | throw => simp
  | ub => simp

theorem readBytes_failed {s : Stream} (h : s.fail = true) (n : Nat) : (readBytes n s).2 = s := by
  obtain ⟨r, e, f⟩ := s
  obtain rfl : f = true := h
  simp [readBytes]

theorem readNode_failed {s : Stream} (h : s.fail = true) : (readNode s).2 = s := by
  have h1 := readBytes_failed h 4
  rw [readNode]
  simp only [h1]
  exact readBytes_failed h 24

theorem readNode_short (r : List Char) (h : r.length < 28) : (readNode (.at r)).2.fail = true := by
  rw [readNode]
  simp only
  by_cases h4 : 4 ≤ r.length
  · have e : (readBytes 4 (.at r)).2 = .at (r.drop 4) := by simp [readBytes, Stream.at, h4]
    rw [e]
    have : ¬ 24 ≤ (r.drop 4).length := by simp; omega
    simp [readBytes, Stream.at, -List.length_drop, this]
  · have e : (readBytes 4 (.at r)).2 = ⟨[], true, true⟩ := by simp [readBytes, Stream.at, h4]
    rw [e, readBytes_failed rfl]

theorem readNode_long (r : List Char) (h : 28 ≤ r.length) : (readNode (.at r)).2 = .at (r.drop 28) := by
  rw [readNode]
  simp only
  have e : (readBytes 4 (.at r)).2 = .at (r.drop 4) := by simp [readBytes, Stream.at, show 4 ≤ r.length by omega]
  rw [e]
  have : 24 ≤ (r.drop 4).length := by simp; omega
  simp [readBytes, Stream.at, -List.length_drop, this]

theorem times_short (n : Nat) : ∀ r : List Char, r.length < 28 * n → ∃ l s, times (fun s => .ok (readNode s)) n (.at r) = .ok (l, s) ∧ s.fail = true := by
  induction n with
  | zero => intro r h; omega
  | succ n ih =>
    intro r h
    rw [times, Res.bind_ok']
    by_cases h28 : r.length < 28
    · obtain ⟨l, hl⟩ := times_failed (read := readNode) (fun s h => readNode_failed h) n _ (readNode_short r h28)
      exact ⟨_, _, by rw [hl, Res.bind_ok'], readNode_short r h28⟩
    · rw [readNode_long r (by omega)]
      obtain ⟨l, s, h1, h2⟩ := ih (r.drop 28) (by simp; omega)
      exact ⟨_, _, by rw [h1, Res.bind_ok'], h2⟩

/-- C127: if the data of the nodes end before the announced number of nodes, reading throws; and whatever the bytes, reading nodes is
never undefined. -/
theorem C127_nodes_cut (eol : List Char) (h : eol = ['\n'] ∨ eol = ['\r', '\n']) (count : IntText) (hc : count.Valid) (n : Nat) (hn : count.value = n)
    (r : List Char) (hr : r.length < 28 * n) : readNodes (.at (count.text ++ eol ++ r)) = .throw := by
  obtain ⟨l, s, h1, h2⟩ := times_short n r hr
  rw [readNodes, readCount_at h count hc n hn, Res.bind_ok', h1, Res.bind_ok', getline_failed h2, expect, getline_failed h2]
  rfl

theorem C127_nodes_defined (s : Stream) : readNodes s ≠ .ub := by
  rw [readNodes]
  have ht : ∀ n s, ∃ r, times (fun s => .ok (readNode s)) n s = .ok r := by
    intro n
    induction n with
    | zero => exact fun s => ⟨_, rfl⟩
    | succ n ih =>
      intro s
      obtain ⟨r, hr⟩ := ih (readNode s).2
      exact ⟨_, by rw [times, Res.bind_ok', hr, Res.bind_ok']⟩
  rw [readCount]
  simp only
  split
  · simp
  · rw [Res.bind_ok']
    obtain ⟨r, hr⟩ := ht ((extractInt s).1.getD 0).toNat (getline (extractInt s).2).2
    rw [hr, Res.bind_ok', expect]
    split <;> simp

/-- C127: a binary file that ends before the number 1 is undefined: `one` is used without a value. -/
theorem C127_header_cut_counterexample (fuel : Nat) : readFile fuel "$MeshFormat\n2.2 1 8\n".toList = some .ub := by
  have : readHeader ⟨"$MeshFormat\n2.2 1 8\n".toList, false, false⟩ = .ub := by decide +kernel
  rw [readFile, this]

/-- Two lines with one header, as in the documentation of gmsh -/
def twoLines : List Block := [⟨1, 1, [⟨7, 1, [3], [1, 2]⟩, ⟨8, 1, [3], [2, 4]⟩]⟩]

def twoLinesPart : Part := .elements ⟨false, [2]⟩ twoLines

/-- C127: false for headers followed by more elements: of a valid file with two lines the first is lost, the second takes its place, and an
element of type 0 without nodes is added. -/
theorem C127_blocks_counterexample (fuel : Nat) :
    twoLinesPart.Valid ∧
    readFile (fuel + 3) (headerBytes ['\n'] ⟨false, [2], some [2], none⟩ ⟨false, [8]⟩ (intBytes 1) ++ twoLinesPart.bytes ['\n']) =
      some (.ok ⟨[], [⟨8, 1, [3], [2, 4]⟩, ⟨0, 0, [], []⟩], []⟩) := by
  refine ⟨⟨⟨by decide, by decide, by decide⟩, by decide, ?_, ?_⟩, ?_⟩
  · intro b hb
    obtain rfl := List.mem_singleton.1 hb
    exact ⟨by simp, 2, rfl, by simp⟩
  · have : ∀ i ∈ encode twoLines, (-2 ^ 31 : Int) ≤ i ∧ i < 2 ^ 31 := by decide
    exact this
  · have hh := header_one (.inl rfl : Eol ['\n']) ⟨false, [2], some [2], none⟩ ⟨false, [8]⟩ ⟨by simp, by simp⟩
      (by norm_num [RealText.value, decimal, expValue]) ⟨by simp, by decide, by decide⟩ (intBytes 1) rfl (twoLinesPart.bytes ['\n'])
    rw [Stream.at, if_pos (intOf_intBytes 1 (by constructor <;> norm_num))] at hh
    have he : readElements (.at ("2\n".toList ++ (((encode twoLines).flatMap intBytes ++ ['\n']) ++ "$EndElements\n".toList))) =
        .ok ([⟨8, 1, [3], [2, 4]⟩, ⟨0, 0, [], []⟩], .at []) := by decide +kernel
    have hp := part_elements (.inl rfl : Eol ['\n']) {} ("2\n".toList ++ (((encode twoLines).flatMap intBytes ++ ['\n']) ++ "$EndElements\n".toList))
    rw [he, Res.bind_ok'] at hp
    have hb : twoLinesPart.bytes ['\n'] = "$Elements".toList ++ ['\n'] ++
        ("2\n".toList ++ (((encode twoLines).flatMap intBytes ++ ['\n']) ++ "$EndElements\n".toList)) := by decide +kernel
    rw [readFile, hh]
    simp only
    rw [hb, sections]
    rw [hp]
    simp [Stream.at, sections, processSection, getline]

/-! ### Example -/

/-- Two nodes, one of them at -1.5, a line with one header, and its name -/
def exParts : List Part :=
  [.nodes ⟨false, [2]⟩ [⟨1, ⟨true, 1023, ⟨2 ^ 51, by norm_num⟩⟩, ⟨false, 0, 0⟩, ⟨false, 0, 0⟩⟩, ⟨10, ⟨false, 0, 0⟩, ⟨false, 0, 0⟩, ⟨false, 0, 0⟩⟩],
    .elements ⟨false, [1]⟩ [⟨1, 2, [⟨1, 1, [7, 7], [1, 10]⟩]⟩], .names ⟨false, [1]⟩ [⟨⟨false, [1]⟩, ⟨false, [7]⟩, "Rod".toList⟩]]

/-- The hypotheses of `C127_read_partial` can be met; the number of a node may be that of the end of a line. -/
example : (RealText.Valid ⟨false, [2], some [2], none⟩ ∧ 2 ≤ RealText.value ⟨false, [2], some [2], none⟩ ∧ IntText.Valid ⟨false, [8]⟩) ∧
    (∀ x ∈ exParts, x.Valid) ∧ (∀ x ∈ exParts, x.Single) ∧ intBytes 10 = ['\n', '\x00', '\x00', '\x00'] ∧
    Double.value ⟨true, 1023, ⟨2 ^ 51, by norm_num⟩⟩ = -3 / 2 := by
  refine ⟨⟨⟨by simp, by simp⟩, by norm_num [RealText.value, decimal, expValue], by simp, by decide, by decide⟩, ?_, ?_, by decide, ?_⟩
  · intro x hx
    simp only [exParts, List.mem_cons, List.not_mem_nil, or_false] at hx
    rcases hx with rfl | rfl | rfl
    · refine ⟨⟨by simp, by decide, by decide⟩, by decide, ?_⟩
      simp only [List.mem_cons, List.not_mem_nil, or_false]
      rintro x (rfl | rfl) <;> constructor <;> norm_num
    · refine ⟨⟨by simp, by decide, by decide⟩, by decide, ?_, ?_⟩
      · intro b hb
        obtain rfl := List.mem_singleton.1 hb
        exact ⟨by simp, 2, rfl, by simp⟩
      · have : ∀ i ∈ encode [⟨1, 2, [⟨1, 1, [7, 7], [1, 10]⟩]⟩], (-2 ^ 31 : Int) ≤ i ∧ i < 2 ^ 31 := by decide
        exact this
    · refine ⟨⟨by simp, by decide, by decide⟩, by decide, ?_⟩
      intro x hx
      obtain rfl := List.mem_singleton.1 hx
      exact ⟨⟨by simp, by decide, by decide⟩, ⟨by simp, by decide, by decide⟩, by decide⟩
  · intro x hx
    simp only [exParts, List.mem_cons, List.not_mem_nil, or_false] at hx
    rcases hx with rfl | rfl | rfl
    · trivial
    · intro b hb
      obtain rfl := List.mem_singleton.1 hb
      rfl
    · trivial
  · norm_num [Double.value]

/-- The hypotheses of `C127_byte_order` and `C127_nodes_cut` can be met: the highest byte first, and data of one node for two. -/
example : (['\x00', '\x00', '\x00', '\x01'] : List Char).length = 4 ∧ (∀ c ∈ ['\x00', '\x00', '\x00', '\x01'], c.toNat < 256) ∧
    ['\x00', '\x00', '\x00', '\x01'] ≠ ['\x01', '\x00', '\x00', '\x00'] ∧ IntText.value ⟨false, [2]⟩ = (2 : Nat) ∧
    (List.replicate 28 'x').length < 28 * 2 := by decide

/-- The hypothesis of `C127_text` can be met. -/
example : GmshText.readFile .throw 5 "$MeshFormat\n2.2 0 8\n$EndMeshFormat\n".toList =
    GmshText.readFile .ub 5 "$MeshFormat\n2.2 0 8\n$EndMeshFormat\n".toList := by rfl

end GmshBytes
end NuTo
