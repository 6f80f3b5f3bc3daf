/-
C59: log output carries the prefix exactly at line starts.
-/
import Verif.Model.Logger
import Mathlib.Data.List.Basic

namespace NuTo.Logging

/-- Specification: the text with the prefix before each character that starts a line. -/
def withPrefix (p : List Char) : (lineStart : Bool) → List Char → List Char
  | _, [] => []
  | true, c :: t => p ++ c :: withPrefix p (c == '\n') t
  | false, c :: t => c :: withPrefix p (c == '\n') t

/-- Specification: whether the next character starts a line. -/
def lineStartAfter : (lineStart : Bool) → List Char → Bool
  | b, [] => b
  | _, c :: t => lineStartAfter (c == '\n') t

/-- Specification: the message is not empty, a newline occurs at most as its last character, and only a
character or a string ends with a newline. -/
def Msg.Plain : Msg → Prop
  | .char _ => True
  | .string s => s ≠ [] ∧ '\n' ∉ s.dropLast
  | .other p => p ≠ [] ∧ '\n' ∉ p

theorem withPrefix_append (p : List Char) (b : Bool) (s t : List Char) :
    withPrefix p b (s ++ t) = withPrefix p b s ++ withPrefix p (lineStartAfter b s) t := by
  induction s generalizing b with
  | nil => cases b <;> rfl
  | cons c s ih =>
    cases b <;> simp [withPrefix, lineStartAfter, ih]

theorem withPrefix_false (p s : List Char) (h : '\n' ∉ s.dropLast) : withPrefix p false s = s := by
  induction s with
  | nil => rfl
  | cons c t ih =>
    cases t with
    | nil => rfl
    | cons d t =>
      rw [List.dropLast_cons_cons, List.mem_cons, not_or] at h
      have hc : (c == '\n') = false := by
        rw [beq_eq_false_iff_ne]; exact fun e => h.1 e.symm
      rw [withPrefix, hc, ih h.2]

theorem withPrefix_plain (p s : List Char) (b : Bool) (hne : s ≠ []) (h : '\n' ∉ s.dropLast) :
    withPrefix p b s = (if b then p else []) ++ s := by
  cases b with
  | false => rw [withPrefix_false p s h]; rfl
  | true =>
    cases s with
    | nil => exact absurd rfl hne
    | cons c t =>
      have := withPrefix_false p (c :: t) h
      rw [withPrefix] at this
      rw [withPrefix, this]; rfl

theorem lineStartAfter_eq (b : Bool) (s : List Char) (c : Char) (h : s.getLast? = some c) :
    lineStartAfter b s = (c == '\n') := by
  induction s generalizing b with
  | nil => cases h
  | cons d t ih =>
    cases t with
    | nil => cases h; rfl
    | cons e t =>
      rw [lineStartAfter]
      exact ih _ (by rwa [List.getLast?_cons_cons] at h)

/-- What one message adds, and the new state. -/
theorem write_plain (l : Logger) (m : Msg) (h : m.Plain) :
    ∃ l', write l m = .ok l' ∧ l'.pfx = l.pfx ∧ l'.isQuiet = l.isQuiet ∧ l'.fileOpen = l.fileOpen ∧
      l'.printPrefix = lineStartAfter l.printPrefix m.text ∧
      l'.console = l.console ++ (if l.isQuiet then [] else withPrefix l.pfx l.printPrefix m.text) ∧
      l'.file = l.file ++ (if l.fileOpen then withPrefix l.pfx l.printPrefix m.text else []) := by
  have key : ∀ (s : List Char) (nl : Bool), s ≠ [] → '\n' ∉ s.dropLast →
      nl = lineStartAfter l.printPrefix s →
      (out l s nl).printPrefix = lineStartAfter l.printPrefix s ∧
      (out l s nl).console = l.console ++ (if l.isQuiet then [] else withPrefix l.pfx l.printPrefix s) ∧
      (out l s nl).file = l.file ++ (if l.fileOpen then withPrefix l.pfx l.printPrefix s else []) := by
    intro s nl hne hs hnl
    rw [withPrefix_plain _ _ _ hne hs]
    refine ⟨hnl, ?_, ?_⟩
    · show (if l.isQuiet then l.console else l.console ++ ((optionalPrefix l).1 ++ s)) = _
      cases l.isQuiet <;> cases hp : l.printPrefix <;> simp [optionalPrefix, hp]
    · show (if l.fileOpen then l.file ++ ((optionalPrefix l).1 ++ s) else l.file) = _
      cases l.fileOpen <;> cases hp : l.printPrefix <;> simp [optionalPrefix, hp]
  cases m with
  | char c =>
    exact ⟨_, rfl, rfl, rfl, rfl, key [c] _ (by simp) (by simp) rfl⟩
  | string s =>
    obtain ⟨hne, hs⟩ := h
    cases hl : s.getLast? with
    | none => exact absurd (List.getLast?_eq_none_iff.mp hl) hne
    | some c =>
      refine ⟨out l s (c == '\n'), ?_, rfl, rfl, rfl, key s _ hne hs (lineStartAfter_eq _ _ _ hl).symm⟩
      show (match s.getLast? with
        | none => Res.ub
        | some c => Res.ok (out l s (c == '\n'))) = _
      rw [hl]
  | other p =>
    obtain ⟨hne, hs⟩ := h
    refine ⟨_, rfl, rfl, rfl, rfl, key p _ hne (fun h => hs ((List.dropLast_sublist p).subset h)) ?_⟩
    cases hl : p.getLast? with
    | none => exact absurd (List.getLast?_eq_none_iff.mp hl) hne
    | some c =>
      rw [lineStartAfter_eq _ _ _ hl, eq_comm, beq_eq_false_iff_ne]
      rintro rfl
      exact hs (List.mem_of_getLast? hl)

/-- C59: for every sequence of messages that are not empty and contain a newline at most as the last
character of a character or string, what the logger adds to the console (unless quiet) and to its file
(if open) is the concatenation of the messages with the prefix exactly at the line starts; the output
continues correctly after earlier messages.  For other messages see the counterexamples. -/
theorem C59_prefix_partial (l : Logger) (ms : List Msg) (h : ∀ m ∈ ms, m.Plain) :
    ∃ l', writeAll l ms = .ok l' ∧
      l'.printPrefix = lineStartAfter l.printPrefix (ms.flatMap Msg.text) ∧
      l'.console = l.console ++ (if l.isQuiet then [] else withPrefix l.pfx l.printPrefix (ms.flatMap Msg.text)) ∧
      l'.file = l.file ++ (if l.fileOpen then withPrefix l.pfx l.printPrefix (ms.flatMap Msg.text) else []) := by
  induction ms generalizing l with
  | nil =>
    refine ⟨l, rfl, rfl, ?_, ?_⟩
    · cases l.isQuiet <;> cases l.printPrefix <;> simp [withPrefix]
    · cases l.fileOpen <;> cases l.printPrefix <;> simp [withPrefix]
  | cons m ms ih =>
    obtain ⟨l1, h1, hp, hq, ho, hs, hc, hf⟩ := write_plain l m (h m List.mem_cons_self)
    obtain ⟨l2, h2, hs', hc', hf'⟩ := ih l1 fun m' hm' => h m' (List.mem_cons_of_mem _ hm')
    refine ⟨l2, ?_, ?_, ?_, ?_⟩
    · rw [writeAll, Res.foldlM_cons, h1, Res.bind_ok']; exact h2
    · rw [hs', hs, List.flatMap_cons]
      generalize l.printPrefix = b
      generalize ms.flatMap Msg.text = t
      induction m.text generalizing b with
      | nil => rfl
      | cons c s ih => rw [List.cons_append, lineStartAfter, ih, lineStartAfter]
    · rw [hc', hc, hp, hq, hs, List.flatMap_cons, withPrefix_append, List.append_assoc]
      cases l.isQuiet <;> simp
    · rw [hf', hf, hp, ho, hs, List.flatMap_cons, withPrefix_append, List.append_assoc]
      cases l.fileOpen <;> simp

/-- C59: a new logger that is not quiet, in particular. -/
theorem C59_console (pfx : List Char) (ms : List Msg) (h : ∀ m ∈ ms, m.Plain) :
    ∃ l', writeAll (make pfx false) ms = .ok l' ∧ l'.console = withPrefix pfx true (ms.flatMap Msg.text) := by
  obtain ⟨l', h1, _, h3, _⟩ := C59_prefix_partial (make pfx false) ms h
  exact ⟨l', h1, h3⟩

/-- C59: a quiet logger without file writes nothing but keeps track of the line starts. -/
theorem C59_quiet (l : Logger) (hq : l.isQuiet = true) (hf : l.fileOpen = false) (ms : List Msg)
    (l' : Logger) (h : writeAll l ms = .ok l') : l'.console = l.console ∧ l'.file = l.file := by
  induction ms generalizing l with
  | nil => cases h; exact ⟨rfl, rfl⟩
  | cons m ms ih =>
    rw [writeAll, Res.foldlM_cons] at h
    have key : ∀ s b, (out l s b).isQuiet = true ∧ (out l s b).fileOpen = false ∧
        (out l s b).console = l.console ∧ (out l s b).file = l.file := by
      intro s b
      simp [out, hq, hf]
    have fin : ∀ s b, Res.foldlM write (out l s b) ms = .ok l' → l'.console = l.console ∧ l'.file = l.file := by
      intro s b hh
      obtain ⟨k1, k2, k3, k4⟩ := key s b
      obtain ⟨e1, e2⟩ := ih _ k1 k2 hh
      exact ⟨e1.trans k3, e2.trans k4⟩
    cases m with
    | char c => exact fin _ _ h
    | string s =>
      simp only [write] at h
      cases hl : s.getLast? with
      | none => rw [hl] at h; cases h
      | some c => rw [hl] at h; exact fin _ _ h
    | other p => exact fin _ _ h

/-- C59 fails for a message with a newline inside, for an object whose text ends with a newline (the next
line has no prefix), and logging an empty string is undefined. -/
theorem C59_newline_counterexample :
    (writeAll (make "I|".toList false) [.string "a\nb".toList]) =
        .ok { make "I|".toList false with console := "I|a\nb".toList, printPrefix := false } ∧
      withPrefix "I|".toList true "a\nb".toList = "I|a\nI|b".toList ∧
      (writeAll (make "I|".toList false) [.other "a\n".toList, .string "b".toList]) =
        .ok { make "I|".toList false with console := "I|a\nb".toList, printPrefix := false } ∧
      (∀ l ms, writeAll l (.string [] :: ms) = .ub) :=
  ⟨by decide +kernel, by decide +kernel, by decide +kernel, fun _ _ => rfl⟩

example : ∀ m ∈ [Msg.string "a\n".toList, .char 'b', .other "1.5".toList, .char '\n', .string "c".toList], m.Plain := by
  intro m hm
  simp only [List.mem_cons, List.not_mem_nil, or_false] at hm
  rcases hm with rfl | rfl | rfl | rfl | rfl <;> simp [Msg.Plain]

example : withPrefix "I|".toList true "a\nb1.5\nc".toList = "I|a\nI|b1.5\nI|c".toList := by decide +kernel

end NuTo.Logging
