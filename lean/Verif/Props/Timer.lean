import Verif.Model.Timer
import Verif.Props.Logger
import Mathlib.Algebra.BigOperators.Group.List.Basic
import Mathlib.Tactic.Linarith
import Mathlib.Tactic.Ring
import Mathlib.Tactic.NormNum

/-!
C125: a timer reports every phase once, under the name given to it.
-/
namespace NuTo.Timing

/-- Specification: the message in force after some calls. -/
def messageAfter (m0 : List Char) (ops : List (Option (List Char) × Reading)) : List Char :=
  ((ops.filterMap Prod.fst).getLast?).getD m0

/-- Specification: the time the running phase began. -/
def startAfter (t0 : ℝ) (ops : List (Option (List Char) × Reading)) : ℝ := ((ops.map fun o => o.2.again).getLast?).getD t0

/-- The line for a phase: the message in brackets, the time at the end, dots between, 90 characters unless there are more without any dots. -/
theorem C125_line (msg timing : List Char) : ∃ k,
    lineText msg timing = '[' :: (msg ++ ']' :: (List.replicate k '.' ++ (timing ++ ['\n']))) ∧
    (lineText msg timing).length = max 90 (msg.length + timing.length + 2) + 1 ∧
    (k = 0 ∨ (lineText msg timing).length = 91) := by
  refine ⟨(max 0 (minOutputLength - msg.length - timing.length - 2)).toNat, by simp [lineText], ?_, ?_⟩
  · simp only [lineText, List.length_append, List.length_cons, List.length_nil, List.length_replicate, minOutputLength]
    omega
  · simp only [lineText, List.length_append, List.length_cons, List.length_nil, List.length_replicate, minOutputLength]
    omega

theorem getLast?_getD_cons {α : Type} (d x : α) (l : List α) : ((x :: l).getLast?).getD d = (l.getLast?).getD x := by
  cases l with
  | nil => rfl
  | cons y l => simp [List.getLast?_cons]

theorem messageAfter_cons (m0 : List Char) (op : Option (List Char) × Reading) (ops : List (Option (List Char) × Reading)) :
    messageAfter m0 (op :: ops) = messageAfter (op.1.getD m0) ops := by
  obtain ⟨o, r⟩ := op
  cases o with
  | none => simp [messageAfter]
  | some m =>
    show ((m :: ops.filterMap Prod.fst).getLast?).getD m0 = _
    rw [getLast?_getD_cons]
    rfl

theorem startAfter_cons (t0 : ℝ) (op : Option (List Char) × Reading) (ops : List (Option (List Char) × Reading)) :
    startAfter t0 (op :: ops) = startAfter op.2.again ops := by
  show (((op.2.again :: ops.map fun o => o.2.again)).getLast?).getD t0 = _
  rw [getLast?_getD_cons]
  rfl

theorem call_fst (num : ℝ → List Char) (t : Timer) (op : Option (List Char) × Reading) :
    (t.call num op).1 = ⟨op.1.getD t.msg, t.showTime, op.2.again⟩ := by
  obtain ⟨o, r⟩ := op
  cases o <;> rfl

theorem call_snd (num : ℝ → List Char) (t : Timer) (op : Option (List Char) × Reading) :
    (t.call num op).2 = if t.showTime then [lineText t.msg (timingText num (op.2.now - t.wallTimeInit) op.2.cpu)] else [] := by
  obtain ⟨o, r⟩ := op
  cases o <;> rfl

/-- C125: one line per call of `Reset` and one on destruction; the line of the `i`-th shows the message that was in force (the one
given to the last `Reset` with a message, or to the constructor) and the time since the previous `Reset` or construction. -/
theorem C125_phases (num : ℝ → List Char) (m0 : List Char) (t0 : ℝ) (ops : List (Option (List Char) × Reading)) (last : Reading) :
    ((make m0 true t0).life num ops last).length = ops.length + 1 ∧
    ∀ i (hi : i < (ops.map Prod.snd ++ [last]).length),
      ((make m0 true t0).life num ops last)[i]? = some (lineText (messageAfter m0 (ops.take i))
        (timingText num (((ops.map Prod.snd ++ [last])[i]).now - startAfter t0 (ops.take i)) ((ops.map Prod.snd ++ [last])[i]).cpu)) := by
  induction ops generalizing m0 t0 with
  | nil =>
    refine ⟨rfl, fun i hi => ?_⟩
    obtain rfl : i = 0 := by simpa using hi
    rfl
  | cons op ops ih =>
    have e : (make m0 true t0).life num (op :: ops) last =
        lineText m0 (timingText num (op.2.now - t0) op.2.cpu) :: (make (op.1.getD m0) true op.2.again).life num ops last := by
      rw [Timer.life, call_fst, call_snd]
      rfl
    obtain ⟨h1, h2⟩ := ih (op.1.getD m0) op.2.again
    refine ⟨by rw [e, List.length_cons, h1, List.length_cons], fun i hi => ?_⟩
    rw [e]
    cases i with
    | zero => rfl
    | succ i =>
      rw [List.getElem?_cons_succ, h2 i (by simpa using hi), List.take_succ_cons, messageAfter_cons, startAfter_cons]
      rfl

/-- A timer that shall not show the time prints nothing. -/
theorem C125_silent (num : ℝ → List Char) (m0 : List Char) (t0 : ℝ) (ops : List (Option (List Char) × Reading)) (last : Reading) :
    (make m0 false t0).life num ops last = [] := by
  induction ops generalizing m0 t0 with
  | nil => rfl
  | cons op ops ih =>
    rw [Timer.life, call_fst, call_snd]
    exact ih _ _

/-- The measured times and the times needed for printing add up to the lifetime. -/
theorem C125_total (t0 : ℝ) (ops : List (Option (List Char) × Reading)) (last : Reading) :
    ((List.range (ops.length + 1)).map fun i =>
        ((ops.map Prod.snd ++ [last]).getD i last).now - startAfter t0 (ops.take i)).sum +
      (ops.map fun o => o.2.again - o.2.now).sum = last.now - t0 := by
  induction ops generalizing t0 with
  | nil => simp [startAfter]
  | cons op ops ih =>
    rw [List.length_cons, List.range_succ_eq_map, List.map_cons, List.map_map, List.sum_cons,
      List.map_cons (l := ops) (f := fun o : Option (List Char) × Reading => o.2.again - o.2.now), List.sum_cons]
    have := ih op.2.again
    simp only [Function.comp_def, List.map_cons, List.cons_append, List.getD_cons_succ, List.getD_cons_zero, List.take_succ_cons,
      startAfter_cons, List.take_zero]
    have h0 : startAfter t0 [] = t0 := rfl
    rw [h0]
    linarith

/-- `GetTimeDifference` is the time since the last `Reset` ... -/
theorem C125_difference (num : ℝ → List Char) (t : Timer) (op : Option (List Char) × Reading) (now : ℝ) :
    (t.call num op).1.getTimeDifference now = now - op.2.again ∧ ∀ m b t0, (make m b t0).getTimeDifference now = now - t0 := by
  rw [call_fst]
  exact ⟨rfl, fun _ _ _ => rfl⟩

/-- ... and not, as documented, since the construction. -/
theorem C125_difference_counterexample : ∃ (num : ℝ → List Char) (m : List Char) (t0 : ℝ) (op : Option (List Char) × Reading) (now : ℝ),
    ((make m true t0).call num op).1.getTimeDifference now ≠ now - t0 := by
  refine ⟨fun _ => [], [], 0, (none, ⟨1, [], 1⟩), 2, ?_⟩
  rw [call_fst]
  norm_num [Timer.getTimeDifference]

theorem lineText_plain (msg timing : List Char) (hm : '\n' ∉ msg) (ht : '\n' ∉ timing) :
    (Logging.Msg.string (lineText msg timing)).Plain := by
  obtain ⟨k, e, -, -⟩ := C125_line msg timing
  have e' : lineText msg timing = ('[' :: (msg ++ ']' :: (List.replicate k '.' ++ timing))) ++ ['\n'] := by simp [e]
  rw [Logging.Msg.Plain, e']
  refine ⟨by simp, ?_⟩
  rw [List.dropLast_concat]
  simp [hm, ht]

theorem life_lines (num : ℝ → List Char) (hnum : ∀ x, '\n' ∉ num x) (ops : List (Option (List Char) × Reading)) (last : Reading)
    (hl : '\n' ∉ last.cpu) (ho : ∀ o ∈ ops, '\n' ∉ o.2.cpu ∧ ∀ m, o.1 = some m → '\n' ∉ m) (t : Timer) (ht : '\n' ∉ t.msg) :
    ∀ l ∈ t.life num ops last, ∃ msg timing, l = lineText msg timing ∧ '\n' ∉ msg ∧ '\n' ∉ timing := by
  have tim : ∀ x (c : List Char), '\n' ∉ c → '\n' ∉ timingText num x c := by
    intro x c hc
    simp [timingText, hnum x, hc]
  induction ops generalizing t with
  | nil =>
    intro l hl'
    rw [Timer.life, Timer.reset] at hl'
    simp only at hl'
    split at hl'
    · rw [List.mem_singleton] at hl'
      exact ⟨_, _, hl', ht, tim _ _ hl⟩
    · simp at hl'
  | cons op ops ih =>
    intro l hl'
    rw [Timer.life, call_fst, call_snd, List.mem_append] at hl'
    have h0 := ho op (by simp)
    rcases hl' with hl' | hl'
    · split at hl'
      · rw [List.mem_singleton] at hl'
        exact ⟨_, _, hl', ht, tim _ _ h0.1⟩
      · simp at hl'
    · refine ih (fun o h => ho o (List.mem_cons_of_mem _ h)) _ ?_ l hl'
      obtain ⟨o, r⟩ := op
      cases o with
      | none => exact ht
      | some m => exact h0.2 m rfl

theorem withPrefix_lines (p : List Char) (ls : List (List Char))
    (h : ∀ l ∈ ls, ∃ msg timing, l = lineText msg timing ∧ '\n' ∉ msg ∧ '\n' ∉ timing) :
    Logging.withPrefix p true ls.flatten = (ls.map (p ++ ·)).flatten ∧ Logging.lineStartAfter true ls.flatten = true := by
  induction ls with
  | nil => exact ⟨rfl, rfl⟩
  | cons l ls ih =>
    obtain ⟨msg, timing, e, hm, ht⟩ := h l (by simp)
    obtain ⟨h1, h2⟩ := ih fun x hx => h x (List.mem_cons_of_mem _ hx)
    have hp := lineText_plain msg timing hm ht
    rw [← e] at hp
    have hlast : l.getLast? = some '\n' := by
      rw [e, lineText, List.getLast?_concat]
    have hs : ∀ b, Logging.lineStartAfter b l = true := fun b => by rw [Logging.lineStartAfter_eq b l '\n' hlast]; rfl
    have happ : ∀ (b : Bool) (x y : List Char), Logging.lineStartAfter b (x ++ y) = Logging.lineStartAfter (Logging.lineStartAfter b x) y := by
      intro b x y
      induction x generalizing b with
      | nil => rfl
      | cons c x ihx => exact ihx _
    refine ⟨?_, ?_⟩
    · rw [List.flatten_cons, Logging.withPrefix_append, Logging.withPrefix_plain p l true hp.1 hp.2, hs, h1]
      simp
    · rw [List.flatten_cons, happ, hs, h2]

/-- C125: on a logger at the start of a line every line gets the prefix, if there are no line breaks in the messages. -/
theorem C125_logged (num : ℝ → List Char) (hnum : ∀ x, '\n' ∉ num x) (l : Logging.Logger) (hl : l.printPrefix = true) (t : Timer)
    (ht : '\n' ∉ t.msg) (ops : List (Option (List Char) × Reading)) (last : Reading) (hc : '\n' ∉ last.cpu)
    (ho : ∀ o ∈ ops, '\n' ∉ o.2.cpu ∧ ∀ m, o.1 = some m → '\n' ∉ m) :
    ∃ l', t.lifeLogged num l ops last = .ok l' ∧ l'.printPrefix = true ∧
      l'.console = l.console ++ (if l.isQuiet then [] else ((t.life num ops last).map (l.pfx ++ ·)).flatten) ∧
      l'.file = l.file ++ (if l.fileOpen then ((t.life num ops last).map (l.pfx ++ ·)).flatten else []) := by
  have hlines := life_lines num hnum ops last hc ho t ht
  obtain ⟨l', h1, h2, h3, h4⟩ := Logging.C59_prefix_partial l ((t.life num ops last).map .string) (by
    intro m hm
    obtain ⟨x, hx, rfl⟩ := List.mem_map.1 hm
    obtain ⟨msg, timing, e, hm, ht⟩ := hlines x hx
    rw [e]
    exact lineText_plain _ _ hm ht)
  have hf : ((t.life num ops last).map Logging.Msg.string).flatMap Logging.Msg.text = (t.life num ops last).flatten := by
    rw [List.flatMap_map]
    simp [List.flatMap_def, Logging.Msg.text]
  obtain ⟨w1, w2⟩ := withPrefix_lines l.pfx _ hlines
  rw [hf, hl] at h2 h3 h4
  rw [w1] at h3 h4
  rw [w2] at h2
  exact ⟨l', h1, h2, h3, h4⟩

/-- Two phases, the second without a new message: both lines show "a". -/
example : ((make ['a'] true 0).life (fun _ => ['1']) [(none, ⟨1, [], 1⟩)] ⟨2, [], 2⟩) =
    [lineText ['a'] ['W', ':', '1', 's'], lineText ['a'] ['W', ':', '1', 's']] := rfl

/-- Hypotheses of C125_logged. -/
example : (∀ x : ℝ, '\n' ∉ (fun _ : ℝ => ['1']) x) ∧ (Logging.make ['I', '|'] false).printPrefix = true ∧
    '\n' ∉ (make ['a'] true 0).msg ∧ (∀ o ∈ [(some ['b'], (⟨1, [' '], 2⟩ : Reading))], '\n' ∉ o.2.cpu ∧ ∀ m, o.1 = some m → '\n' ∉ m) := by
  refine ⟨by simp, rfl, by simp [make], ?_⟩
  intro o ho
  rw [List.mem_singleton] at ho
  subst ho
  refine ⟨by simp, ?_⟩
  rintro m ⟨⟩
  simp

end NuTo.Timing
