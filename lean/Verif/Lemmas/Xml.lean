import Verif.Model.Chars
import Mathlib.Tactic.Linarith

/-!
Specification: a reader of xml texts.  It knows elements with attributes in double quotes, elements without content, and
words (text between white space).  It rejects `<` and `&` in values of attributes, `&` and `>` in texts, attributes that are not
separated by white space, and elements that are not closed in the order in which they were opened.
-/

namespace NuTo.Xml

/-- Parts of a text -/
inductive Tok where
  | opn (name : List Char) (attrs : List (List Char × List Char)) (single : Bool)
  | cls (name : List Char)
  | word (w : List Char)

/-- Where the reader is; collected characters are in reverse order -/
inductive Lex where
  | text (w : List Char)
  | lt
  | name (n : List Char)
  | between (n : List Char) (as : List (List Char × List Char))
  | key (n : List Char) (as : List (List Char × List Char)) (k : List Char)
  | eqs (n : List Char) (as : List (List Char × List Char)) (k : List Char)
  | val (n : List Char) (as : List (List Char × List Char)) (k v : List Char)
  | after (n : List Char) (as : List (List Char × List Char))
  | slash (n : List Char) (as : List (List Char × List Char))
  | close (n : List Char)
  | bad

/-- White space -/
def space (c : Char) : Bool := c == ' ' || c == '\n' || c == '\t' || c == '\r'

/-- Characters of names -/
def nameChar (c : Char) : Bool := c.isAlphanum || c == '_'

/-- The collected word, if any -/
def emit (w : List Char) (out : List Tok) : List Tok :=
  match w with
  | [] => out
  | c :: w => .word (c :: w).reverse :: out

/-- One character; the parts found so far are in reverse order -/
def step (s : Lex × List Tok) (c : Char) : Lex × List Tok :=
  match s.1 with
  | .text w =>
    if c == '<' then (.lt, emit w s.2)
    else if space c then (.text [], emit w s.2)
    else if c == '&' || c == '>' then (.bad, s.2)
    else (.text (c :: w), s.2)
  | .lt => if c == '/' then (.close [], s.2) else if nameChar c then (.name [c], s.2) else (.bad, s.2)
  | .name n =>
    if nameChar c then (.name (c :: n), s.2)
    else if c == '>' then (.text [], .opn n.reverse [] false :: s.2)
    else if c == '/' then (.slash n [], s.2)
    else if space c then (.between n [], s.2)
    else (.bad, s.2)
  | .between n as =>
    if space c then (.between n as, s.2)
    else if c == '>' then (.text [], .opn n.reverse as false :: s.2)
    else if c == '/' then (.slash n as, s.2)
    else if nameChar c then (.key n as [c], s.2)
    else (.bad, s.2)
  | .key n as k => if nameChar c then (.key n as (c :: k), s.2) else if c == '=' then (.eqs n as k, s.2) else (.bad, s.2)
  | .eqs n as k => if c == '"' then (.val n as k [], s.2) else (.bad, s.2)
  | .val n as k v =>
    if c == '"' then (.after n (as ++ [(k.reverse, v.reverse)]), s.2)
    else if c == '<' || c == '&' then (.bad, s.2)
    else (.val n as k (c :: v), s.2)
  | .after n as =>
    if space c then (.between n as, s.2)
    else if c == '>' then (.text [], .opn n.reverse as false :: s.2)
    else if c == '/' then (.slash n as, s.2)
    else (.bad, s.2)
  | .slash n as => if c == '>' then (.text [], .opn n.reverse as true :: s.2) else (.bad, s.2)
  | .close n =>
    if nameChar c then (.close (c :: n), s.2) else if c == '>' then (.text [], .cls n.reverse :: s.2) else (.bad, s.2)
  | .bad => s

/-- All characters -/
def run (s : Lex × List Tok) (cs : List Char) : Lex × List Tok := cs.foldl step s

/-- The parts of a text -/
def lex (cs : List Char) : Option (List Tok) :=
  match run (.text [], []) cs with
  | (.text w, out) => some (emit w out).reverse
  | _ => none

/-- Elements -/
inductive Node where
  | elem (name : List Char) (attrs : List (List Char × List Char)) (children : List Node)
  | word (w : List Char)

/-- Open elements, the innermost first; children in reverse order -/
abbrev Stack := List (List Char × List (List Char × List Char) × List Node)

/-- One part -/
def build (s : Option Stack) (t : Tok) : Option Stack :=
  match s, t with
  | some st, .opn n as false => some ((n, as, []) :: st)
  | some ((n, as, cs) :: st), .opn m bs true => some ((n, as, .elem m bs [] :: cs) :: st)
  | some ((n, as, cs) :: st), .word w => some ((n, as, .word w :: cs) :: st)
  | some ((n, as, cs) :: (m, bs, ds) :: st), .cls k =>
    if k = n then some ((m, bs, .elem n as cs.reverse :: ds) :: st) else none
  | _, _ => none

/-- The only element of a text -/
def parse (cs : List Char) : Option Node :=
  match lex cs with
  | none => none
  | some ts =>
    match ts.foldl build (some [([], [], [])]) with
    | some [(_, _, [x])] => some x
    | _ => none

/-! ### Lemmas -/

theorem run_append (s : Lex × List Tok) (a b : List Char) : run s (a ++ b) = run (run s a) b := List.foldl_append

/-- Values of attributes -/
def Plain (v : List Char) : Prop := ∀ c ∈ v, c ≠ '"' ∧ c ≠ '<' ∧ c ≠ '&'

/-- Words -/
def Word (w : List Char) : Prop := w ≠ [] ∧ ∀ c ∈ w, c ≠ '<' ∧ c ≠ '&' ∧ c ≠ '>' ∧ space c = false

theorem run_val (n : List Char) (as : List (List Char × List Char)) (k u v : List Char) (out : List Tok) (h : Plain v) :
    run (.val n as k u, out) v = (.val n as k (v.reverse ++ u), out) := by
  induction v generalizing u with
  | nil => rfl
  | cons c v ih =>
    obtain ⟨h1, h2, h3⟩ := h c List.mem_cons_self
    have : run (.val n as k u, out) (c :: v) = run (step (.val n as k u, out) c) v := rfl
    rw [this]
    have hs : step (.val n as k u, out) c = (.val n as k (c :: u), out) := by simp [step, h1, h2, h3]
    rw [hs, ih _ fun d hd => h d (List.mem_cons_of_mem _ hd)]
    simp

theorem run_value (n : List Char) (as : List (List Char × List Char)) (k v : List Char) (out : List Tok) (h : Plain v)
    (rest : List Char) :
    run (.val n as k [], out) (v ++ '"' :: rest) = run (.after n (as ++ [(k.reverse, v)]), out) rest := by
  rw [run_append, run_val _ _ _ _ _ _ h]
  show run (step _ _) rest = _
  simp [step]

theorem run_word (u w : List Char) (out : List Tok) (h : ∀ c ∈ w, c ≠ '<' ∧ c ≠ '&' ∧ c ≠ '>' ∧ space c = false) :
    run (.text u, out) w = (.text (w.reverse ++ u), out) := by
  induction w generalizing u with
  | nil => rfl
  | cons c w ih =>
    obtain ⟨h1, h2, h3, h4⟩ := h c List.mem_cons_self
    have : run (.text u, out) (c :: w) = run (step (.text u, out) c) w := rfl
    rw [this]
    have hs : step (.text u, out) c = (.text (c :: u), out) := by simp [step, h1, h2, h3, h4]
    rw [hs, ih _ fun d hd => h d (List.mem_cons_of_mem _ hd)]
    simp

theorem emit_reverse {w : List Char} (hw : w ≠ []) (out : List Tok) : emit w.reverse out = .word w :: out := by
  cases hr : w.reverse with
  | nil => exact absurd (List.reverse_eq_nil_iff.1 hr) hw
  | cons c r =>
    simp only [emit]
    rw [← hr, List.reverse_reverse]

theorem run_words (ws : List (List Char)) (h : ∀ w ∈ ws, Word w) (u : List Char) (out : List Tok) :
    run (.text u, out) ((ws.flatMap fun w => ' ' :: w) ++ ['\n']) = (.text [], (ws.map Tok.word).reverse ++ emit u out) := by
  induction ws generalizing u out with
  | nil => rfl
  | cons w ws ih =>
    obtain ⟨hw, hc⟩ := h w List.mem_cons_self
    rw [List.flatMap_cons, List.append_assoc, List.cons_append]
    have : ∀ r, run (.text u, out) (' ' :: r) = run (.text [], emit u out) r := fun r => rfl
    rw [this, run_append, run_word _ _ _ hc, List.append_nil, ih fun v hv => h v (List.mem_cons_of_mem _ hv), emit_reverse hw]
    simp

theorem plain_digits (n : Nat) : Plain (Nat.toDigits 10 n) := by
  intro c hc
  have := Nat.isDigit_of_mem_toDigits (by norm_num) (by norm_num) hc
  refine ⟨?_, ?_, ?_⟩ <;> rintro rfl <;> simp [Char.isDigit] at this

theorem word_digits (n : Nat) : Word (Nat.toDigits 10 n) := by
  refine ⟨Nat.toDigits_ne_nil, fun c hc => ?_⟩
  have := Nat.isDigit_of_mem_toDigits (by norm_num) (by norm_num) hc
  refine ⟨?_, ?_, ?_, ?_⟩
  · rintro rfl; simp [Char.isDigit] at this
  · rintro rfl; simp [Char.isDigit] at this
  · rintro rfl; simp [Char.isDigit] at this
  · by_contra hs
    simp only [Bool.not_eq_false, space, Bool.or_eq_true, beq_iff_eq] at hs
    rcases hs with ((rfl | rfl) | rfl) | rfl <;> simp [Char.isDigit] at this

/-- A text, met between elements, that adds elements -/
def Reads (cs : List Char) (xs : List Node) : Prop :=
  ∃ ts : List Tok, (∀ out, run (.text [], out) cs = (.text [], ts.reverse ++ out)) ∧
    ∀ n as ys st, ts.foldl build (some ((n, as, ys) :: st)) = some ((n, as, xs.reverse ++ ys) :: st)

theorem parse_of_reads {cs : List Char} {x : Node} (h : Reads cs [x]) : parse cs = some x := by
  obtain ⟨ts, h1, h2⟩ := h
  have : lex cs = some ts := by
    simp [lex, h1, emit]
  simp only [parse, this, h2]
  rfl

theorem Reads.nil : Reads [] [] := ⟨[], fun _ => rfl, fun _ _ _ _ => rfl⟩

theorem Reads.append {a b : List Char} {xs ys : List Node} (ha : Reads a xs) (hb : Reads b ys) : Reads (a ++ b) (xs ++ ys) := by
  obtain ⟨ts, h1, h2⟩ := ha
  obtain ⟨us, h3, h4⟩ := hb
  refine ⟨ts ++ us, fun out => ?_, fun n as zs st => ?_⟩
  · rw [run_append, h1, h3]; simp
  · rw [List.foldl_append, h2, h4]; simp

theorem Reads.flatMap {α : Type} {l : List α} {f : α → List Char} {g : α → Node} (h : ∀ a ∈ l, Reads (f a) [g a]) :
    Reads (l.flatMap f) (l.map g) := by
  induction l with
  | nil => exact Reads.nil
  | cons a l ih =>
    rw [List.flatMap_cons, List.map_cons]
    exact (h a List.mem_cons_self).append (ih fun b hb => h b (List.mem_cons_of_mem _ hb))

theorem Reads.words {ws : List (List Char)} (h : ∀ w ∈ ws, Word w) :
    Reads ((ws.flatMap fun w => ' ' :: w) ++ ['\n']) (ws.map Node.word) := by
  refine ⟨ws.map Tok.word, fun out => run_words ws h [] out, fun n as ys st => ?_⟩
  induction ws generalizing ys with
  | nil => rfl
  | cons w ws ih =>
    rw [List.map_cons, List.foldl_cons]
    have : build (some ((n, as, ys) :: st)) (.word w) = some ((n, as, .word w :: ys) :: st) := rfl
    rw [this, ih fun v hv => h v (List.mem_cons_of_mem _ hv)]
    simp

theorem Reads.elem {o c body : List Char} {n : List Char} {as : List (List Char × List Char)} {xs : List Node}
    (ho : ∀ out, run (.text [], out) o = (.text [], .opn n as false :: out)) (hb : Reads body xs)
    (hc : ∀ out, run (.text [], out) c = (.text [], .cls n :: out)) : Reads (o ++ (body ++ c)) [.elem n as xs] := by
  obtain ⟨ts, h1, h2⟩ := hb
  refine ⟨.opn n as false :: (ts ++ [.cls n]), fun out => ?_, fun m bs ys st => ?_⟩
  · rw [run_append, run_append, ho, h1, hc]; simp
  · rw [List.foldl_cons, List.foldl_append]
    have : build (some ((m, bs, ys) :: st)) (.opn n as false) = some ((n, as, []) :: (m, bs, ys) :: st) := rfl
    rw [this, h2]
    simp [build]

theorem Reads.single {o : List Char} {n : List Char} {as : List (List Char × List Char)}
    (ho : ∀ out, run (.text [], out) o = (.text [], .opn n as true :: out)) : Reads o [.elem n as []] :=
  ⟨[.opn n as true], ho, fun _ _ _ _ => rfl⟩

theorem run_lit (n : List Char) (as : List (List Char × List Char)) (k v : List Char) (out : List Tok) (h : Plain v)
    (r : List Char) :
    run (run (.val n as k [], out) v) ('"' :: r) = run (.after n (as ++ [(k.reverse, v)]), out) r := by
  rw [← run_append, run_value _ _ _ _ _ h]

end NuTo.Xml
