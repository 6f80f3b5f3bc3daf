import Verif.Props.GmshGrammar
import Mathlib.Tactic.Linarith
import Mathlib.Tactic.Ring

/-! Lemmas on the reading of gmsh text files -/
namespace NuTo
namespace GmshText

open Gmsh

/-! ### Reading of single items -/

/-- A stream without errors -/
def Stream.at (l : List Char) : Stream := ⟨l, false, false⟩

theorem digitChar_facts (d : Fin 10) : (digitChar d).isDigit = true ∧ digitVal (digitChar d) = d.val ∧ space (digitChar d) = false ∧
    digitChar d ≠ '-' ∧ digitChar d ≠ '+' ∧ digitChar d ≠ '\n' ∧ digitChar d ≠ '.' ∧ digitChar d ≠ 'e' ∧ digitChar d ≠ 'E' := by
  revert d; decide

theorem number_map (l : List (Fin 10)) : number (l.map digitChar) = decimal l := by
  rw [number, decimal, List.foldl_map]
  congr 1
  funext n d
  rw [(digitChar_facts d).2.1]

/-- What follows a number -/
def Sep (r : List Char) : Prop := ∃ c r', r = c :: r' ∧ c.isDigit = false ∧ c ≠ '.' ∧ c ≠ 'e' ∧ c ≠ 'E'

theorem Sep.blank (r : List Char) : Sep (' ' :: r) := ⟨' ', r, rfl, by decide, by decide, by decide, by decide⟩

theorem takeWhile_digits (l : List (Fin 10)) {r : List Char} (h : Sep r ∨ ∃ c r', r = c :: r' ∧ c.isDigit = false) :
    (l.map digitChar ++ r).takeWhile Char.isDigit = l.map digitChar ∧ (l.map digitChar ++ r).dropWhile Char.isDigit = r := by
  obtain ⟨c, r', rfl, hc⟩ : ∃ c r', r = c :: r' ∧ c.isDigit = false := by
    rcases h with h | h
    · obtain ⟨c, r', rfl, hc, _⟩ := h
      exact ⟨c, r', rfl, hc⟩
    · exact h
  induction l with
  | nil => simp [hc]
  | cons d l ih => simp [(digitChar_facts d).1, ih]

theorem skip_at (pad w : List Char) (c : Char) (hp : ∀ x ∈ pad, space x = true) (hc : space c = false) :
    skip (.at (pad ++ c :: w)) = (.at (c :: w), true) := by
  have h : (pad ++ c :: w).dropWhile space = c :: w := by
    rw [List.dropWhile_append_of_pos hp]
    simp [hc]
  simp [skip, Stream.at, h]

theorem IntText.head {t : IntText} (h : t.digits ≠ []) : ∃ c w, t.text = c :: w ∧ space c = false := by
  obtain ⟨neg, digits⟩ := t
  cases neg
  · cases digits with
    | nil => exact absurd rfl h
    | cons d l => exact ⟨_, _, rfl, (digitChar_facts d).2.2.1⟩
  · exact ⟨_, _, rfl, by decide⟩

theorem takeSign_digits (l : List (Fin 10)) (r : List Char) (hl : l ≠ []) : takeSign (l.map digitChar ++ r) = (false, l.map digitChar ++ r) := by
  cases l with
  | nil => exact absurd rfl hl
  | cons d l =>
    have h := digitChar_facts d
    simp only [List.map_cons, List.cons_append]
    unfold takeSign
    split
    · rename_i heq; exact absurd (List.cons.inj heq).1 h.2.2.2.1
    · rename_i heq; exact absurd (List.cons.inj heq).1 h.2.2.2.2.1
    · rfl

theorem takeSign_text (neg : Bool) (l : List (Fin 10)) (r : List Char) (hl : l ≠ [] ∨ ∃ r', r = '.' :: r') :
    takeSign ((if neg then ['-'] else []) ++ l.map digitChar ++ r) = (neg, l.map digitChar ++ r) := by
  cases neg
  · simp only [Bool.false_eq_true, if_false, List.nil_append]
    by_cases h : l = []
    · subst h
      rcases hl with h | ⟨r', rfl⟩
      · exact absurd rfl h
      · rfl
    · exact takeSign_digits l r h
  · rfl

theorem extractInt_at (pad : List Char) (t : IntText) (r : List Char) (hp : ∀ x ∈ pad, space x = true) (ht : t.Valid) (hr : Sep r) :
    extractInt (.at (pad ++ t.text ++ r)) = (some t.value, .at r) := by
  obtain ⟨c, w, hw, hc⟩ := IntText.head ht.1
  have hs : skip (.at (pad ++ t.text ++ r)) = (.at (t.text ++ r), true) := by
    rw [hw, List.append_assoc, List.cons_append]
    exact skip_at pad (w ++ r) c hp hc
  have hsg : takeSign (t.text ++ r) = (t.neg, t.digits.map digitChar ++ r) := by
    rw [IntText.text]
    exact takeSign_text t.neg t.digits r (.inl ht.1)
  obtain ⟨h1, h2⟩ := takeWhile_digits t.digits (.inl hr)
  have hne : t.digits.map digitChar ≠ [] := by simpa using ht.1
  have hv : signed t.neg (number (t.digits.map digitChar)) = t.value := by rw [number_map]; rfl
  have hin : inRange t.value = true := by
    obtain ⟨_, h3, h4⟩ := ht
    simp only [inRange, Bool.and_eq_true, decide_eq_true_eq]
    constructor <;> norm_num at h3 h4 ⊢ <;> omega
  have hne' : r.isEmpty = false := by
    obtain ⟨c, r', rfl, _⟩ := hr
    rfl
  rw [extractInt, hs]
  simp only [Stream.at, hsg, h1, h2, hv, hin, if_neg hne, hne', if_true]

theorem RealText.head {t : RealText} (h : t.Valid) : ∃ c w, t.text = c :: w ∧ space c = false := by
  obtain ⟨neg, int, frac, exp⟩ := t
  cases neg
  · cases int with
    | nil =>
      cases frac with
      | none => exact absurd rfl h.1
      | some d => exact ⟨'.', _, rfl, by decide⟩
    | cons d l => exact ⟨_, _, rfl, (digitChar_facts d).2.2.1⟩
  · exact ⟨_, _, rfl, by decide⟩

theorem takeExponent_at (e : Option (Option Bool × List (Fin 10))) (he : ∀ x ∈ e, x.2 ≠ []) {r : List Char} (hr : Sep r) :
    takeExponent (expText e ++ r) = (some (expValue e), r) := by
  match e with
  | none =>
    obtain ⟨c, r', rfl, _, _, h1, h2⟩ := hr
    simp only [expText, List.nil_append, expValue]
    unfold takeExponent
    split
    · rename_i heq; exact absurd (List.cons.inj heq).1 h1
    · rename_i heq; exact absurd (List.cons.inj heq).1 h2
    · rfl
  | some (none, d) =>
    have hd : d ≠ [] := he _ rfl
    obtain ⟨h1, h2⟩ := takeWhile_digits d (.inl hr)
    simp only [expText, List.cons_append, takeExponent, takeSign_digits d r hd, List.span_eq_takeWhile_dropWhile, h1, h2, expValue, signed, number_map]
    simp [hd]
  | some (some true, d) =>
    have hd : d ≠ [] := he _ rfl
    obtain ⟨h1, h2⟩ := takeWhile_digits d (.inl hr)
    simp only [expText, List.cons_append, takeExponent, takeSign, List.span_eq_takeWhile_dropWhile, h1, h2, expValue, signed, number_map]
    simp [hd]
  | some (some false, d) =>
    have hd : d ≠ [] := he _ rfl
    obtain ⟨h1, h2⟩ := takeWhile_digits d (.inl hr)
    simp only [expText, List.cons_append, takeExponent, takeSign, List.span_eq_takeWhile_dropWhile, h1, h2, expValue, signed, number_map]
    simp [hd]

theorem exp_sep (e : Option (Option Bool × List (Fin 10))) {r : List Char} (hr : Sep r) :
    ∃ c r', expText e ++ r = c :: r' ∧ c.isDigit = false ∧ c ≠ '.' := by
  match e with
  | none =>
    obtain ⟨c, r', rfl, h1, h2, _⟩ := hr
    exact ⟨c, r', rfl, h1, h2⟩
  | some (none, d) => exact ⟨'e', _, rfl, by decide, by decide⟩
  | some (some true, d) => exact ⟨'e', _, rfl, by decide, by decide⟩
  | some (some false, d) => exact ⟨'e', _, rfl, by decide, by decide⟩

theorem takeFraction_at (f : Option (List (Fin 10))) (e : Option (Option Bool × List (Fin 10))) {r : List Char} (hr : Sep r) :
    takeFraction (fracText f ++ (expText e ++ r)) = ((f.getD []).map digitChar, expText e ++ r) := by
  obtain ⟨c, r', h1, h2, h3⟩ := exp_sep e hr
  cases f with
  | none =>
    simp only [fracText, List.nil_append, Option.getD_none, List.map_nil]
    rw [h1]
    unfold takeFraction
    split
    · rename_i heq; exact absurd (List.cons.inj heq).1 h3
    · rfl
  | some d =>
    obtain ⟨h4, h5⟩ := takeWhile_digits d (r := expText e ++ r) (.inr ⟨c, r', h1, h2⟩)
    simp only [fracText, List.cons_append, takeFraction, List.span_eq_takeWhile_dropWhile, h4, h5, Option.getD_some]

theorem frac_sep (f : Option (List (Fin 10))) (e : Option (Option Bool × List (Fin 10))) {r : List Char} (hr : Sep r) :
    ∃ c r', fracText f ++ (expText e ++ r) = c :: r' ∧ c.isDigit = false := by
  cases f with
  | none =>
    obtain ⟨c, r', h1, h2, _⟩ := exp_sep e hr
    exact ⟨c, r', h1, h2⟩
  | some d => exact ⟨'.', _, rfl, by decide⟩

theorem extractDouble_at (pad : List Char) (t : RealText) (r : List Char) (hp : ∀ x ∈ pad, space x = true) (ht : t.Valid) (hr : Sep r) :
    extractDouble (.at (pad ++ t.text ++ r)) = (some t.value, .at r) := by
  obtain ⟨c, w, hw, hc⟩ := RealText.head ht
  have hs : skip (.at (pad ++ t.text ++ r)) = (.at (t.text ++ r), true) := by
    rw [hw, List.append_assoc, List.cons_append]
    exact skip_at pad (w ++ r) c hp hc
  have e1 : t.text ++ r = (if t.neg then ['-'] else []) ++ t.int.map digitChar ++ (fracText t.frac ++ (expText t.exp ++ r)) := by
    simp only [RealText.text, List.append_assoc]
  have hsg : takeSign (t.text ++ r) = (t.neg, t.int.map digitChar ++ (fracText t.frac ++ (expText t.exp ++ r))) := by
    rw [e1]
    refine takeSign_text t.neg t.int _ ?_
    by_cases h : t.int = []
    · right
      cases hf : t.frac with
      | none => exact absurd (by simp [h, hf]) ht.1
      | some d => exact ⟨_, rfl⟩
    · exact .inl h
  obtain ⟨h1, h2⟩ := takeWhile_digits t.int (.inr (frac_sep t.frac t.exp hr))
  have hne : t.int.map digitChar ++ (t.frac.getD []).map digitChar ≠ [] := by
    rw [← List.map_append]
    simpa using ht.1
  have hne' : r.isEmpty = false := by
    obtain ⟨c, r', rfl, _⟩ := hr
    rfl
  have hv : (if t.neg = true then -((number (t.int.map digitChar ++ (t.frac.getD []).map digitChar) : ℚ) *
      10 ^ (expValue t.exp - (((t.frac.getD []).map digitChar).length : Int))) else
      (number (t.int.map digitChar ++ (t.frac.getD []).map digitChar) : ℚ) * 10 ^ (expValue t.exp - (((t.frac.getD []).map digitChar).length : Int))) =
      t.value := by
    rw [← List.map_append, number_map, List.length_map, RealText.value]
    cases t.neg <;> simp
  rw [extractDouble, hs]
  simp only [Stream.at, hsg, List.span_eq_takeWhile_dropWhile, h1, h2, takeFraction_at t.frac t.exp hr, takeExponent_at t.exp ht.2 hr,
    if_neg hne, hne', if_true, hv]

/-- The ends of lines: with or without carriage return -/
def Eol (eol : List Char) : Prop := eol = ['\n'] ∨ eol = ['\r', '\n']

theorem Eol.sep {eol : List Char} (h : Eol eol) (r : List Char) : Sep (eol ++ r) := by
  rcases h with rfl | rfl
  · exact ⟨_, _, rfl, by decide⟩
  · exact ⟨_, _, rfl, by decide⟩

theorem getline_at {eol : List Char} (h : Eol eol) (l r : List Char) (hl : ∀ c ∈ l, c ≠ '\n') :
    ∃ cr, (∀ c ∈ cr, space c = true ∧ c.isDigit = false) ∧ getline (.at (l ++ eol ++ r)) = (l ++ cr, .at r) := by
  have key : ∀ l' : List Char, (∀ c ∈ l', c ≠ '\n') → getline (.at (l' ++ '\n' :: r)) = (l', .at r) := by
    intro l' hl'
    have h1 : (l' ++ '\n' :: r).takeWhile (· != '\n') = l' := by
      rw [List.takeWhile_append_of_pos (by simpa using hl')]; simp
    have h2 : (l' ++ '\n' :: r).dropWhile (· != '\n') = '\n' :: r := by
      rw [List.dropWhile_append_of_pos (by simpa using hl')]; simp
    simp [getline, Stream.at, h1, h2]
  rcases h with rfl | rfl
  · refine ⟨[], by simp, ?_⟩
    rw [List.append_nil, List.append_assoc]
    exact key l hl
  · refine ⟨['\r'], by decide, ?_⟩
    have := key (l ++ ['\r']) (by
      intro c hc
      rcases List.mem_append.1 hc with h | h
      · exact hl c h
      · rw [List.mem_singleton.1 h]; decide)
    simpa using this

theorem IntText.noNewline (t : IntText) : ∀ c ∈ t.text, c ≠ '\n' := by
  intro c hc
  rw [IntText.text, List.mem_append, List.mem_map] at hc
  rcases hc with h | ⟨d, _, rfl⟩
  · split at h
    · rw [List.mem_singleton.1 h]; decide
    · simp at h
  · exact (digitChar_facts d).2.2.2.2.2.1

theorem stoi_text (t : IntText) (ht : t.Valid) (cr : List Char) (hcr : ∀ c ∈ cr, c.isDigit = false) : stoi (t.text ++ cr) = .ok t.value := by
  obtain ⟨c, w, hw, hc⟩ := IntText.head ht.1
  have hs : (t.text ++ cr).dropWhile space = t.text ++ cr := by rw [hw]; simp [hc]
  have hsg : takeSign (t.text ++ cr) = (t.neg, t.digits.map digitChar ++ cr) := by
    rw [IntText.text]
    exact takeSign_text t.neg t.digits cr (.inl ht.1)
  have h1 : (t.digits.map digitChar ++ cr).takeWhile Char.isDigit = t.digits.map digitChar := by
    rw [List.takeWhile_append_of_pos]
    · cases cr with
      | nil => simp
      | cons c cr => simp [hcr c (.head _)]
    · intro c hc
      obtain ⟨d, _, rfl⟩ := List.mem_map.1 hc
      exact (digitChar_facts d).1
  have hne : t.digits.map digitChar ≠ [] := by simpa using ht.1
  have hv : signed t.neg (number (t.digits.map digitChar)) = t.value := by rw [number_map]; rfl
  have hin : inRange t.value = true := by
    obtain ⟨_, h3, h4⟩ := ht
    simp only [inRange, Bool.and_eq_true, decide_eq_true_eq]
    constructor <;> norm_num at h3 h4 ⊢ <;> omega
  simp only [stoi, hs, hsg, h1, hv, hin, if_neg hne, if_true]

/-! ### Lines -/

theorem pad_blank : ∀ x ∈ [' '], space x = true := by decide

theorem extractInt_blank (t : IntText) (r : List Char) (ht : t.Valid) (hr : Sep r) :
    extractInt (.at (' ' :: (t.text ++ r))) = (some t.value, .at r) := extractInt_at [' '] t r pad_blank ht hr

theorem extractDouble_blank (t : RealText) (r : List Char) (ht : t.Valid) (hr : Sep r) :
    extractDouble (.at (' ' :: (t.text ++ r))) = (some t.value, .at r) := extractDouble_at [' '] t r pad_blank ht hr

theorem extractInt_start (t : IntText) (r : List Char) (ht : t.Valid) (hr : Sep r) :
    extractInt (.at (t.text ++ r)) = (some t.value, .at r) := extractInt_at [] t r (by simp) ht hr

theorem extractDouble_start (t : RealText) (r : List Char) (ht : t.Valid) (hr : Sep r) :
    extractDouble (.at (t.text ++ r)) = (some t.value, .at r) := extractDouble_at [] t r (by simp) ht hr

theorem getline_end {eol : List Char} (h : Eol eol) (r : List Char) : (getline (.at (eol ++ r))).2 = .at r := by
  obtain ⟨cr, _, e⟩ := getline_at h [] r (by simp)
  rw [List.nil_append] at e
  rw [e]

theorem readNode_at {eol : List Char} (h : Eol eol) (n : NodeLine) (hn : n.Valid) (r : List Char) :
    readNode (.at (n.text eol ++ r)) = (n.record, .at r) := by
  obtain ⟨h1, h2, h3, h4⟩ := hn
  have e : n.text eol ++ r = n.id.text ++ (' ' :: (n.x.text ++ (' ' :: (n.y.text ++ (' ' :: (n.z.text ++ (eol ++ r))))))) := by
    simp [NodeLine.text]
  rw [e, readNode, extractInt_start _ _ h1 (Sep.blank _)]
  simp only
  rw [extractDouble_blank _ _ h2 (Sep.blank _)]
  simp only
  rw [extractDouble_blank _ _ h3 (Sep.blank _)]
  simp only
  rw [extractDouble_blank _ _ h4 (h.sep r)]
  simp only
  rw [getline_end h]
  rfl

theorem readInts_at (l : List IntText) (hl : ∀ t ∈ l, t.Valid) (r : List Char) (hr : Sep r) :
    readInts l.length (.at (intsText l ++ r)) = (l.map IntText.value, .at r) := by
  induction l with
  | nil => rfl
  | cons t l ih =>
    have e : intsText (t :: l) ++ r = ' ' :: (t.text ++ (intsText l ++ r)) := by simp [intsText]
    have hs : Sep (intsText l ++ r) := by
      cases l with
      | nil => exact hr
      | cons u l => exact ⟨' ', _, rfl, by decide⟩
    rw [e, List.length_cons, readInts, extractInt_blank _ _ (hl t (.head _)) hs]
    simp only
    rw [ih fun t ht => hl t (.tail _ ht)]
    rfl

theorem ints_sep (l : List IntText) {r : List Char} (hr : Sep r) : Sep (intsText l ++ r) := by
  cases l with
  | nil => exact hr
  | cons u l => exact ⟨' ', _, rfl, by decide⟩

theorem readElement_at {eol : List Char} (h : Eol eol) (n : ElementLine) (hn : n.Valid) (r : List Char) :
    readElement (.at (n.text eol ++ r)) = .ok (n.record, .at r) := by
  obtain ⟨h1, h2, h3, h4, h5, h6, h7⟩ := hn
  have e : n.text eol ++ r = n.id.text ++ (' ' :: (n.type.text ++ (' ' :: (n.numTags.text ++ (intsText n.tags ++ (intsText n.nodes ++ (eol ++ r))))))) := by
    simp [ElementLine.text]
  have s1 : Sep (intsText n.nodes ++ (eol ++ r)) := ints_sep _ (h.sep r)
  rw [e, readElement, extractInt_start _ _ h1 (Sep.blank _)]
  simp only
  rw [extractInt_blank _ _ h2 (Sep.blank _)]
  simp only
  rw [extractInt_blank _ _ h3 (ints_sep _ s1)]
  simp only
  rw [h4, if_neg (by omega), Int.toNat_natCast, readInts_at _ h5 _ s1]
  simp only [Option.getD_some, h7, Res.bind_ok']
  rw [readInts_at _ h6 _ (h.sep r)]
  simp only
  rw [getline_end h]
  rfl

theorem readName_at {eol : List Char} (h : Eol eol) (n : NameLine) (hn : n.Valid) (r : List Char) :
    readPhysicalName (.at (n.text eol ++ r)) = (n.record, .at r) := by
  obtain ⟨h1, h2, h3⟩ := hn
  have e : n.text eol ++ r = n.dimension.text ++ (' ' :: (n.id.text ++ (' ' :: ('"' :: (n.name ++ ('"' :: (eol ++ r))))))) := by
    simp [NameLine.text]
  obtain ⟨c, r', hc, hsp⟩ : ∃ c r', eol ++ r = c :: r' ∧ space c = true := by
    rcases h with rfl | rfl
    · exact ⟨'\n', r, rfl, by decide⟩
    · exact ⟨'\r', '\n' :: r, rfl, by decide⟩
  have hw : extractWord (.at (' ' :: ('"' :: (n.name ++ ('"' :: (eol ++ r)))))) = ('"' :: (n.name ++ ['"']), .at (eol ++ r)) := by
    have hs := skip_at [' '] (n.name ++ ('"' :: (eol ++ r))) '"' pad_blank (by decide)
    rw [List.singleton_append] at hs
    have hq : space '"' = false := by decide
    have t1 : ('"' :: (n.name ++ ('"' :: (eol ++ r)))).takeWhile (fun c => !space c) = '"' :: (n.name ++ ['"']) := by
      rw [List.takeWhile_cons_of_pos (by decide), List.takeWhile_append_of_pos (by intro c hc; simp [(h3 c hc).1]),
        List.takeWhile_cons_of_pos (by decide), hc, List.takeWhile_cons_of_neg (by simp [hsp])]
    have t2 : ('"' :: (n.name ++ ('"' :: (eol ++ r)))).dropWhile (fun c => !space c) = eol ++ r := by
      rw [List.dropWhile_cons_of_pos (by decide), List.dropWhile_append_of_pos (by intro c hc; simp [(h3 c hc).1]),
        List.dropWhile_cons_of_pos (by decide), hc, List.dropWhile_cons_of_neg (by simp [hsp])]
    have hne : (eol ++ r).isEmpty = false := by rw [hc]; rfl
    rw [extractWord, hs]
    simp only [Stream.at, if_true, t1, t2, hne]
  rw [e, readPhysicalName, extractInt_start _ _ h1 (Sep.blank _)]
  simp only
  rw [extractInt_blank _ _ h2 (Sep.blank _)]
  simp only
  rw [hw]
  simp only
  rw [getline_end h]
  have hf : ('"' :: (n.name ++ ['"'])).filter (fun c => c != '"') = n.name := by
    have : n.name.filter (fun c => c != '"') = n.name := List.filter_eq_self.2 fun c hc => by simp [(h3 c hc).2]
    simp [this]
  simp only [hf]
  rfl

theorem times_at {α β : Type} (read : Stream → Res (β × Stream)) (text : α → List Char) (record : α → β) (valid : α → Prop)
    (hread : ∀ a r, valid a → read (.at (text a ++ r)) = .ok (record a, .at r)) (l : List α) (hl : ∀ a ∈ l, valid a) (r : List Char) :
    times read l.length (.at (l.flatMap text ++ r)) = .ok (l.map record, .at r) := by
  induction l with
  | nil => rfl
  | cons a l ih =>
    rw [List.flatMap_cons, List.append_assoc, List.length_cons, times, hread a _ (hl a (.head _)), Res.bind_ok',
      ih fun a ha => hl a (.tail _ ha), Res.bind_ok']
    rfl

theorem readCount_at {eol : List Char} (h : Eol eol) (t : IntText) (ht : t.Valid) (n : Nat) (hn : t.value = n) (r : List Char) :
    readCount (.at (t.text ++ eol ++ r)) = .ok (n, .at r) := by
  obtain ⟨cr, hcr, e⟩ := getline_at h t.text r t.noNewline
  rw [readCount, e, stoi_text t ht cr fun c hc => (hcr c hc).2, Res.bind_ok', hn, if_neg (by omega), Int.toNat_natCast]

theorem compareLeft_append (l r : List Char) : compareLeft (l ++ r) l = true := by simp [compareLeft]

theorem expect_at {eol : List Char} (h : Eol eol) (w r : List Char) (hw : ∀ c ∈ w, c ≠ '\n') :
    expect (.at (w ++ eol ++ r)) w = .ok (.at r) := by
  obtain ⟨cr, _, e⟩ := getline_at h w r hw
  rw [expect, e]
  simp only [compareLeft_append, if_true]

/-! ### Sections -/

theorem readNames_at {eol : List Char} (h : Eol eol) (n : IntText) (l : List NameLine) (hs : (Section.names n l).Valid) (r : List Char) :
    readNames (.at (n.text ++ eol ++ (l.flatMap (NameLine.text eol) ++ ("$EndPhysicalNames".toList ++ eol ++ r)))) =
      .ok (l.map NameLine.record, .at r) := by
  obtain ⟨h1, h2, h3⟩ := hs
  rw [readNames, readCount_at h n h1 _ h2, Res.bind_ok',
    times_at _ _ NameLine.record NameLine.Valid (fun a r ha => by rw [readName_at h a ha]) l h3, Res.bind_ok', expect_at h _ _ (by decide), Res.bind_ok']

theorem readNodes_at {eol : List Char} (h : Eol eol) (n : IntText) (l : List NodeLine) (hs : (Section.nodes n l).Valid) (r : List Char) :
    readNodes (.at (n.text ++ eol ++ (l.flatMap (NodeLine.text eol) ++ ("$EndNodes".toList ++ eol ++ r)))) =
      .ok (l.map NodeLine.record, .at r) := by
  obtain ⟨h1, h2, h3⟩ := hs
  rw [readNodes, readCount_at h n h1 _ h2, Res.bind_ok',
    times_at _ _ NodeLine.record NodeLine.Valid (fun a r ha => by rw [readNode_at h a ha]) l h3, Res.bind_ok', expect_at h _ _ (by decide), Res.bind_ok']

theorem readElements_at {eol : List Char} (h : Eol eol) (n : IntText) (l : List ElementLine) (hs : (Section.elements n l).Valid) (r : List Char) :
    readElements (.at (n.text ++ eol ++ (l.flatMap (ElementLine.text eol) ++ ("$EndElements".toList ++ eol ++ r)))) =
      .ok (l.map ElementLine.record, .at r) := by
  obtain ⟨h1, h2, h3⟩ := hs
  rw [readElements, readCount_at h n h1 _ h2, Res.bind_ok',
    times_at _ _ ElementLine.record ElementLine.Valid (fun a r ha => readElement_at h a ha r) l h3, Res.bind_ok', expect_at h _ _ (by decide), Res.bind_ok']

theorem regroup (a b n f eol r : List Char) : a ++ eol ++ n ++ eol ++ f ++ b ++ eol ++ r = a ++ eol ++ (n ++ eol ++ (f ++ (b ++ eol ++ r))) := by
  simp only [List.append_assoc]

theorem regroup_header (a b v w eol r : List Char) : a ++ eol ++ v ++ ' ' :: '0' :: ' ' :: w ++ eol ++ b ++ eol ++ r =
    a ++ eol ++ (v ++ (' ' :: ('0' :: (' ' :: (w ++ (eol ++ (b ++ eol ++ r))))))) := by
  simp

theorem section_names {eol : List Char} (h : Eol eol) (c : Content) (n : IntText) (l : List NameLine) (r : List Char) :
    processSection c (.at ((Section.names n l).text eol ++ r)) =
      (readNames (.at (n.text ++ eol ++ (l.flatMap (NameLine.text eol) ++ ("$EndPhysicalNames".toList ++ eol ++ r))))).bind fun a =>
        .ok ({ c with names := a.1 }, a.2) := by
  have e : (Section.names n l).text eol ++ r = "$PhysicalNames".toList ++ eol ++
      (n.text ++ eol ++ (l.flatMap (NameLine.text eol) ++ ("$EndPhysicalNames".toList ++ eol ++ r))) := regroup _ _ _ _ _ _
  obtain ⟨cr, _, eg⟩ := getline_at h "$PhysicalNames".toList (n.text ++ eol ++ (l.flatMap (NameLine.text eol) ++ ("$EndPhysicalNames".toList ++ eol ++ r)))
    (by decide)
  rw [e, processSection, eg]
  simp only
  rw [if_neg (by simp), if_pos (compareLeft_append _ _)]

theorem compare_others (cr : List Char) : compareLeft ("$Nodes".toList ++ cr) "$PhysicalNames".toList = false ∧
    compareLeft ("$Elements".toList ++ cr) "$PhysicalNames".toList = false ∧ compareLeft ("$Elements".toList ++ cr) "$Nodes".toList = false := by
  simp [compareLeft]

theorem section_nodes {eol : List Char} (h : Eol eol) (c : Content) (n : IntText) (l : List NodeLine) (r : List Char) :
    processSection c (.at ((Section.nodes n l).text eol ++ r)) =
      (readNodes (.at (n.text ++ eol ++ (l.flatMap (NodeLine.text eol) ++ ("$EndNodes".toList ++ eol ++ r))))).bind fun a =>
        .ok ({ c with nodes := a.1 }, a.2) := by
  have e : (Section.nodes n l).text eol ++ r = "$Nodes".toList ++ eol ++
      (n.text ++ eol ++ (l.flatMap (NodeLine.text eol) ++ ("$EndNodes".toList ++ eol ++ r))) := regroup _ _ _ _ _ _
  obtain ⟨cr, _, eg⟩ := getline_at h "$Nodes".toList (n.text ++ eol ++ (l.flatMap (NodeLine.text eol) ++ ("$EndNodes".toList ++ eol ++ r)))
    (by decide)
  rw [e, processSection, eg]
  simp only
  rw [if_neg (by simp), if_neg (by rw [(compare_others cr).1]; simp), if_pos (compareLeft_append _ _)]

theorem section_elements {eol : List Char} (h : Eol eol) (c : Content) (n : IntText) (l : List ElementLine) (r : List Char) :
    processSection c (.at ((Section.elements n l).text eol ++ r)) =
      (readElements (.at (n.text ++ eol ++ (l.flatMap (ElementLine.text eol) ++ ("$EndElements".toList ++ eol ++ r))))).bind fun a =>
        .ok ({ c with elements := a.1 }, a.2) := by
  have e : (Section.elements n l).text eol ++ r = "$Elements".toList ++ eol ++
      (n.text ++ eol ++ (l.flatMap (ElementLine.text eol) ++ ("$EndElements".toList ++ eol ++ r))) := regroup _ _ _ _ _ _
  obtain ⟨cr, _, eg⟩ := getline_at h "$Elements".toList (n.text ++ eol ++ (l.flatMap (ElementLine.text eol) ++ ("$EndElements".toList ++ eol ++ r)))
    (by decide)
  rw [e, processSection, eg]
  simp only
  rw [if_neg (by simp), if_neg (by rw [(compare_others cr).2.1]; simp), if_neg (by rw [(compare_others cr).2.2]; simp),
    if_pos (compareLeft_append _ _)]

theorem section_at {eol : List Char} (h : Eol eol) (c : Content) (x : Section) (hx : x.Valid) (r : List Char) :
    processSection c (.at (x.text eol ++ r)) = .ok (x.put c, .at r) := by
  cases x with
  | names n l => rw [section_names h, readNames_at h n l hx, Res.bind_ok']; rfl
  | nodes n l => rw [section_nodes h, readNodes_at h n l hx, Res.bind_ok']; rfl
  | elements n l => rw [section_elements h, readElements_at h n l hx, Res.bind_ok']; rfl

theorem sections_at {eol : List Char} (h : Eol eol) (l : List Section) (hl : ∀ x ∈ l, x.Valid) :
    ∀ (c : Content) (fuel : Nat), l.length + 2 ≤ fuel →
      sections fuel c (.at (l.flatMap (Section.text eol))) = some (.ok (l.foldl Section.put c)) := by
  induction l with
  | nil =>
    intro c fuel hf
    obtain ⟨k, rfl⟩ : ∃ k, fuel = k + 2 := ⟨fuel - 2, by simp at hf; omega⟩
    simp [sections, Stream.at, processSection, getline]
  | cons x l ih =>
    intro c fuel hf
    obtain ⟨k, rfl⟩ : ∃ k, fuel = k + 1 := ⟨fuel - 1, by omega⟩
    rw [List.flatMap_cons, sections, section_at h c x (hl x (.head _))]
    simp only [List.foldl_cons, Stream.at, Bool.false_eq_true, if_false]
    exact ih (fun x hx => hl x (.tail _ hx)) _ k (by simp at hf; omega)

theorem header_at {eol : List Char} (h : Eol eol) (binary : Res Stream) (version : RealText) (size : IntText) (hv : version.Valid)
    (h2 : 2 ≤ version.value) (hs : size.Valid) (r : List Char) : readHeader binary (.at (headerText eol version size ++ r)) = .ok (.at r) := by
  have e : headerText eol version size ++ r = "$MeshFormat".toList ++ eol ++ (version.text ++ (' ' :: ('0' :: (' ' :: (size.text ++ (eol ++
      ("$EndMeshFormat".toList ++ eol ++ r))))))) :=
    regroup_header _ _ _ _ _ _
  obtain ⟨cr, _, eg⟩ := getline_at h "$MeshFormat".toList (version.text ++ (' ' :: ('0' :: (' ' :: (size.text ++ (eol ++
      ("$EndMeshFormat".toList ++ eol ++ r))))))) (by decide)
  have h0 : extractInt (.at (' ' :: ('0' :: (' ' :: (size.text ++ (eol ++ ("$EndMeshFormat".toList ++ eol ++ r))))))) =
      (some 0, .at (' ' :: (size.text ++ (eol ++ ("$EndMeshFormat".toList ++ eol ++ r))))) :=
    extractInt_blank ⟨false, [0]⟩ _ ⟨by simp, by decide, by decide⟩ (Sep.blank _)
  rw [e, readHeader, eg]
  simp only
  rw [extractDouble_start _ _ hv (Sep.blank _)]
  simp only
  rw [h0]
  simp only
  rw [extractInt_blank _ _ hs (h.sep _)]
  simp only
  rw [getline_end h, if_neg (not_lt.2 h2)]
  simp only [ne_eq, not_true_eq_false, if_false]
  exact expect_at h _ _ (by decide)

theorem bind_ok_iff {α β : Type} {x : Res α} {g : α → Res β} {b : β} : x.bind g = .ok b ↔ ∃ a, x = .ok a ∧ g a = .ok b := by
  cases x <;> simp

/-! ### What is left of a stream is the end of what was there -/

theorem getline_suffix (s : Stream) : (getline s).2.rest <:+ s.rest := by
  unfold getline
  split
  · exact List.suffix_refl _
  · have h := List.dropWhile_suffix (l := s.rest) (fun c : Char => c != '\n')
    simp only
    split
    · exact List.nil_suffix
    · rename_i c r e
      rw [e] at h
      exact (List.suffix_cons c r).trans h

theorem skip_suffix (s : Stream) : (skip s).1.rest <:+ s.rest := by
  unfold skip
  split
  · exact List.suffix_refl _
  · simp only
    split
    · exact List.nil_suffix
    · exact List.dropWhile_suffix _

theorem takeSign_suffix (l : List Char) : (takeSign l).2 <:+ l := by
  unfold takeSign
  split
  · exact List.suffix_cons _ _
  · exact List.suffix_cons _ _
  · exact List.suffix_refl _

theorem span_suffix (l : List Char) (p : Char → Bool) : (l.span p).2 <:+ l := by
  rw [List.span_eq_takeWhile_dropWhile]
  exact List.dropWhile_suffix _

theorem takeFraction_suffix (l : List Char) : (takeFraction l).2 <:+ l := by
  unfold takeFraction
  split
  · exact (span_suffix _ _).trans (List.suffix_cons _ _)
  · exact List.suffix_refl _

theorem takeExponent_suffix (l : List Char) : (takeExponent l).2 <:+ l := by
  unfold takeExponent
  split
  · exact ((span_suffix _ _).trans (takeSign_suffix _)).trans (List.suffix_cons _ _)
  · exact ((span_suffix _ _).trans (takeSign_suffix _)).trans (List.suffix_cons _ _)
  · exact List.suffix_refl _

theorem extractInt_suffix (s : Stream) : (extractInt s).2.rest <:+ s.rest := by
  have h := skip_suffix s
  have h1 := (List.dropWhile_suffix Char.isDigit).trans ((takeSign_suffix (skip s).1.rest).trans h)
  unfold extractInt
  simp only
  split_ifs <;> first | exact h1 | exact h

theorem extractDouble_suffix (s : Stream) : (extractDouble s).2.rest <:+ s.rest := by
  have h := skip_suffix s
  have h1 := (takeFraction_suffix _).trans ((span_suffix _ Char.isDigit).trans ((takeSign_suffix (skip s).1.rest).trans h))
  have h2 := (takeExponent_suffix _).trans h1
  unfold extractDouble
  simp only
  split
  · split
    · exact h1
    · split
      · exact h2
      · exact h2
  · exact h

theorem extractWord_suffix (s : Stream) : (extractWord s).2.rest <:+ s.rest := by
  have h := skip_suffix s
  unfold extractWord
  simp only
  split
  · exact (List.dropWhile_suffix _).trans h
  · exact h

theorem readNode_suffix (s : Stream) : (readNode s).2.rest <:+ s.rest :=
  (getline_suffix _).trans ((extractDouble_suffix _).trans ((extractDouble_suffix _).trans ((extractDouble_suffix _).trans (extractInt_suffix _))))

theorem readName_suffix (s : Stream) : (readPhysicalName s).2.rest <:+ s.rest :=
  (getline_suffix _).trans ((extractWord_suffix _).trans ((extractInt_suffix _).trans (extractInt_suffix _)))

theorem readInts_suffix (n : Nat) : ∀ s : Stream, (readInts n s).2.rest <:+ s.rest := by
  induction n with
  | zero => exact fun s => List.suffix_refl _
  | succ n ih => exact fun s => (ih _).trans (extractInt_suffix _)

theorem readElement_suffix (s : Stream) {r : Element × Stream} (h : readElement s = .ok r) : r.2.rest <:+ s.rest := by
  have h0 := (extractInt_suffix _).trans ((extractInt_suffix _).trans (extractInt_suffix s))
  unfold readElement at h
  simp only at h
  split at h
  · simp at h
  · split at h
    · simp at h
    · cases hm : numNodes ((extractInt (extractInt s).2).1.getD 0) with
      | ok m =>
        rw [hm, Res.bind_ok'] at h
        obtain rfl := Res.ok.inj h
        exact (getline_suffix _).trans ((readInts_suffix _ _).trans ((readInts_suffix _ _).trans h0))
      | throw => rw [hm] at h; simp at h
      | ub => rw [hm] at h; simp at h

theorem times_suffix {α : Type} {read : Stream → Res (α × Stream)} (hr : ∀ s r, read s = .ok r → r.2.rest <:+ s.rest) (n : Nat) :
    ∀ s r, times read n s = .ok r → r.2.rest <:+ s.rest := by
  induction n with
  | zero =>
    intro s r h
    obtain rfl := Res.ok.inj h
    exact List.suffix_refl _
  | succ n ih =>
    intro s r h
    rw [times] at h
    obtain ⟨a, h1, h2⟩ := bind_ok_iff.1 h
    obtain ⟨b, h3, h4⟩ := bind_ok_iff.1 h2
    obtain rfl := Res.ok.inj h4
    exact (ih _ _ h3).trans (hr _ _ h1)

theorem readCount_suffix (s : Stream) {r : Nat × Stream} (h : readCount s = .ok r) : r.2.rest <:+ s.rest := by
  rw [readCount] at h
  obtain ⟨a, h1, h2⟩ := bind_ok_iff.1 h
  split at h2
  · simp at h2
  · obtain rfl := Res.ok.inj h2
    exact getline_suffix s

theorem getline_nonempty (s : Stream) (h : (getline s).1 ≠ []) :
    s.eof = false ∧ s.fail = false ∧ (getline s).2.fail = false ∧ ∃ p, s.rest = (getline s).1 ++ p ∧ (getline s).2.rest <:+ p := by
  unfold getline at h ⊢
  split at h
  · simp at h
  · rename_i hs
    simp only [Bool.or_eq_true, not_or, Bool.not_eq_true] at hs
    rw [if_neg (by simp [hs])]
    have hsplit := List.takeWhile_append_dropWhile (p := fun c : Char => c != '\n') (l := s.rest)
    simp only at h ⊢
    cases e : s.rest.dropWhile (fun c : Char => c != '\n') with
    | nil =>
      rw [e] at h hsplit
      simp only at h ⊢
      exact ⟨hs.1, hs.2, by simpa using h, [], hsplit.symm, List.nil_suffix⟩
    | cons c r =>
      rw [e] at h hsplit
      simp only at h ⊢
      exact ⟨hs.1, hs.2, trivial, c :: r, hsplit.symm, List.suffix_cons _ _⟩

theorem expect_ok {s s' : Stream} {w : List Char} (hw : w ≠ []) (h : expect s w = .ok s') :
    s'.fail = false ∧ ∃ q, s.rest = w ++ q ∧ s'.rest <:+ q := by
  rw [expect] at h
  split at h
  · rename_i hc
    obtain rfl := Res.ok.inj h
    rw [compareLeft, beq_iff_eq] at hc
    have hne : (getline s).1 ≠ [] := by
      intro e
      rw [e] at hc
      simp at hc
      exact hw hc
    obtain ⟨_, _, h3, p, h4, h5⟩ := getline_nonempty s hne
    refine ⟨h3, (getline s).1.drop w.length ++ p, ?_, h5.trans (List.suffix_append _ _)⟩
    rw [← List.append_assoc, h4]
    congr 1
    conv_lhs => rw [← List.take_append_drop w.length (getline s).1, hc]
  · simp at h

/-- A section of records followed by a last line -/
theorem records_ok {α : Type} {read : Stream → Res (α × Stream)} (hr : ∀ s r, read s = .ok r → r.2.rest <:+ s.rest) {w : List Char}
    (hw : w ≠ []) {s : Stream} {r : List α × Stream}
    (h : (readCount s).bind (fun c => (times read c.1 c.2).bind fun r => (expect r.2 w).bind fun s => .ok (r.1, s)) = .ok r) :
    r.2.fail = false ∧ ∃ p q, s.rest = p ++ w ++ q ∧ r.2.rest <:+ q := by
  obtain ⟨a, h1, h2⟩ := bind_ok_iff.1 h
  obtain ⟨b, h3, h4⟩ := bind_ok_iff.1 h2
  obtain ⟨c, h5, h6⟩ := bind_ok_iff.1 h4
  obtain rfl := Res.ok.inj h6
  obtain ⟨hf, q, h7, h8⟩ := expect_ok hw h5
  obtain ⟨p, hp⟩ := (times_suffix hr _ _ _ h3).trans (readCount_suffix s h1)
  exact ⟨hf, p, q, by rw [← hp, h7, List.append_assoc], h8⟩

theorem readNodes_ok {s : Stream} {r : List (NodeRecord ℚ) × Stream} (h : readNodes s = .ok r) :
    r.2.fail = false ∧ ∃ p q, s.rest = p ++ "$EndNodes".toList ++ q ∧ r.2.rest <:+ q :=
  records_ok (fun s r h => by obtain rfl := Res.ok.inj h; exact readNode_suffix s) (by decide) h

theorem readNames_ok {s : Stream} {r : List PhysicalName × Stream} (h : readNames s = .ok r) :
    r.2.fail = false ∧ ∃ p q, s.rest = p ++ "$EndPhysicalNames".toList ++ q ∧ r.2.rest <:+ q :=
  records_ok (fun s r h => by obtain rfl := Res.ok.inj h; exact readName_suffix s) (by decide) h

theorem readElements_ok {s : Stream} {r : List Element × Stream} (h : readElements s = .ok r) :
    r.2.fail = false ∧ ∃ p q, s.rest = p ++ "$EndElements".toList ++ q ∧ r.2.rest <:+ q :=
  records_ok (fun _ _ h => readElement_suffix _ h) (by decide) h

/-- One round of the loop ends the stream or leaves less. -/
theorem section_progress {c : Content} {s : Stream} (hf : s.fail = false) (he : s.eof = false) {r : Content × Stream}
    (h : processSection c s = .ok r) : r.2.eof = true ∨ (r.2.fail = false ∧ r.2.rest.length < s.rest.length) := by
  have key : ∀ t : Stream, (getline s).1 ≠ [] → (t.fail = false ∧ ∃ p q : List Char, ∃ w, (getline s).2.rest = p ++ w ++ q ∧ t.rest <:+ q) →
      t.fail = false ∧ t.rest.length < s.rest.length := by
    intro t hne ⟨h1, p, q, w, h2, h3⟩
    obtain ⟨_, _, _, p', h4, h5⟩ := getline_nonempty s hne
    have l1 := h3.length_le
    have l2 := h5.length_le
    have l3 : 0 < (getline s).1.length := List.length_pos_iff.2 hne
    have l4 := congrArg List.length h2
    have l5 := congrArg List.length h4
    simp only [List.length_append] at l4 l5
    exact ⟨h1, by omega⟩
  rw [processSection] at h
  simp only at h
  split at h
  · rename_i hl
    obtain rfl := Res.ok.inj h
    unfold getline at hl ⊢
    rw [if_neg (by simp [hf, he])] at hl ⊢
    simp only at hl ⊢
    have hsplit := List.takeWhile_append_dropWhile (p := fun c : Char => c != '\n') (l := s.rest)
    cases e : s.rest.dropWhile (fun c : Char => c != '\n') with
    | nil => left; rfl
    | cons c r =>
      right
      rw [e] at hsplit
      have := congrArg List.length hsplit
      simp only [List.length_append, List.length_cons] at this
      exact ⟨rfl, by simp only; omega⟩
  · rename_i hne
    right
    split at h
    · obtain ⟨a, h1, h2⟩ := bind_ok_iff.1 h
      obtain rfl := Res.ok.inj h2
      obtain ⟨g1, p, q, g2, g3⟩ := readNames_ok h1
      exact key a.2 hne ⟨g1, p, q, _, g2, g3⟩
    · split at h
      · obtain ⟨a, h1, h2⟩ := bind_ok_iff.1 h
        obtain rfl := Res.ok.inj h2
        obtain ⟨g1, p, q, g2, g3⟩ := readNodes_ok h1
        exact key a.2 hne ⟨g1, p, q, _, g2, g3⟩
      · split at h
        · obtain ⟨a, h1, h2⟩ := bind_ok_iff.1 h
          obtain rfl := Res.ok.inj h2
          obtain ⟨g1, p, q, g2, g3⟩ := readElements_ok h1
          exact key a.2 hne ⟨g1, p, q, _, g2, g3⟩
        · simp at h

theorem sections_end (fuel : Nat) : ∀ (c : Content) (s : Stream), (s.eof = true ∧ 1 ≤ fuel) ∨ (s.fail = false ∧ s.rest.length + 2 ≤ fuel) →
    sections fuel c s ≠ none := by
  induction fuel with
  | zero => intro c s h; omega
  | succ fuel ih =>
    intro c s h
    rw [sections]
    split
    · simp
    · rename_i he
      rw [Bool.not_eq_true] at he
      obtain ⟨hf, hl⟩ : s.fail = false ∧ s.rest.length + 2 ≤ fuel + 1 := by
        rcases h with h | h
        · exact absurd h.1 (by simp [he])
        · exact h
      cases hp : processSection c s with
      | ok r =>
        refine ih _ _ ?_
        rcases section_progress hf he hp with h1 | ⟨h1, h2⟩
        · exact .inl ⟨h1, by omega⟩
        · exact .inr ⟨h1, by omega⟩
      | throw => simp
      | ub => simp

/-! ### Failed streams -/

theorem skip_failed {s : Stream} (h : s.fail = true) : skip s = (s, false) := by
  obtain ⟨r, e, f⟩ := s
  obtain rfl : f = true := h
  simp [skip]

theorem extractInt_failed {s : Stream} (h : s.fail = true) : extractInt s = (none, s) := by
  simp [extractInt, skip_failed h]

theorem extractDouble_failed {s : Stream} (h : s.fail = true) : extractDouble s = (none, s) := by
  simp [extractDouble, skip_failed h]

theorem extractWord_failed {s : Stream} (h : s.fail = true) : extractWord s = ([], s) := by
  simp [extractWord, skip_failed h]

theorem getline_failed {s : Stream} (h : s.fail = true) : getline s = ([], s) := by
  obtain ⟨r, e, f⟩ := s
  obtain rfl : f = true := h
  simp [getline]

theorem readNode_failed {s : Stream} (h : s.fail = true) : (readNode s).2 = s := by
  simp [readNode, extractInt_failed h, extractDouble_failed h, getline_failed h]

theorem readName_failed {s : Stream} (h : s.fail = true) : (readPhysicalName s).2 = s := by
  simp [readPhysicalName, extractInt_failed h, extractWord_failed h, getline_failed h]

theorem times_failed {α : Type} {read : Stream → α × Stream} (hr : ∀ s : Stream, s.fail = true → (read s).2 = s) (n : Nat) :
    ∀ s : Stream, s.fail = true → ∃ l, times (fun s => .ok (read s)) n s = .ok (l, s) := by
  induction n with
  | zero => exact fun s _ => ⟨[], rfl⟩
  | succ n ih =>
    intro s h
    obtain ⟨l, hl⟩ := ih s h
    refine ⟨(read s).1 :: l, ?_⟩
    rw [times, Res.bind_ok', hr s h, hl, Res.bind_ok']

/-- a line that begins with `$` has no number -/
theorem extractInt_dollar (r : List Char) : (extractInt (.at ('$' :: r))).2.fail = true := by
  have h : skip (.at ('$' :: r)) = (.at ('$' :: r), true) := skip_at [] r '$' (by simp) (by decide)
  have hd : Char.isDigit '$' = false := by decide
  rw [extractInt, h]
  simp [Stream.at, takeSign, hd]

theorem readNode_dollar (r : List Char) : (readNode (.at ('$' :: r))).2.fail = true := by
  have h := extractInt_dollar r
  simp [readNode, extractDouble_failed h, getline_failed h, h]

theorem readName_dollar (r : List Char) : (readPhysicalName (.at ('$' :: r))).2.fail = true := by
  have h := extractInt_dollar r
  simp [readPhysicalName, extractInt_failed h, extractWord_failed h, getline_failed h, h]

theorem readElement_dollar (r : List Char) : readElement (.at ('$' :: r)) = .ub := by
  have h := extractInt_dollar r
  simp [readElement, extractInt_failed h]

theorem expect_failed {s : Stream} (h : s.fail = true) {w : List Char} (hw : w ≠ []) : expect s w = .throw := by
  rw [expect, getline_failed h]
  simp [compareLeft, hw]

/-- more records than lines -/
theorem times_more {α β : Type} (read : Stream → Res (β × Stream)) (text : α → List Char) (record : α → β) (valid : α → Prop)
    (hread : ∀ a r, valid a → read (.at (text a ++ r)) = .ok (record a, .at r)) (l : List α) (hl : ∀ a ∈ l, valid a) (r : List Char)
    (k : Nat) : times read (l.length + k) (.at (l.flatMap text ++ r)) =
      (times read k (.at r)).bind fun x => .ok (l.map record ++ x.1, x.2) := by
  induction l with
  | nil =>
    simp only [List.length_nil, Nat.zero_add, List.flatMap_nil, List.nil_append, List.map_nil]
    cases times read k (.at r) <;> rfl
  | cons a l ih =>
    rw [List.flatMap_cons, List.append_assoc, List.length_cons, Nat.add_right_comm, times, hread a _ (hl a (.head _)), Res.bind_ok',
      ih fun a ha => hl a (.tail _ ha)]
    cases times read k (.at r) <;> rfl

theorem expect_head {c d : Char} (r w : List Char) (h : c ≠ d) : expect (.at (c :: r)) (d :: w) = .throw := by
  have hl : (getline (.at (c :: r))).1 = (c :: r).takeWhile (· != '\n') := by
    simp only [getline, Stream.at, Bool.or_self, Bool.false_eq_true, if_false]
    split <;> rfl
  rw [expect]
  simp only [hl]
  rw [if_neg]
  by_cases hc : c = '\n'
  · subst hc
    simp [compareLeft]
  · rw [List.takeWhile_cons_of_pos (by simpa using hc)]
    simp [compareLeft, h]

theorem IntText.first {t : IntText} (h : t.Valid) : ∃ c w, t.text = c :: w ∧ c ≠ '$' := by
  obtain ⟨hd, _⟩ := h
  cases hn : t.neg
  · obtain ⟨d, l, e⟩ := List.exists_cons_of_ne_nil hd
    refine ⟨digitChar d, l.map digitChar, by simp [IntText.text, hn, e], ?_⟩
    clear e
    revert d
    decide
  · exact ⟨'-', t.digits.map digitChar, by simp [IntText.text, hn], by decide⟩

theorem count_negative {eol : List Char} (h : Eol eol) (n : IntText) (hn : n.Valid) (h0 : n.value < 0) (r : List Char) :
    readCount (.at (n.text ++ eol ++ r)) = .throw := by
  obtain ⟨cr, hcr, e⟩ := getline_at h n.text r n.noNewline
  rw [readCount, e, stoi_text n hn cr fun c hc => (hcr c hc).2, Res.bind_ok', if_pos h0]

/-- fewer records than lines -/
theorem records_fewer {α β : Type} (read : Stream → Res (β × Stream)) (text : α → List Char) (record : α → β) (valid : α → Prop)
    (hread : ∀ a r, valid a → read (.at (text a ++ r)) = .ok (record a, .at r)) (first : ∀ a, valid a → ∃ c w, text a = c :: w ∧ c ≠ '$')
    (l : List α) (hl : ∀ a ∈ l, valid a) (w r : List Char) (k : Nat) (hk : k < l.length) :
    ((times read k (.at (l.flatMap text ++ r))).bind fun x => (expect x.2 ('$' :: w)).bind fun s => .ok (x.1, s)) = .throw := by
  have hsplit : l = l.take k ++ l.drop k := (List.take_append_drop k l).symm
  have hlen : (l.take k).length = k := by rw [List.length_take]; omega
  obtain ⟨x, m, hx⟩ := List.exists_cons_of_ne_nil (l := l.drop k) (by simpa using hk)
  have hxv : valid x := hl x (List.mem_of_mem_drop (hx ▸ List.mem_cons_self))
  have := times_at read text record valid hread (l.take k) (fun a ha => hl a (List.mem_of_mem_take ha)) ((l.drop k).flatMap text ++ r)
  rw [hlen, ← List.append_assoc, ← List.flatMap_append, ← hsplit] at this
  obtain ⟨c, v, hc, hd⟩ := first x hxv
  rw [this, Res.bind_ok', hx, List.flatMap_cons, hc]
  simp only [List.cons_append]
  rw [expect_head _ _ hd]
  rfl

/-- more records than lines, for records that are not read if the stream has failed -/
theorem records_more {α β : Type} (read : Stream → β × Stream) (text : α → List Char) (record : α → β) (valid : α → Prop)
    (hread : ∀ a r, valid a → Res.ok (read (.at (text a ++ r))) = .ok (record a, .at r)) (hf : ∀ s : Stream, s.fail = true → (read s).2 = s)
    (hd : ∀ r, (read (.at ('$' :: r))).2.fail = true) (l : List α) (hl : ∀ a ∈ l, valid a) (w r : List Char) (k : Nat) (hk : l.length < k) :
    ((times (fun s => .ok (read s)) k (.at (l.flatMap text ++ '$' :: r))).bind fun x => (expect x.2 ('$' :: w)).bind fun s => .ok (x.1, s)) = .throw := by
  obtain ⟨j, rfl⟩ : ∃ j, k = l.length + (j + 1) := ⟨k - l.length - 1, by omega⟩
  rw [times_more (fun s => .ok (read s)) text record valid hread l hl, times, Res.bind_ok']
  obtain ⟨z, hz⟩ := times_failed hf j _ (hd r)
  rw [hz]
  simp only [Res.bind_ok']
  rw [expect_failed (hd r) (by simp)]
  rfl

/-- a wrong number of records -/
theorem records_wrong {α β : Type} (read : Stream → β × Stream) (text : α → List Char) (record : α → β) (valid : α → Prop)
    (hread : ∀ a r, valid a → Res.ok (read (.at (text a ++ r))) = .ok (record a, .at r)) (hf : ∀ s : Stream, s.fail = true → (read s).2 = s)
    (hd : ∀ r, (read (.at ('$' :: r))).2.fail = true) (first : ∀ a, valid a → ∃ c w, text a = c :: w ∧ c ≠ '$')
    (l : List α) (hl : ∀ a ∈ l, valid a) {eol : List Char} (h : Eol eol) (n : IntText) (hn : n.Valid) (hne : n.value ≠ l.length)
    (w r : List Char) :
    ((readCount (.at (n.text ++ eol ++ (l.flatMap text ++ '$' :: r)))).bind fun c => (times (fun s => .ok (read s)) c.1 c.2).bind fun x =>
      (expect x.2 ('$' :: w)).bind fun s => .ok (x.1, s)) = .throw := by
  rcases lt_or_ge n.value 0 with h0 | h0
  · rw [count_negative h n hn h0]
    rfl
  · obtain ⟨k, hk⟩ := Int.eq_ofNat_of_zero_le h0
    rw [readCount_at h n hn k hk, Res.bind_ok']
    rcases lt_or_ge k l.length with hlt | hge
    · exact records_fewer (fun s => .ok (read s)) text record valid hread first l hl w _ k hlt
    · exact records_more read text record valid hread hf hd l hl w r k (lt_of_le_of_ne hge fun e => hne (by rw [hk, e]))

/-- fewer elements than announced -/
theorem elements_more {eol : List Char} (h : Eol eol) (n : IntText) (hn : n.Valid) (l : List ElementLine) (hl : ∀ x ∈ l, x.Valid)
    (hlt : (l.length : Int) < n.value) (r : List Char) :
    readElements (.at (n.text ++ eol ++ (l.flatMap (ElementLine.text eol) ++ '$' :: r))) = .ub := by
  obtain ⟨k, hk⟩ := Int.eq_ofNat_of_zero_le (a := n.value) (by omega)
  obtain ⟨j, rfl⟩ : ∃ j, k = l.length + (j + 1) := ⟨k - l.length - 1, by omega⟩
  rw [readElements, readCount_at h n hn _ hk, Res.bind_ok']
  simp only
  rw [times_more readElement (ElementLine.text eol) ElementLine.record ElementLine.Valid (fun a r ha => readElement_at h a ha r) l hl,
    times, readElement_dollar]
  rfl

theorem sections_then {eol : List Char} (h : Eol eol) (l : List Section) (hl : ∀ x ∈ l, x.Valid) (r : List Char) :
    ∀ (c : Content) (fuel : Nat),
      sections (l.length + fuel) c (.at (l.flatMap (Section.text eol) ++ r)) = sections fuel (l.foldl Section.put c) (.at r) := by
  induction l with
  | nil => intro c fuel; simp
  | cons x l ih =>
    intro c fuel
    rw [List.flatMap_cons, List.append_assoc, List.length_cons, Nat.add_right_comm, sections, section_at h c x (hl x (.head _))]
    simp only [List.foldl_cons, Stream.at, Bool.false_eq_true, if_false]
    exact ih (fun x hx => hl x (.tail _ hx)) _ fuel

/-- what happens after valid sections -/
theorem readFile_then (binary : Res Stream) {eol : List Char} (h : Eol eol) (version : RealText) (size : IntText)
    (hv : version.Valid) (h2 : 2 ≤ version.value) (hs : size.Valid) (l : List Section) (hl : ∀ x ∈ l, x.Valid) (r : List Char) (fuel : Nat) :
    readFile binary (l.length + fuel) (headerText eol version size ++ (l.flatMap (Section.text eol) ++ r)) =
      sections fuel (l.foldl Section.put {}) (.at r) := by
  have := header_at h binary version size hv h2 hs (l.flatMap (Section.text eol) ++ r)
  rw [Stream.at] at this
  rw [readFile, this]
  exact sections_then h l hl r _ fuel

theorem header_ok {binary : Res Stream} {s s' : Stream} (h : readHeader binary s = .ok s') :
    binary = .ok s' ∨ ∃ t : Stream, t.rest <:+ s.rest ∧ expect t "$EndMeshFormat".toList = .ok s' := by
  rw [readHeader] at h
  generalize "$EndMeshFormat".toList = w at h ⊢
  have e1 := ((getline_suffix _).trans ((extractInt_suffix _).trans ((extractInt_suffix _).trans ((extractDouble_suffix _).trans
            (getline_suffix s)))))
  revert h
  cases hv : (extractDouble (getline s).2).1 with
  | none => intro h; simp [hv] at h
  | some v =>
    cases hb : (extractInt (extractDouble (getline s).2).2).1 with
    | none => intro h; simp [hv, hb] at h
    | some b =>
      simp only [hv, hb]
      intro h
      split at h
      · simp at h
      · split at h
        · exact .inl h
        · exact .inr ⟨_, e1, h⟩

end GmshText
end NuTo
