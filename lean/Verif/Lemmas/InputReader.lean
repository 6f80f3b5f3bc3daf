import Verif.Lemmas.GmshText
import Verif.Props.InputGrammar

/-!
Lemmas for the reader of the parameters of a particle simulation.
-/
namespace NuTo
namespace InputReader

open GmshText

theorem getText_at (n : Nat) (d : Char) (c r : List Char) (h0 : c ≠ []) (hn : c.length ≤ n - 1) (hd : d ∉ c) :
    getText n d (.at (c ++ d :: r)) = (c, .at (d :: r)) := by
  have h : (c ++ d :: r).takeWhile (· != d) = c := by
    rw [List.takeWhile_append_of_pos]
    · simp
    · intro a ha
      simp only [bne_iff_ne, ne_eq]
      rintro rfl
      exact hd ha
  have h1 : c.take (n - 1) = c := List.take_of_length_le hn
  simp [getText, Stream.at, h, h1, h0]

theorem skipToNextData_at (c r : List Char) (h : Comment c) : skipToNextData (.at (c ++ '=' :: r)) = .at r := by
  rw [skipToNextData, getText_at 1000 '=' c r h.1 h.2.1 h.2.2]
  rfl

theorem Ends.append {c : List Char} (h : Ends c) (r : List Char) : Sep (c ++ r) := by
  obtain ⟨a, s, rfl, h⟩ := h
  exact ⟨a, s ++ r, rfl, h⟩

theorem readNumber_at (n : Number) (h : n.Valid) (r : List Char) (hr : Sep r) :
    readNumber (.at (n.text ++ r)) = .ok (n.value.value, .at r) := by
  have e : n.text ++ r = n.comment ++ '=' :: (n.pad ++ n.value.text ++ r) := by simp [Number.text]
  rw [readNumber, e, skipToNextData_at _ _ h.1]
  rw [extractDouble_at _ _ _ h.2.1 h.2.2 hr]

theorem extractChar_at (pad r : List Char) (c : Char) (hp : ∀ x ∈ pad, space x = true) (hc : space c = false) :
    extractChar (.at (pad ++ c :: r)) = (some c, .at r) := by
  rw [extractChar, skip_at pad r c hp hc]
  rfl

theorem vectorLoop_at (l : List (List Char × RealText)) (hl : l ≠ []) (h : ∀ x ∈ l, (∀ c ∈ x.1, space c = true) ∧ x.2.Valid) (stop : Char)
    (hs : Ends [stop]) (hc : stop ≠ ',') (r : List Char) : ∀ (fuel : Nat) (last : Option ℚ) (acc : List ℚ), l.length ≤ fuel →
    vectorLoop fuel last acc (.at (itemsText l ++ stop :: r)) = some (.ok (acc ++ l.map fun x => x.2.value, .at r)) := by
  induction l with
  | nil => exact absurd rfl hl
  | cons x l ih =>
    intro fuel last acc hf
    obtain ⟨hx1, hx2⟩ := h x List.mem_cons_self
    obtain ⟨fuel, rfl⟩ : ∃ k, fuel = k + 1 := ⟨fuel - 1, by rw [List.length_cons] at hf; omega⟩
    cases l with
    | nil =>
      have e := extractDouble_at x.1 x.2 (stop :: r) hx1 hx2 (Ends.append hs r)
      rw [itemsText, vectorLoop, e]
      simp [getChar, Stream.at, hc]
    | cons y l =>
      have e := extractDouble_at x.1 x.2 (',' :: (itemsText (y :: l) ++ stop :: r)) hx1 hx2 ⟨_, _, rfl, by decide⟩
      have e2 : itemsText (x :: y :: l) ++ stop :: r = x.1 ++ x.2.text ++ ',' :: (itemsText (y :: l) ++ stop :: r) := by
        simp [itemsText]
      rw [e2, vectorLoop, e]
      have e3 : getChar (.at (',' :: (itemsText (y :: l) ++ stop :: r))) = (some ',', .at (itemsText (y :: l) ++ stop :: r)) := rfl
      simp only [e3, Option.getD_some, if_true, Option.orElse]
      rw [ih (by simp) (fun z hz => h z (List.mem_cons_of_mem _ hz)) fuel _ _ (by simp only [List.length_cons] at hf ⊢; omega)]
      simp

theorem readVector_at (v : Numbers) (h : v.Valid) (r : List Char) (fuel : Nat) (hf : v.items.length ≤ fuel) :
    readVector fuel (.at (v.text ++ r)) = some (.ok (v.value, .at r)) := by
  have e : v.text ++ r = v.comment ++ '=' :: (itemsText v.items ++ v.stop :: r) := by simp [Numbers.text]
  rw [readVector, e, skipToNextData_at _ _ h.1, vectorLoop_at _ h.2.1 h.2.2.1 _ h.2.2.2.1 h.2.2.2.2 _ _ _ _ hf]
  rfl

theorem readString_at (c d r : List Char) (hc : Comment c) (hd : '\n' ∉ d) (hl : d.length ≤ 57) :
    readString (.at (c ++ '=' :: (d ++ ';' :: '\n' :: r))) = .ok (d.filter fun c => !space c, .at ('\n' :: r)) := by
  have e : d ++ ';' :: '\n' :: r = (d ++ [';']) ++ '\n' :: r := by simp
  rw [readString, skipToNextData_at _ _ hc, e, getText_at _ _ (d ++ [';']) r (by simp) (by simp [show ';'.toNat = 59 from rfl]; omega)
    (by simp [hd])]
  simp

theorem readBool_at (c pad r : List Char) (b : Char) (hc : Comment c) (hp : ∀ x ∈ pad, space x = true) (hb : space b = false) :
    readBool (.at (c ++ '=' :: (pad ++ b :: r))) = .ok (['T', 't', 'Y', 'y', '1'].contains b, .at r) := by
  rw [readBool, skipToNextData_at _ _ hc]
  rw [extractChar_at pad r b hp hb]

theorem toInt_int (bits : Nat) (i : Int) (h1 : -(2 : Int) ^ (bits - 1) ≤ i) (h2 : i < 2 ^ (bits - 1)) : toInt bits (i : ℚ) = .ok i := by
  have : ((i : ℚ).num).tdiv ((i : ℚ).den) = i := by simp
  rw [toInt]
  simp only [this]
  rw [if_pos ⟨h1, h2⟩]

theorem readInt_at (bits : Nat) (n : Number) (h : n.Valid) (i : Int) (hi : n.value.value = i) (h1 : -(2 : Int) ^ (bits - 1) ≤ i)
    (h2 : i < 2 ^ (bits - 1)) (r : List Char) (hr : Sep r) : readInt bits (.at (n.text ++ r)) = .ok (i, .at r) := by
  rw [readInt, readNumber_at n h r hr, Res.bind_ok']
  simp only
  rw [hi, toInt_int bits i h1 h2]
  rfl

theorem readSieves_at (fuel : Nat) (hf : 3 ≤ fuel) (l : List Numbers) (h : ∀ v ∈ l, v.Valid) (h3 : ∀ v ∈ l, v.items.length = 3)
    (r : List Char) : readSieves fuel l.length (.at (l.flatMap Numbers.text ++ r)) = some (.ok (l.map Numbers.value, .at r)) := by
  induction l with
  | nil => rfl
  | cons v l ih =>
    have hv := h v List.mem_cons_self
    have hv3 := h3 v List.mem_cons_self
    have e : (v :: l).flatMap Numbers.text ++ r = v.text ++ (l.flatMap Numbers.text ++ r) := by simp
    rw [List.length_cons, readSieves, e, readVector_at v hv _ fuel (by omega)]
    simp only [next]
    rw [if_neg (by simp [Numbers.value, hv3]), ih (fun w hw => h w (List.mem_cons_of_mem _ hw)) fun w hw => h3 w (List.mem_cons_of_mem _ hw)]
    simp

end InputReader
end NuTo
