/-
C26: reading the element blocks of a binary gmsh file.
-/
import Verif.Model.Gmsh
import Verif.Lemmas.Solve
import Mathlib.Data.List.Nodup
import Mathlib.Tactic.ByContra
import Mathlib.Tactic.Push

namespace NuTo

namespace Gmsh

/-! ### What a binary file contains -/

/-- A header with the elements that follow it. -/
structure Block where
  type : Int
  numTags : Nat
  elems : List Element

/-- The `int`s of one element. -/
def encodeElement (e : Element) : List Int := e.id :: (e.tags ++ e.nodes)

/-- The `int`s of a header and its elements, as documented by gmsh. -/
def encodeBlock (b : Block) : List Int :=
  b.type :: (b.elems.length : Int) :: (b.numTags : Int) :: b.elems.flatMap encodeElement

/-- The `int`s of the element section. -/
def encode (bs : List Block) : List Int := bs.flatMap encodeBlock

/-- All elements in the order of the file. -/
def written (bs : List Block) : List Element := bs.flatMap Block.elems

/-- The elements agree with their header and there is at least one of them. -/
def Block.Valid (b : Block) : Prop :=
  b.elems ≠ [] ∧ ∃ n, numNodes b.type = .ok n ∧
    ∀ e ∈ b.elems, e.type = b.type ∧ e.tags.length = b.numTags ∧ e.nodes.length = n

/-! ### Reading -/

theorem readInts_append (l ws : List Int) : readInts l.length (l ++ ws) = .ok (l, ws) := by
  induction l with
  | nil => rfl
  | cons a l ih =>
    rw [List.length_cons, readInts]
    simp only [List.cons_append, readInt, Res.bind_ok, ih, Res.pure_eq]

theorem readStep_encode {type : Int} {nt n : Nat} {e : Element} (h1 : e.type = type)
    (h2 : e.tags.length = nt) (h3 : e.nodes.length = n) (es : List Element) (c k : Nat)
    (ws : List Int) (hc : c < es.length) :
    readStep type nt n ⟨es, c, encodeElement e ++ ws⟩ k = .ok ⟨es.set c e, c + k, ws⟩ := by
  subst h1 h2 h3
  rw [readStep, if_pos hc]
  simp only [encodeElement, List.cons_append, List.append_assoc, readInt, Res.bind_ok,
    readInts_append, Res.pure_eq]

theorem readBlock_encode {b : Block} (hb : b.Valid) (es : List Element) (c : Nat)
    (ws : List Int) :
    ∃ n, (∀ e ∈ b.elems, e.type = b.type ∧ e.tags.length = b.numTags ∧ e.nodes.length = n) ∧
    readBlock ⟨es, c, encodeBlock b ++ ws⟩ =
      Res.foldlM (readStep b.type b.numTags n) ⟨es, c, b.elems.flatMap encodeElement ++ ws⟩
        (List.range b.elems.length) := by
  obtain ⟨_, n, hn, he⟩ := hb
  refine ⟨n, he, ?_⟩
  have : ¬ ((b.numTags : Int) < 0 ∧ 0 < (b.elems.length : Int)) := by omega
  simp only [readBlock, encodeBlock, List.cons_append, readInt, Res.bind_ok, hn, if_neg this,
    Int.toNat_natCast]

theorem replicate_set (done : List Element) (m : Nat) (e : Element) :
    (done ++ List.replicate (m + 1) ({} : Element)).set done.length e =
      (done ++ [e]) ++ List.replicate m ({} : Element) := by
  rw [List.set_append_right _ _ (Nat.le_refl _), Nat.sub_self, List.replicate_succ,
    List.set_cons_zero, List.append_assoc]
  rfl

theorem readLoop_single (bs : List Block) (hv : ∀ b ∈ bs, b.Valid)
    (h1 : ∀ b ∈ bs, b.elems.length = 1) (done : List Element) (m f : Nat) (ws : List Int) :
    readLoop (bs.length + f) ⟨done ++ List.replicate (bs.length + m) ({} : Element), done.length,
        encode bs ++ ws⟩ =
      readLoop f ⟨(done ++ written bs) ++ List.replicate m ({} : Element), done.length + bs.length, ws⟩ := by
  induction bs generalizing done with
  | nil => simp [encode, written]
  | cons b bs ih =>
    have hb := hv b List.mem_cons_self
    have hb1 := h1 b List.mem_cons_self
    obtain ⟨e, he⟩ := List.length_eq_one_iff.1 hb1
    have hl : (b :: bs).length + f = (bs.length + f) + 1 := by simp; omega
    have hm : (b :: bs).length + m = (bs.length + m) + 1 := by simp; omega
    have henc : encode (b :: bs) ++ ws = encodeBlock b ++ (encode bs ++ ws) := by
      simp [encode]
    obtain ⟨n, hn, hr⟩ := readBlock_encode hb (done ++ List.replicate (bs.length + m + 1) ({} : Element))
      done.length (encode bs ++ ws)
    have hlt : done.length < (done ++ List.replicate (bs.length + m + 1) ({} : Element)).length := by
      simp
    rw [hl, hm, readLoop]
    dsimp only
    rw [if_pos hlt, henc, hr, hb1]
    have hen := hn e (by rw [he]; exact List.mem_cons_self)
    have hfl : b.elems.flatMap encodeElement ++ (encode bs ++ ws) =
        encodeElement e ++ (encode bs ++ ws) := by rw [he]; simp
    rw [hfl, show List.range 1 = [0] from rfl, Res.foldlM_cons,
      readStep_encode hen.1 hen.2.1 hen.2.2 _ _ _ _ hlt, Res.bind_ok', Res.foldlM_nil,
      Res.bind_ok, replicate_set]
    have := ih (fun b hb => hv b (List.mem_cons_of_mem _ hb))
      (fun b hb => h1 b (List.mem_cons_of_mem _ hb)) (done ++ [e])
    simp only [List.length_append, List.length_cons, List.length_nil, Nat.zero_add] at this
    simp only [Nat.add_zero]
    rw [this]
    have hw : done ++ [e] ++ written bs = done ++ written (b :: bs) := by
      simp [written, he]
    rw [hw, List.length_cons]
    congr 2
    omega

/-- C26, correct case: if every header is followed by one element, exactly the elements of
the file are read.

Partial: false for headers with more elements, see `C26_blocks_counterexample` and
`C26_exact_iff_partial`. -/
theorem C26_single_partial (bs : List Block) (hv : ∀ b ∈ bs, b.Valid)
    (h1 : ∀ b ∈ bs, b.elems.length = 1) :
    readElementsBinary (written bs).length (encode bs) = .ok (written bs) := by
  have hlen : (written bs).length = bs.length := by
    clear hv
    induction bs with
    | nil => rfl
    | cons b bs ih =>
      have := ih fun b hb => h1 b (List.mem_cons_of_mem _ hb)
      have hb := h1 b List.mem_cons_self
      simp only [written, List.flatMap_cons, List.length_append, List.length_cons] at this ⊢
      omega
  have h := readLoop_single bs hv h1 [] 0 0 []
  simp only [List.nil_append, List.append_nil, List.length_nil, Nat.add_zero, Nat.zero_add,
    List.replicate_zero] at h
  rw [readElementsBinary, hlen, h, readLoop]
  simp [hlen]

/-! ### Headers with several elements -/

/-- Position `c` holds `e` and is never written again. -/
def Frozen (c : Nat) (e : Element) (s : ReadState) : Prop :=
  s.elements[c]? = some e ∧ c < s.elemCount

theorem frozen_step {c : Nat} {e : Element} {type : Int} {nt n k : Nat} {s s' : ReadState}
    (h : Frozen c e s) (hs : readStep type nt n s k = .ok s') : Frozen c e s' := by
  rw [readStep] at hs
  split at hs
  · obtain ⟨⟨id, ws⟩, _, hs⟩ := Res.bind_eq_ok hs
    obtain ⟨⟨tags, ws'⟩, _, hs⟩ := Res.bind_eq_ok hs
    obtain ⟨⟨nodes, ws''⟩, _, hs⟩ := Res.bind_eq_ok hs
    cases hs
    refine ⟨?_, by have := h.2; dsimp only; omega⟩
    dsimp only
    rw [List.getElem?_set_ne (by have := h.2; omega)]
    exact h.1
  · cases hs

theorem frozen_fold {c : Nat} {e : Element} {type : Int} {nt n : Nat} (l : List Nat)
    {s s' : ReadState} (h : Frozen c e s)
    (hs : Res.foldlM (readStep type nt n) s l = .ok s') : Frozen c e s' := by
  induction l generalizing s with
  | nil => cases hs; exact h
  | cons k l ih =>
    rw [Res.foldlM_cons] at hs
    obtain ⟨t, ht, hs⟩ := Res.bind_eq_ok hs
    exact ih (frozen_step h ht) hs

theorem frozen_block {c : Nat} {e : Element} {s s' : ReadState} (h : Frozen c e s)
    (hs : readBlock s = .ok s') : Frozen c e s' := by
  rw [readBlock] at hs
  obtain ⟨⟨type, ws⟩, _, hs⟩ := Res.bind_eq_ok hs
  obtain ⟨⟨follow, ws'⟩, _, hs⟩ := Res.bind_eq_ok hs
  obtain ⟨⟨numTags, ws''⟩, _, hs⟩ := Res.bind_eq_ok hs
  obtain ⟨n, _, hs⟩ := Res.bind_eq_ok hs
  split at hs
  · cases hs
  · exact frozen_fold _ (s := ⟨s.elements, s.elemCount, ws''⟩) h hs

theorem frozen_loop {c : Nat} {e : Element} (f : Nat) {s s' : ReadState} (h : Frozen c e s)
    (hs : readLoop f s = .ok s') : Frozen c e s' := by
  induction f generalizing s with
  | zero =>
    rw [readLoop] at hs
    split at hs
    · cases hs
    · cases hs; exact h
  | succ f ih =>
    rw [readLoop] at hs
    split at hs
    · obtain ⟨t, ht, hs⟩ := Res.bind_eq_ok hs
      have hf := frozen_block h ht
      exact ih (s := ⟨t.elements, t.elemCount + 1, t.rest⟩)
        ⟨hf.1, Nat.lt_succ_of_lt hf.2⟩ hs
    · cases hs; exact h

/-- The first header with more than one element. -/
theorem first_big (bs : List Block) (hv : ∀ b ∈ bs, b.Valid)
    (h : ¬ ∀ b ∈ bs, b.elems.length = 1) :
    ∃ pre b post e0 e1 rest, bs = pre ++ b :: post ∧ (∀ b ∈ pre, b.elems.length = 1) ∧
      b.elems = e0 :: e1 :: rest := by
  induction bs with
  | nil => exact absurd (fun b hb => by cases hb) h
  | cons b bs ih =>
    by_cases hb : b.elems.length = 1
    · have h' : ¬ ∀ b ∈ bs, b.elems.length = 1 := fun hc => h fun b' hb' => by
        rcases List.mem_cons.1 hb' with rfl | hb'
        · exact hb
        · exact hc b' hb'
      obtain ⟨pre, b', post, e0, e1, rest, h1, h2, h3⟩ :=
        ih (fun b hb => hv b (List.mem_cons_of_mem _ hb)) h'
      refine ⟨b :: pre, b', post, e0, e1, rest, by rw [h1]; rfl, ?_, h3⟩
      intro b'' hb''
      rcases List.mem_cons.1 hb'' with rfl | hb''
      · exact hb
      · exact h2 b'' hb''
    · have hne := (hv b List.mem_cons_self).1
      match hbe : b.elems with
      | [] => exact absurd hbe hne
      | [e] => exact absurd (by rw [hbe]; rfl) hb
      | e0 :: e1 :: rest =>
        exact ⟨[], b, bs, e0, e1, rest, rfl, (fun _ h => absurd h (List.not_mem_nil)), hbe⟩

/-- C26, exact condition: for a well-formed file whose element numbers are distinct the
elements are read back exactly if and only if no header is followed by more than one
element. -/
theorem C26_exact_iff_partial (bs : List Block) (hv : ∀ b ∈ bs, b.Valid)
    (hid : ((written bs).map Element.id).Nodup) :
    readElementsBinary (written bs).length (encode bs) = .ok (written bs) ↔
      ∀ b ∈ bs, b.elems.length = 1 := by
  refine ⟨fun hread => ?_, C26_single_partial bs hv⟩
  by_contra hnot
  obtain ⟨pre, b, post, e0, e1, rest, rfl, hpre, hbe⟩ := first_big bs hv hnot
  have hvpre : ∀ b ∈ pre, b.Valid := fun b hb => hv b (List.mem_append_left _ hb)
  have hvb : b.Valid := hv b (List.mem_append_right _ List.mem_cons_self)
  have hwlen : (written pre).length = pre.length := by
    clear hv hid hread hnot hvpre
    induction pre with
    | nil => rfl
    | cons b bs ih =>
      have := ih fun b hb => hpre b (List.mem_cons_of_mem _ hb)
      have hb := hpre b List.mem_cons_self
      simp only [written, List.flatMap_cons, List.length_append, List.length_cons] at this ⊢
      omega
  have hwr : written (pre ++ b :: post) = written pre ++ (e0 :: e1 :: (rest ++ written post)) := by
    simp [written, hbe]
  obtain ⟨M, hM⟩ : ∃ M, (written (pre ++ b :: post)).length = pre.length + (M + 2) := by
    refine ⟨(rest ++ written post).length, ?_⟩
    rw [hwr, List.length_append, hwlen]
    simp
  rw [readElementsBinary] at hread
  obtain ⟨s', hs', hpure⟩ := Res.bind_eq_ok hread
  have hel : s'.elements = written (pre ++ b :: post) := by
    simpa using hpure
  have henc : encode (pre ++ b :: post) = encode pre ++ (encodeBlock b ++ encode post) := by
    simp [encode]
  have h := readLoop_single pre hvpre hpre [] (M + 2) (M + 2) (encodeBlock b ++ encode post)
  simp only [List.nil_append, List.length_nil, Nat.zero_add] at h
  rw [hM, henc, h, show M + 2 = (M + 1) + 1 from rfl, readLoop] at hs'
  dsimp only at hs'
  have hlt : pre.length < (written pre ++ List.replicate (M + 1 + 1) ({} : Element)).length := by
    rw [List.length_append, hwlen, List.length_replicate]; omega
  rw [if_pos hlt] at hs'
  obtain ⟨t, ht, hs'⟩ := Res.bind_eq_ok hs'
  obtain ⟨n, hn, hr⟩ := readBlock_encode hvb (written pre ++ List.replicate (M + 1 + 1) ({} : Element))
    pre.length (encode post)
  rw [hr] at ht
  have he0 := hn e0 (by rw [hbe]; exact List.mem_cons_self)
  have he1 := hn e1 (by rw [hbe]; exact List.mem_cons_of_mem _ List.mem_cons_self)
  have hrange : List.range b.elems.length =
      0 :: 1 :: (List.range rest.length).map (fun i => i + 2) := by
    rw [hbe, List.length_cons, List.length_cons, List.range_succ_eq_map, List.range_succ_eq_map]
    simp [Function.comp_def]
  have hfl : b.elems.flatMap encodeElement ++ encode post = encodeElement e0 ++
      (encodeElement e1 ++ (rest.flatMap encodeElement ++ encode post)) := by
    rw [hbe]; simp
  rw [hrange, hfl, Res.foldlM_cons, readStep_encode he0.1 he0.2.1 he0.2.2 _ _ _ _ hlt,
    Res.bind_ok', Res.foldlM_cons,
    readStep_encode he1.1 he1.2.1 he1.2.2 _ _ _ _ (by rw [List.length_set]; exact hlt),
    Res.bind_ok'] at ht
  have hfrozen : Frozen pre.length e1 t := by
    refine frozen_fold _ ⟨?_, ?_⟩ ht
    · dsimp only
      have hlt' : pre.length <
          ((written pre ++ List.replicate (M + 2) ({} : Element)).set pre.length e0).length := by
        rw [List.length_set]; exact hlt
      exact List.getElem?_set_self hlt'
    · dsimp only; omega
  have hfin := frozen_loop _ (s := ⟨t.elements, t.elemCount + 1, t.rest⟩)
    ⟨hfrozen.1, Nat.lt_succ_of_lt hfrozen.2⟩ hs'
  have h1 := hfin.1
  rw [hel, hwr, List.getElem?_append_right (by omega), hwlen, Nat.sub_self,
    List.getElem?_cons_zero] at h1
  have heq : e0 = e1 := by injection h1
  rw [hwr, List.map_append, List.nodup_append] at hid
  have := hid.2.1
  rw [List.map_cons, List.map_cons, List.nodup_cons] at this
  exact this.1 (by rw [heq]; exact List.mem_cons_self)

/-- Two lines behind one header: the first one is lost and an element of type 0 without
nodes appears instead.  With five elements behind one header the code writes behind the end
of the vector. -/
theorem C26_blocks_counterexample :
    readElementsBinary 2 (encode [⟨1, 1, [⟨7, 1, [3], [1, 2]⟩, ⟨8, 1, [3], [2, 4]⟩]⟩]) =
      .ok [⟨8, 1, [3], [2, 4]⟩, ⟨0, 0, [], []⟩] ∧
    readElementsBinary 5 (encode [⟨15, 0, [⟨1, 15, [], [1]⟩, ⟨2, 15, [], [2]⟩, ⟨3, 15, [], [3]⟩,
      ⟨4, 15, [], [4]⟩, ⟨5, 15, [], [5]⟩]⟩]) = .ub := by
  decide +kernel

/-- The hypotheses are met: a line and a triangle behind two headers. -/
example : ∃ bs : List Block, (∀ b ∈ bs, b.Valid) ∧ ((written bs).map Element.id).Nodup ∧
    (∀ b ∈ bs, b.elems.length = 1) ∧
    written bs = [⟨7, 1, [3], [1, 2]⟩, ⟨8, 2, [4, 5], [1, 2, 3]⟩] := by
  refine ⟨[⟨1, 1, [⟨7, 1, [3], [1, 2]⟩]⟩, ⟨2, 2, [⟨8, 2, [4, 5], [1, 2, 3]⟩]⟩], ?_, by decide,
    ?_, rfl⟩
  · intro b hb
    simp only [List.mem_cons, List.not_mem_nil, or_false] at hb
    rcases hb with rfl | rfl
    · exact ⟨by simp, 2, rfl, by simp⟩
    · exact ⟨by simp, 3, rfl, by simp⟩
  · intro b hb
    simp only [List.mem_cons, List.not_mem_nil, or_false] at hb
    rcases hb with rfl | rfl <;> rfl

end Gmsh

end NuTo
