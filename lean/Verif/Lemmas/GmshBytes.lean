import Verif.Model.GmshBytes
import Verif.Lemmas.GmshText
import Verif.Props.GmshBinary
import Mathlib.Tactic.FieldSimp
import Mathlib.Tactic.NormNum

/-! The binary format of gmsh, and lemmas on reading it -/
namespace NuTo
namespace GmshBytes

open Gmsh GmshText

/-! ### The format, following the documentation of gmsh -/

/-- The `k` lowest bytes of a number, the lowest first -/
def bytesOf : Nat → Nat → List Char
  | 0, _ => []
  | k + 1, n => Char.ofNat (n % 256) :: bytesOf k (n / 256)

/-- The bytes of an `int`: two's complement -/
def intBytes (i : Int) : List Char := bytesOf 4 (i % 2 ^ 32).toNat

/-- The range of `int` -/
def IsInt (i : Int) : Prop := -2 ^ 31 ≤ i ∧ i < 2 ^ 31

/-- A finite `double`: sign, exponent and fraction -/
structure Double where
  neg : Bool
  exp : Fin 2047
  frac : Fin (2 ^ 52)

/-- The number, as in IEEE 754 -/
def Double.value (d : Double) : ℚ :=
  (if d.neg then -1 else 1) *
    (if d.exp.val = 0 then (d.frac.val / 2 ^ 52 : ℚ) * (2 : ℚ) ^ (-1022 : ℤ) else (1 + d.frac.val / 2 ^ 52 : ℚ) * (2 : ℚ) ^ ((d.exp.val : ℤ) - 1023))

/-- Its eight bytes -/
def Double.bytes (d : Double) : List Char := bytesOf 8 ((if d.neg then 2 ^ 63 else 0) + d.exp.val * 2 ^ 52 + d.frac.val)

/-- A node: number and coordinates -/
structure BinNode where
  id : Int
  x : Double
  y : Double
  z : Double

def BinNode.bytes (n : BinNode) : List Char := intBytes n.id ++ n.x.bytes ++ n.y.bytes ++ n.z.bytes

def BinNode.record (n : BinNode) : NodeRecord ℚ := ⟨n.id, n.x.value, n.y.value, n.z.value⟩

/-- A section: names are text, the number of records is text, the records are binary -/
inductive Part where
  | names (count : IntText) (lines : List NameLine)
  | nodes (count : IntText) (records : List BinNode)
  | elements (count : IntText) (blocks : List Block)

def Part.bytes (eol : List Char) : Part → List Char
  | .names n l => "$PhysicalNames".toList ++ eol ++ n.text ++ eol ++ l.flatMap (NameLine.text eol) ++ "$EndPhysicalNames".toList ++ eol
  | .nodes n l => "$Nodes".toList ++ eol ++ n.text ++ eol ++ (l.flatMap BinNode.bytes ++ eol) ++ "$EndNodes".toList ++ eol
  | .elements n l => "$Elements".toList ++ eol ++ n.text ++ eol ++ ((encode l).flatMap intBytes ++ eol) ++ "$EndElements".toList ++ eol

/-- The records are as documented and as many as announced. -/
def Part.Valid : Part → Prop
  | .names n l => n.Valid ∧ n.value = l.length ∧ ∀ x ∈ l, x.Valid
  | .nodes n l => n.Valid ∧ n.value = l.length ∧ ∀ x ∈ l, IsInt x.id
  | .elements n l => n.Valid ∧ n.value = (written l).length ∧ (∀ b ∈ l, b.Valid) ∧ ∀ i ∈ encode l, IsInt i

/-- Every header of the section of elements is followed by one element. -/
def Part.Single : Part → Prop
  | .elements _ l => ∀ b ∈ l, b.elems.length = 1
  | _ => True

/-- What the section says -/
def Part.put (c : Content) : Part → Content
  | .names _ l => { c with names := l.map NameLine.record }
  | .nodes _ l => { c with nodes := l.map BinNode.record }
  | .elements _ l => { c with elements := written l }

/-- The first lines of the file: version, 1 for binary, size of doubles, then the bytes of the number 1 in `one` -/
def headerBytes (eol : List Char) (version : RealText) (size : IntText) (one : List Char) : List Char :=
  "$MeshFormat".toList ++ eol ++ version.text ++ ' ' :: '1' :: ' ' :: size.text ++ eol ++ one ++ eol ++ "$EndMeshFormat".toList ++ eol

/-! ### Numbers -/

theorem bytesOf_length (k n : Nat) : (bytesOf k n).length = k := by
  induction k generalizing n with
  | zero => rfl
  | succ k ih => simp [bytesOf, ih]

theorem byte_toNat (n : Nat) (h : n < 256) : (Char.ofNat n).toNat = n := by
  have : n.isValidChar := .inl (by omega)
  simp [Char.ofNat, this, Char.toNat, Char.ofNatAux]

theorem natOf_bytesOf (k n : Nat) (h : n < 256 ^ k) : natOf (bytesOf k n) = n := by
  induction k generalizing n with
  | zero => simp at h; subst h; rfl
  | succ k ih =>
    have h1 : n / 256 < 256 ^ k := by
      rw [pow_succ] at h
      omega
    have h2 := ih _ h1
    rw [natOf] at h2 ⊢
    rw [bytesOf, List.foldr_cons, h2, byte_toNat _ (Nat.mod_lt _ (by norm_num))]
    omega

theorem intBytes_length (i : Int) : (intBytes i).length = 4 := bytesOf_length _ _

theorem intOf_intBytes (i : Int) (h : IsInt i) : intOf (intBytes i) = i := by
  obtain ⟨h1, h2⟩ := h
  rw [intOf, intBytes, natOf_bytesOf _ _ (by norm_num; omega)]
  norm_num at h1 h2 ⊢
  split_ifs <;> omega

theorem Double.bytes_length (d : Double) : d.bytes.length = 8 := bytesOf_length _ _

theorem doubleOf_bytes (d : Double) : doubleOf d.bytes = d.value := by
  obtain ⟨neg, ⟨e, he⟩, ⟨f, hf⟩⟩ := d
  have hn : natOf (Double.bytes ⟨neg, ⟨e, he⟩, ⟨f, hf⟩⟩) = (if neg then 2 ^ 63 else 0) + e * 2 ^ 52 + f := by
    refine natOf_bytesOf _ _ ?_
    simp only
    norm_num at hf ⊢
    split_ifs <;> omega
  have h1 : ((if neg then 2 ^ 63 else 0) + e * 2 ^ 52 + f) % 2 ^ 52 = f := by
    norm_num at hf ⊢
    split_ifs <;> omega
  have h2 : ((if neg then 2 ^ 63 else 0) + e * 2 ^ 52 + f) / 2 ^ 52 % 2 ^ 11 = e := by
    norm_num at hf ⊢
    split_ifs <;> omega
  have h3 : ((if neg then 2 ^ 63 else 0) + e * 2 ^ 52 + f) / 2 ^ 63 % 2 = if neg then 1 else 0 := by
    norm_num at hf ⊢
    split_ifs <;> omega
  have h0 : (2 : ℚ) ≠ 0 := by norm_num
  have h52 : (2 : ℚ) ^ (52 : ℤ) = 2 ^ 52 := zpow_natCast 2 52
  have p1 : (2 : ℚ) ^ (-1022 : ℤ) = 2 ^ 52 * 2 ^ (-1074 : ℤ) := by
    rw [show (-1022 : ℤ) = 52 + -1074 by norm_num, zpow_add₀ h0, h52]
  have p2 : (2 : ℚ) ^ ((e : ℤ) - 1023) = 2 ^ 52 * 2 ^ ((e : ℤ) - 1075) := by
    rw [show (e : ℤ) - 1023 = 52 + (e - 1075) by ring, zpow_add₀ h0, h52]
  simp only [doubleOf, hn, h1, h2, h3, Double.value, p1, p2]
  generalize (2 : ℚ) ^ (-1074 : ℤ) = a
  generalize (2 : ℚ) ^ ((e : ℤ) - 1075) = b
  have q : (2 : ℚ) ^ 52 ≠ 0 := by norm_num
  cases neg <;> by_cases e0 : e = 0 <;> simp only [e0, if_true, if_false, reduceIte, Bool.false_eq_true] <;> field_simp <;> simp

/-! ### Reading -/

theorem readBytes_at (n : Nat) (l r : List Char) (h : l.length = n) : readBytes n (.at (l ++ r)) = (some l, .at r) := by
  subst h
  simp [readBytes, Stream.at]

theorem readNode_at (n : BinNode) (h : IsInt n.id) (r : List Char) : readNode (.at (n.bytes ++ r)) = (n.record, .at r) := by
  have e : n.bytes ++ r = intBytes n.id ++ ((n.x.bytes ++ n.y.bytes ++ n.z.bytes) ++ r) := by simp [BinNode.bytes]
  have hx := n.x.bytes_length
  have hy := n.y.bytes_length
  have hz := n.z.bytes_length
  have e1 : (n.x.bytes ++ n.y.bytes ++ n.z.bytes).take 8 = n.x.bytes := by
    rw [List.append_assoc, ← hx, List.take_left]
  have e2 : ((n.x.bytes ++ n.y.bytes ++ n.z.bytes).drop 8).take 8 = n.y.bytes := by
    rw [List.append_assoc, List.drop_append_of_le_length (by omega), List.drop_eq_nil_of_le (by omega), List.nil_append,
      List.take_append_of_le_length (by omega), List.take_of_length_le (by omega)]
  have e3 : ((n.x.bytes ++ n.y.bytes ++ n.z.bytes).drop 16).take 8 = n.z.bytes := by
    rw [List.drop_append_of_le_length (by simp; omega), List.drop_eq_nil_of_le (by simp; omega), List.nil_append,
      List.take_of_length_le (by omega)]
  rw [e, readNode, readBytes_at _ _ _ (intBytes_length _)]
  simp only
  rw [readBytes_at _ _ _ (by simp; omega)]
  simp only [Option.getD_some, e1, e2, e3, doubleOf_bytes, intOf_intBytes _ h]
  rfl

theorem readCount_at {eol : List Char} (h : Eol eol) (t : IntText) (ht : t.Valid) (n : Nat) (hn : t.value = n) (r : List Char) :
    readCount (.at (t.text ++ eol ++ r)) = .ok (n, .at r) := by
  rw [readCount, List.append_assoc, extractInt_start t _ ht (h.sep r)]
  simp only
  rw [getline_end h]
  simp only [Option.getD_some, hn]
  rw [if_neg (by omega), Int.toNat_natCast]

theorem readNodes_at {eol : List Char} (h : Eol eol) (n : IntText) (l : List BinNode) (hs : (Part.nodes n l).Valid) (r : List Char) :
    readNodes (.at (n.text ++ eol ++ ((l.flatMap BinNode.bytes ++ eol) ++ ("$EndNodes".toList ++ eol ++ r)))) =
      .ok (l.map BinNode.record, .at r) := by
  obtain ⟨h1, h2, h3⟩ := hs
  rw [readNodes, readCount_at h n h1 _ h2, Res.bind_ok', List.append_assoc (l.flatMap BinNode.bytes),
    times_at _ _ BinNode.record (fun n => IsInt n.id) (fun a r ha => by rw [readNode_at a ha]) l h3, Res.bind_ok', getline_end h,
    expect_at h _ _ (by decide), Res.bind_ok']

theorem words_at (l : List Int) (hl : ∀ i ∈ l, IsInt i) (r : List Char) : words (l.flatMap intBytes ++ r) = l ++ words r := by
  induction l with
  | nil => rfl
  | cons i l ih =>
    have h4 := intBytes_length i
    have hi := intOf_intBytes i (hl i (.head _))
    rw [List.flatMap_cons, List.append_assoc, List.cons_append, ← ih fun i h => hl i (.tail _ h)]
    match e : intBytes i, h4 with
    | [a, b, c, d], _ =>
      rw [e] at hi
      simp [words, hi]

theorem written_single (bs : List Block) (h1 : ∀ b ∈ bs, b.elems.length = 1) : (written bs).length = bs.length := by
  induction bs with
  | nil => rfl
  | cons b bs ih =>
    have := ih fun b hb => h1 b (List.mem_cons_of_mem _ hb)
    have hb := h1 b List.mem_cons_self
    simp only [written, List.flatMap_cons, List.length_append, List.length_cons] at this ⊢
    omega

theorem flatMap_length (l : List Int) : (l.flatMap intBytes).length = 4 * l.length := by
  induction l with
  | nil => rfl
  | cons i l ih => rw [List.flatMap_cons, List.length_append, ih, intBytes_length, List.length_cons]; omega

theorem readElements_at {eol : List Char} (h : Eol eol) (n : IntText) (l : List Block) (hs : (Part.elements n l).Valid)
    (h1 : (Part.elements n l).Single) (r : List Char) :
    readElements (.at (n.text ++ eol ++ (((encode l).flatMap intBytes ++ eol) ++ ("$EndElements".toList ++ eol ++ r)))) =
      .ok (written l, .at r) := by
  obtain ⟨h2, h3, h4, h5⟩ := hs
  have hlen := written_single l h1
  rw [readElements, readCount_at h n h2 _ h3, Res.bind_ok', List.append_assoc ((encode l).flatMap intBytes)]
  simp only [Stream.at, Bool.or_false, Bool.false_eq_true, if_false]
  rw [words_at _ h5]
  have hl := readLoop_single l h4 h1 [] 0 0 (words (eol ++ ("$EndElements".toList ++ eol ++ r)))
  simp only [List.nil_append, List.length_nil, Nat.add_zero, Nat.zero_add, List.replicate_zero, List.append_nil] at hl
  rw [hlen, hl, readLoop]
  simp only [hlen, Nat.lt_irrefl, if_false, Res.bind_ok']
  have hd : ((encode l).flatMap intBytes ++ (eol ++ ("$EndElements".toList ++ eol ++ r))).drop
      (4 * ((encode l ++ words (eol ++ ("$EndElements".toList ++ eol ++ r))).length - (words (eol ++ ("$EndElements".toList ++ eol ++ r))).length)) =
        eol ++ ("$EndElements".toList ++ eol ++ r) := by
    rw [List.length_append, Nat.add_sub_cancel, ← flatMap_length, List.drop_left]
  rw [hd]
  have := getline_end h ("$EndElements".toList ++ eol ++ r)
  rw [Stream.at] at this
  rw [this, expect_at h _ _ (by decide), Res.bind_ok']
  rfl

/-! ### Sections -/

theorem part_names {eol : List Char} (h : Eol eol) (bin : Bool) (c : Content) (n : IntText) (l : List NameLine) (r : List Char) :
    processSection bin c (.at ((Part.names n l).bytes eol ++ r)) =
      (readNames (.at (n.text ++ eol ++ (l.flatMap (NameLine.text eol) ++ ("$EndPhysicalNames".toList ++ eol ++ r))))).bind fun a =>
        .ok ({ c with names := a.1 }, a.2) := by
  have e : (Part.names n l).bytes eol ++ r = "$PhysicalNames".toList ++ eol ++
      (n.text ++ eol ++ (l.flatMap (NameLine.text eol) ++ ("$EndPhysicalNames".toList ++ eol ++ r))) := regroup _ _ _ _ _ _
  obtain ⟨cr, _, eg⟩ := getline_at h "$PhysicalNames".toList (n.text ++ eol ++ (l.flatMap (NameLine.text eol) ++ ("$EndPhysicalNames".toList ++ eol ++ r)))
    (by decide)
  rw [e, processSection, eg]
  simp only
  rw [if_neg (by simp), if_pos (compareLeft_append _ _)]

theorem part_nodes {eol : List Char} (h : Eol eol) (c : Content) (t : List Char) :
    processSection true c (.at ("$Nodes".toList ++ eol ++ t)) = (readNodes (.at t)).bind fun a => .ok ({ c with nodes := a.1 }, a.2) := by
  obtain ⟨cr, _, eg⟩ := getline_at h "$Nodes".toList t (by decide)
  rw [processSection, eg]
  simp only
  rw [if_neg (by simp), if_neg (by rw [(compare_others cr).1]; simp), if_pos (compareLeft_append _ _)]
  rfl

theorem part_elements {eol : List Char} (h : Eol eol) (c : Content) (t : List Char) :
    processSection true c (.at ("$Elements".toList ++ eol ++ t)) = (readElements (.at t)).bind fun a => .ok ({ c with elements := a.1 }, a.2) := by
  obtain ⟨cr, _, eg⟩ := getline_at h "$Elements".toList t (by decide)
  rw [processSection, eg]
  simp only
  rw [if_neg (by simp), if_neg (by rw [(compare_others cr).2.1]; simp), if_neg (by rw [(compare_others cr).2.2]; simp),
    if_pos (compareLeft_append _ _)]
  rfl

theorem part_at {eol : List Char} (h : Eol eol) (c : Content) (x : Part) (hx : x.Valid) (h1 : x.Single) (r : List Char) :
    processSection true c (.at (x.bytes eol ++ r)) = .ok (x.put c, .at r) := by
  cases x with
  | names n l => rw [part_names h, readNames_at h n l hx, Res.bind_ok']; rfl
  | nodes n l =>
    have e : (Part.nodes n l).bytes eol ++ r = "$Nodes".toList ++ eol ++
      (n.text ++ eol ++ ((l.flatMap BinNode.bytes ++ eol) ++ ("$EndNodes".toList ++ eol ++ r))) := regroup _ _ _ _ _ _
    rw [e, part_nodes h, readNodes_at h n l hx, Res.bind_ok']; rfl
  | elements n l =>
    have e : (Part.elements n l).bytes eol ++ r = "$Elements".toList ++ eol ++
      (n.text ++ eol ++ (((encode l).flatMap intBytes ++ eol) ++ ("$EndElements".toList ++ eol ++ r))) := regroup _ _ _ _ _ _
    rw [e, part_elements h, readElements_at h n l hx h1, Res.bind_ok']; rfl

theorem parts_at {eol : List Char} (h : Eol eol) (l : List Part) (hl : ∀ x ∈ l, x.Valid) (h1 : ∀ x ∈ l, x.Single) :
    ∀ (c : Content) (fuel : Nat), l.length + 2 ≤ fuel →
      sections true fuel c (.at (l.flatMap (Part.bytes eol))) = some (.ok (l.foldl Part.put c)) := by
  induction l with
  | nil =>
    intro c fuel hf
    obtain ⟨k, rfl⟩ : ∃ k, fuel = k + 2 := ⟨fuel - 2, by simp at hf; omega⟩
    simp [sections, Stream.at, processSection, getline]
  | cons x l ih =>
    intro c fuel hf
    obtain ⟨k, rfl⟩ : ∃ k, fuel = k + 1 := ⟨fuel - 1, by omega⟩
    rw [List.flatMap_cons, sections, part_at h c x (hl x (.head _)) (h1 x (.head _))]
    simp only [List.foldl_cons, Stream.at, Bool.false_eq_true, if_false]
    exact ih (fun x hx => hl x (.tail _ hx)) (fun x hx => h1 x (.tail _ hx)) _ k (by simp at hf; omega)

theorem regroup_one (a b v w eol o r : List Char) : a ++ eol ++ v ++ ' ' :: '1' :: ' ' :: w ++ eol ++ o ++ eol ++ b ++ eol ++ r =
    a ++ eol ++ (v ++ (' ' :: ('1' :: (' ' :: (w ++ (eol ++ (o ++ (eol ++ (b ++ eol ++ r))))))))) := by
  simp

theorem header_one {eol : List Char} (h : Eol eol) (version : RealText) (size : IntText) (hv : version.Valid)
    (h2 : 2 ≤ version.value) (hs : size.Valid) (one : List Char) (h4 : one.length = 4) (r : List Char) :
    readHeader (.at (headerBytes eol version size one ++ r)) = if intOf one = 1 then .ok (true, .at r) else .throw := by
  have e : headerBytes eol version size one ++ r = "$MeshFormat".toList ++ eol ++ (version.text ++ (' ' :: ('1' :: (' ' :: (size.text ++ (eol ++
      (one ++ (eol ++ ("$EndMeshFormat".toList ++ eol ++ r))))))))) := regroup_one _ _ _ _ _ _ _
  obtain ⟨cr, _, eg⟩ := getline_at h "$MeshFormat".toList (version.text ++ (' ' :: ('1' :: (' ' :: (size.text ++ (eol ++
      (one ++ (eol ++ ("$EndMeshFormat".toList ++ eol ++ r))))))))) (by decide)
  have h0 : ∀ t, extractInt (.at (' ' :: ('1' :: (' ' :: t)))) = (some 1, .at (' ' :: t)) := by
    intro t
    have := extractInt_blank ⟨false, [1]⟩ (' ' :: t) ⟨by simp, by decide, by decide⟩ (Sep.blank _)
    rwa [show IntText.text ⟨false, [1]⟩ = ['1'] by decide, show IntText.value ⟨false, [1]⟩ = 1 by decide] at this
  rw [e, readHeader, eg]
  simp only
  rw [extractDouble_start _ _ hv (Sep.blank _)]
  simp only
  rw [h0]
  simp only
  rw [extractInt_blank _ _ hs (h.sep _)]
  simp only
  rw [getline_end h, if_neg (not_lt.2 h2), readBytes_at _ _ _ h4]
  simp only [ne_eq, one_ne_zero, not_false_eq_true, if_true, ite_not]
  rw [getline_end h, expect_at h _ _ (by decide)]
  rfl

end GmshBytes
end NuTo
