/-
C48: binary vtu files declare the true offsets of their appended data, and a reader following them recovers
the grid.
-/
import Verif.Model.Visualize
import Verif.Props.Serialize
import Verif.Lemmas.MatrixAssembler
import Mathlib.Data.List.GetD
import Mathlib.Tactic.IntervalCases

namespace NuTo.Visualize
open Serialize (toBytes fromBytes toBytes_length fromBytes_toBytes chunks chunks_flatMap flatMap_bytes_length)

/-- Specification: a reader at a position of the appended block: eight bytes with the number of bytes of data, the
data, cut into elements. -/
def readArray (bytes : List (Fin 256)) (offset : Int) (width : Nat) : Option (List Nat) :=
  if 0 ≤ offset then
    let o := offset.toNat
    let n := fromBytes ((bytes.drop o).take 8)
    if o + 8 + n ≤ bytes.length then some (chunks width (n / width) ((bytes.drop (o + 8)).take n)) else none
  else none

/-- Specification: the number of bytes of an array in the appended block. -/
def DataArray.bytes (a : DataArray) : Nat := 8 + a.width * a.data.length

/-- Specification: elements fit their type, which is not empty. -/
def DataArray.Valid (a : DataArray) : Prop := 0 < a.width ∧ ∀ v ∈ a.data, v < 256 ^ a.width

/-- The declared headers, by recursion. -/
def headersFrom (o : Nat) : List DataArray → List Header
  | [] => []
  | a :: t => ⟨a.name, a.numComponents, a.width, o⟩ :: headersFrom (o + a.bytes) t

theorem le_sum (l : List Nat) (x : Nat) (h : x ∈ l) : x ≤ l.sum := by
  induction l with
  | nil => cases h
  | cons a t ih =>
    rw [List.sum_cons]
    rcases List.mem_cons.mp h with rfl | h
    · omega
    · have := ih h
      omega

theorem toInt32_of_lt (n : Nat) (h : n < 2 ^ 31) : toInt32 n = n := by
  unfold toInt32
  omega

theorem writeHeaders_eq (arrays : List DataArray) (hs : List Header) (o : Nat)
    (h : o + (arrays.map DataArray.bytes).sum < 2 ^ 31) :
    Res.foldlM (fun (s : List Header × Int) (a : DataArray) =>
      (writeBinaryHeader a s.2).bind fun r => .ok (s.1 ++ [r.1], r.2)) (hs, (o : Int)) arrays =
      .ok (hs ++ headersFrom o arrays, ((o + (arrays.map DataArray.bytes).sum : Nat) : Int)) := by
  induction arrays generalizing hs o with
  | nil => simp [headersFrom]
  | cons a t ih =>
    rw [List.map_cons, List.sum_cons] at h
    have ho : a.offset = a.bytes := by
      rw [DataArray.offset, toInt32_of_lt _ (by unfold DataArray.bytes at h; omega)]; rfl
    have h1 : writeBinaryHeader a (o : Int) =
        .ok (⟨a.name, a.numComponents, a.width, o⟩, ((o + a.bytes : Nat) : Int)) := by
      have hr : -2 ^ 31 ≤ (o : Int) + a.bytes ∧ (o : Int) + a.bytes < 2 ^ 31 := by omega
      simp only [writeBinaryHeader, ho, Res.require, if_pos hr, Nat.cast_add]
    rw [Res.foldlM_cons]
    dsimp only
    rw [h1, Res.bind_ok', Res.bind_ok', ih _ _ (by omega), headersFrom]
    rw [List.map_cons, List.sum_cons, List.append_assoc, List.singleton_append]
    rw [Nat.add_assoc]

theorem writeBinaryData_eq (a : DataArray) (h : a.bytes < 2 ^ 31) :
    writeBinaryData a = toBytes 8 (a.width * a.data.length) ++ a.data.flatMap (toBytes a.width) := by
  have : ((a.offset - 8) % 2 ^ 64).toNat = a.width * a.data.length := by
    unfold DataArray.bytes at h
    rw [DataArray.offset, toInt32_of_lt _ (by omega)]
    push_cast
    rw [show (8 + (a.width : Int) * a.data.length - 8) = ((a.width * a.data.length : Nat) : Int) by push_cast; ring]
    rw [Int.emod_eq_of_lt (by omega) (by omega), Int.toNat_natCast]
  rw [writeBinaryData, this]

theorem writeBinaryData_length (a : DataArray) : (writeBinaryData a).length = a.bytes := by
  rw [writeBinaryData, List.length_append, toBytes_length, flatMap_bytes_length, DataArray.bytes, Nat.mul_comm]

theorem flatMap_data_length (arrays : List DataArray) :
    (arrays.flatMap writeBinaryData).length = (arrays.map DataArray.bytes).sum := by
  induction arrays with
  | nil => rfl
  | cons a t ih => rw [List.flatMap_cons, List.length_append, ih, writeBinaryData_length, List.map_cons, List.sum_cons]

theorem headersFrom_length (o : Nat) (arrays : List DataArray) : (headersFrom o arrays).length = arrays.length := by
  induction arrays generalizing o with
  | nil => rfl
  | cons a t ih => rw [headersFrom, List.length_cons, ih, List.length_cons]

theorem headersFrom_get (o : Nat) (arrays : List DataArray) (k : Nat) (a : DataArray) (h : arrays[k]? = some a) :
    (headersFrom o arrays)[k]? = some ⟨a.name, a.numComponents, a.width,
      ((o + ((arrays.take k).map DataArray.bytes).sum : Nat) : Int)⟩ := by
  induction arrays generalizing o k with
  | nil => cases h
  | cons b t ih =>
    cases k with
    | zero => cases h; rfl
    | succ k =>
      rw [List.getElem?_cons_succ] at h
      rw [headersFrom, List.getElem?_cons_succ, ih _ _ h, List.take_succ_cons, List.map_cons, List.sum_cons,
        Nat.add_assoc]

theorem readArray_block (pre post : List (Fin 256)) (a : DataArray) (hv : a.Valid) (h : a.bytes < 2 ^ 31) :
    readArray (pre ++ (writeBinaryData a ++ post)) (pre.length : Int) a.width = some a.data := by
  have hlen : a.width * a.data.length < 256 ^ 8 := by
    unfold DataArray.bytes at h
    exact Nat.lt_of_le_of_lt (by omega : _ ≤ 2 ^ 31) (by norm_num)
  have h1 : (pre ++ (writeBinaryData a ++ post)).drop pre.length = writeBinaryData a ++ post := List.drop_left
  have h2 : (writeBinaryData a ++ post).take 8 = toBytes 8 (a.width * a.data.length) := by
    rw [writeBinaryData_eq a h, List.append_assoc, List.take_append_of_le_length (by rw [toBytes_length]),
      List.take_of_length_le (by rw [toBytes_length])]
  have h3 : (pre ++ (writeBinaryData a ++ post)).drop (pre.length + 8) =
      a.data.flatMap (toBytes a.width) ++ post := by
    rw [← List.drop_drop, h1, writeBinaryData_eq a h, List.append_assoc]
    have := List.drop_left (l₁ := toBytes 8 (a.width * a.data.length)) (l₂ := a.data.flatMap (toBytes a.width) ++ post)
    rwa [toBytes_length] at this
  have h4 : (a.data.flatMap (toBytes a.width) ++ post).take (a.width * a.data.length) =
      a.data.flatMap (toBytes a.width) := by
    have := List.take_left (l₁ := a.data.flatMap (toBytes a.width)) (l₂ := post)
    rwa [flatMap_bytes_length, Nat.mul_comm] at this
  rw [readArray, if_pos (Int.natCast_nonneg _)]
  dsimp only
  rw [Int.toNat_natCast, h1, h2, fromBytes_toBytes _ _ hlen, h3, h4, if_pos, Nat.mul_div_cancel_left _ hv.1,
    chunks_flatMap _ _ hv.2]
  rw [List.length_append, List.length_append, writeBinaryData_length, DataArray.bytes]
  omega

theorem readArray_list (arrays : List DataArray) (hv : ∀ a ∈ arrays, a.Valid) (pre : List (Fin 256))
    (h : (arrays.map DataArray.bytes).sum < 2 ^ 31) (k : Nat) (a : DataArray) (hk : arrays[k]? = some a) :
    readArray (pre ++ arrays.flatMap writeBinaryData)
      ((pre.length + ((arrays.take k).map DataArray.bytes).sum : Nat) : Int) a.width = some a.data := by
  induction arrays generalizing pre k with
  | nil => cases hk
  | cons b t ih =>
    rw [List.map_cons, List.sum_cons] at h
    cases k with
    | zero =>
      cases hk
      rw [List.flatMap_cons, List.take_zero]
      exact readArray_block pre _ _ (hv _ List.mem_cons_self) (by omega)
    | succ k =>
      rw [List.getElem?_cons_succ] at hk
      rw [List.flatMap_cons, ← List.append_assoc, List.take_succ_cons, List.map_cons, List.sum_cons, ← Nat.add_assoc]
      have := ih (fun a ha => hv a (List.mem_cons_of_mem _ ha)) (pre ++ writeBinaryData b) (by omega) k hk
      rwa [List.length_append, writeBinaryData_length] at this

/-- C48: for every sequence of data arrays with fewer than 2 GiB together: each declared offset is a position
of the appended block at which the reader finds exactly the data of that array; the next array starts where
this one ends, so arrays do not overlap, and the last one ends at the end of the block. -/
theorem C48_offsets_partial (arrays : List DataArray) (hv : ∀ a ∈ arrays, a.Valid)
    (h : (arrays.map DataArray.bytes).sum < 2 ^ 31) :
    ∃ hs, writeHeaders arrays = .ok (hs, ((arrays.flatMap writeBinaryData).length : Int)) ∧
      hs.length = arrays.length ∧
      ∀ k a, arrays[k]? = some a → ∃ off : Nat,
        hs[k]? = some ⟨a.name, a.numComponents, a.width, off⟩ ∧
        readArray (arrays.flatMap writeBinaryData) off a.width = some a.data ∧
        (∀ n, hs[k + 1]? = some n → n.offset = ((off + 8 + a.width * a.data.length : Nat) : Int)) ∧
        (k + 1 = arrays.length → off + 8 + a.width * a.data.length = (arrays.flatMap writeBinaryData).length) := by
  refine ⟨headersFrom 0 arrays, ?_, headersFrom_length _ _, fun k a hk => ?_⟩
  · have := writeHeaders_eq arrays [] 0 (by omega)
    rw [writeHeaders, flatMap_data_length]
    rw [List.nil_append, Nat.zero_add] at this
    exact this
  · have hsum : ∀ m, arrays[k]? = some a → m = k + 1 →
        ((arrays.take m).map DataArray.bytes).sum = ((arrays.take k).map DataArray.bytes).sum + a.bytes := by
      rintro m hk rfl
      rw [List.take_add_one, hk, Option.toList_some, List.map_append, List.sum_append]
      simp
    refine ⟨((arrays.take k).map DataArray.bytes).sum, ?_, ?_, ?_, ?_⟩
    · rw [headersFrom_get 0 arrays k a hk, Nat.zero_add]
    · have := readArray_list arrays hv [] h k a hk
      rwa [List.nil_append, List.length_nil, Nat.zero_add] at this
    · intro n hn
      have hlt : k + 1 < arrays.length := by
        by_contra hc
        rw [List.getElem?_eq_none (by rw [headersFrom_length]; omega)] at hn
        cases hn
      rw [headersFrom_get 0 arrays (k + 1) _ (List.getElem?_eq_getElem hlt)] at hn
      cases hn
      rw [Nat.zero_add, hsum _ hk rfl, DataArray.bytes, Nat.add_assoc]
    · intro hl
      have := hsum _ hk hl.symm
      rw [List.take_of_length_le (le_refl _)] at this
      rw [flatMap_data_length, this, DataArray.bytes]
      omega

/-- C48 fails from 2 GiB on: for an array of 2^29 `float`s followed by another array, the size in the appended block and the
declared offset of the next array are wrong: the sum is kept in an `int`. -/
theorem C48_large_counterexample (a b : DataArray) (ha : a.width = 4) (hal : a.data.length = 2 ^ 29)
    (hb : b.data = []) :
    (∃ h1 h2 o, writeHeaders [a, b] = .ok ([h1, h2], o) ∧ h2.offset = 8 - 2 ^ 31 ∧
      readArray ([a, b].flatMap writeBinaryData) h2.offset b.width = none) ∧
      fromBytes ((writeBinaryData a).take 8) = 2 ^ 64 - 2 ^ 31 ∧
      (writeBinaryData a).length = 8 + 2 ^ 31 := by
  have h1 : a.offset = 8 - 2 ^ 31 := by
    rw [DataArray.offset, ha, hal, toInt32]; norm_num
  have h2 : b.offset = 8 := by
    rw [DataArray.offset, hb, toInt32]; norm_num
  refine ⟨⟨⟨a.name, a.numComponents, a.width, 0⟩, ⟨b.name, b.numComponents, b.width, 8 - 2 ^ 31⟩,
    16 - 2 ^ 31, ?_, rfl, ?_⟩, ?_, ?_⟩
  · rw [writeHeaders, Res.foldlM_cons]
    simp only [writeBinaryHeader, h1, Res.require]
    rw [if_pos (by norm_num), Res.bind_ok', Res.bind_ok', Res.foldlM_cons]
    simp only [h2]
    rw [if_pos (by norm_num), Res.bind_ok', Res.bind_ok', Res.foldlM_nil]
    norm_num
  · rw [readArray, if_neg (by norm_num)]
  · rw [writeBinaryData, h1, List.take_append_of_le_length (by rw [toBytes_length]),
      List.take_of_length_le (by rw [toBytes_length]), fromBytes_toBytes]
    · rfl
    · decide
  · rw [writeBinaryData_length, DataArray.bytes, ha, hal]; norm_num

/-! ### The arrays of a grid -/

variable {K : Type}

/-- Specification: components of a symmetric tensor in the order of vtk (xx yy zz xy yz xz) given in the order
of NuTo (xx yy zz yz xz xy); other data unchanged. -/
def vtkOrder : List K → List K
  | [xx, yy, zz, yz, xz, xy] => [xx, yy, zz, xy, yz, xz]
  | v => v

theorem transformData_eq (v : List K) : transformData v = vtkOrder v := by
  unfold transformData
  split
  · next h =>
    match v, h with
    | [_, _, _, _, _, _], _ => rfl
  · next h =>
    unfold vtkOrder
    split
    · exact absurd rfl h
    · rfl

theorem vtkOrder_length (v : List K) : (vtkOrder v).length = v.length := by
  unfold vtkOrder
  split <;> rfl

theorem extract_loop (enc : K → Nat) (items : List (Nat → Res (List K))) (idx n : Nat) (d r : List Nat)
    (h : Res.foldlM (fun (data : List Nat) (item : Nat → Res (List K)) =>
        (item idx).bind fun v =>
          Res.require (n = (transformData v).length) (.ok (data ++ (transformData v).map enc))) d items = .ok r) :
    ∃ vs : List (List K), items.map (· idx) = vs.map Res.ok ∧ (∀ v ∈ vs, v.length = n) ∧
      r = d ++ vs.flatMap fun v => (vtkOrder v).map enc := by
  induction items generalizing d with
  | nil => cases h; exact ⟨[], rfl, by simp, by simp⟩
  | cons i t ih =>
    rw [Res.foldlM_cons] at h
    cases hi : i idx with
    | throw => rw [hi] at h; cases h
    | ub => rw [hi] at h; cases h
    | ok v =>
      rw [hi, Res.bind_ok', Res.require] at h
      split at h
      · next hn =>
        rw [Res.bind_ok'] at h
        obtain ⟨vs, h1, h2, h3⟩ := ih _ h
        refine ⟨v :: vs, by rw [List.map_cons, h1, hi, List.map_cons], ?_, ?_⟩
        · intro w hw
          rcases List.mem_cons.mp hw with rfl | hw
          · rw [transformData_eq, vtkOrder_length] at hn; exact hn.symm
          · exact h2 w hw
        · rw [h3, transformData_eq, List.flatMap_cons, List.append_assoc]
      · cases h

theorem extractData_ok (enc : K → Nat) (items : List (Nat → Res (List K))) (name : String) (idx : Nat)
    (a : DataArray) (h : extractData enc items name idx = .ok a) :
    ∃ vs : List (List K), items.map (· idx) = vs.map Res.ok ∧ (∀ v ∈ vs, v.length = a.numComponents) ∧
      a.name = name ∧ a.width = 4 ∧ a.data = vs.flatMap fun v => (vtkOrder v).map enc := by
  unfold extractData at h
  cases items with
  | nil => cases h
  | cons i t =>
    dsimp only at h
    cases hi : i idx with
    | throw => rw [hi] at h; cases h
    | ub => rw [hi] at h; cases h
    | ok v =>
      rw [hi, Res.bind_ok'] at h
      cases hl : Res.foldlM (fun (data : List Nat) (item : Nat → Res (List K)) =>
        (item idx).bind fun w =>
          Res.require (v.length = (transformData w).length) (.ok (data ++ (transformData w).map enc))) [] (i :: t) with
      | throw => rw [hl] at h; cases h
      | ub => rw [hl] at h; cases h
      | ok r =>
        rw [hl, Res.bind_ok'] at h
        cases h
        obtain ⟨vs, h1, h2, h3⟩ := extract_loop enc _ _ _ _ _ hl
        exact ⟨vs, h1, h2, rfl, rfl, by rw [h3, List.nil_append]⟩

theorem findIdx_eq (names : List String) (hn : names.Nodup) (k : Nat) (name : String) (h : names[k]? = some name) :
    names.findIdx (· == name) = k := by
  obtain ⟨hlt, hk⟩ := List.getElem?_eq_some_iff.mp h
  rw [List.findIdx_eq hlt]
  refine ⟨by simp [hk], fun j hj => ?_⟩
  rw [beq_eq_false_iff_ne]
  intro e
  have := (hn.getElem_inj_iff (hi := by omega) (hj := hlt)).mp (e.trans hk.symm)
  omega

theorem extractAll_ok (enc : K → Nat) (items : List (Nat → Res (List K))) (names : List String) (hn : names.Nodup)
    (as : List DataArray) (h : extractAll enc items names = .ok as) :
    as.length = names.length ∧ ∀ k name, names[k]? = some name → ∃ a, as[k]? = some a ∧
      extractData enc items name k = .ok a := by
  have key : ∀ (rest : List String) (i : Nat) (s as : List DataArray), s.length = i → i ≤ names.length → names.drop i = rest →
      (∀ k name, k < i → names[k]? = some name → ∃ a, s[k]? = some a ∧ extractData enc items name k = .ok a) →
      Res.foldlM (fun (s : List DataArray) (name : String) =>
        (dataIndex names name).bind fun idx =>
          (extractData enc items name idx).bind fun a => .ok (s ++ [a])) s rest = .ok as →
      as.length = names.length ∧ ∀ k name, names[k]? = some name → ∃ a, as[k]? = some a ∧
        extractData enc items name k = .ok a := by
    intro rest
    induction rest with
    | nil =>
      intro i s as hs hle hd hk h
      cases h
      have hi : names.length ≤ i := List.drop_eq_nil_iff.mp hd
      have hi' : i = names.length := by omega
      refine ⟨hs.trans hi', fun k name hkn => hk k name ?_ hkn⟩
      obtain ⟨hlt, _⟩ := List.getElem?_eq_some_iff.mp hkn
      omega
    | cons name rest ih =>
      intro i s as hs hle hd hk h
      have hi : names[i]? = some name := by
        have := List.getElem?_drop (xs := names) (i := i) (j := 0)
        rw [hd, List.getElem?_cons_zero, Nat.add_zero] at this
        exact this.symm
      have hidx : dataIndex names name = .ok i := by
        rw [dataIndex, if_pos (List.mem_of_getElem? hi), findIdx_eq names hn i name hi]
      rw [Res.foldlM_cons, hidx, Res.bind_ok'] at h
      cases he : extractData enc items name i with
      | throw => rw [he] at h; cases h
      | ub => rw [he] at h; cases h
      | ok a =>
        rw [he, Res.bind_ok', Res.bind_ok'] at h
        refine ih (i + 1) (s ++ [a]) as (by rw [List.length_append, hs]; rfl)
          (List.getElem?_eq_some_iff.mp hi).1 ?_ ?_ h
        · rw [← List.drop_drop, hd]; rfl
        · intro k nm hki hkn
          by_cases hke : k = i
          · subst hke
            rw [hi] at hkn
            cases hkn
            exact ⟨a, by rw [List.getElem?_append_right (by omega), hs]; simp, he⟩
          · obtain ⟨b, hb, hb'⟩ := hk k nm (by omega) hkn
            exact ⟨b, by rw [List.getElem?_append_left (by omega)]; exact hb, hb'⟩
  exact key names 0 [] as rfl (Nat.zero_le _) rfl (fun k _ hk => absurd hk (Nat.not_lt_zero k)) h

theorem extractCoordinates_data (enc : K → Nat) (points : List (Point K)) :
    (extractCoordinates enc points).data =
      points.flatMap fun p => [enc p.coords.1, enc p.coords.2.1, enc p.coords.2.2] := by
  have key : ∀ d : List Nat, points.foldl (fun (data : List Nat) (p : Point K) =>
      data ++ [enc p.coords.1] ++ [enc p.coords.2.1] ++ [enc p.coords.2.2]) d =
      d ++ points.flatMap fun p => [enc p.coords.1, enc p.coords.2.1, enc p.coords.2.2] := by
    induction points with
    | nil => intro d; simp
    | cons p t ih => intro d; rw [List.foldl_cons, ih, List.flatMap_cons]; simp
  exact key []

/-- Number of connectivity entries of the first `k` cells. -/
def idsBefore (cells : List (Cell K)) (k : Nat) : Nat := ((cells.take k).map fun c => c.pointIds.length).sum

theorem cellInfos_loop (cells : List (Cell K)) (o : Nat) (co os ts : List Nat)
    (h : o + (cells.map fun c => c.pointIds.length).sum < 2 ^ 32) :
    cells.foldl (fun (s : Nat × List Nat × List Nat × List Nat) (c : Cell K) =>
      let offset := (s.1 + c.pointIds.length) % 2 ^ 32
      (offset, s.2.1 ++ c.pointIds.map toUnsigned, s.2.2.1 ++ [offset], s.2.2.2 ++ [c.cellType.toVtk]))
      (o, co, os, ts) =
      (o + (cells.map fun c => c.pointIds.length).sum, co ++ cells.flatMap (fun c => c.pointIds.map toUnsigned),
        os ++ (List.range cells.length).map (fun k => o + idsBefore cells (k + 1)),
        ts ++ cells.map fun c => c.cellType.toVtk) := by
  induction cells generalizing o co os ts with
  | nil => simp
  | cons c t ih =>
    rw [List.map_cons, List.sum_cons] at h
    rw [List.foldl_cons]
    dsimp only
    rw [Nat.mod_eq_of_lt (by omega), ih _ _ _ _ (by omega), List.flatMap_cons, List.map_cons, List.sum_cons,
      List.map_cons, List.length_cons, List.range_succ_eq_map, List.map_cons, List.map_map]
    have e : (fun k => o + c.pointIds.length + idsBefore t (k + 1)) =
        (fun k => o + idsBefore (c :: t) (k + 1)) ∘ Nat.succ := by
      funext k
      simp only [Function.comp_apply, idsBefore, List.take_succ_cons, List.map_cons, List.sum_cons, Nat.succ_eq_add_one]
      omega
    have e0 : o + idsBefore (c :: t) (0 + 1) = o + c.pointIds.length := by
      simp [idsBefore]
    rw [e, e0]
    simp [Nat.add_assoc]

theorem flatMap_slice (cells : List (Cell K)) (k : Nat) (c : Cell K) (h : cells[k]? = some c) (f : Int → Nat) :
    ((cells.flatMap fun c => c.pointIds.map f).drop (idsBefore cells k)).take c.pointIds.length =
      c.pointIds.map f := by
  induction cells generalizing k with
  | nil => cases h
  | cons b t ih =>
    cases k with
    | zero =>
      cases h
      have := List.take_left (l₁ := c.pointIds.map f) (l₂ := t.flatMap fun c => c.pointIds.map f)
      rw [List.length_map] at this
      rw [List.flatMap_cons]
      exact this
    | succ k =>
      rw [List.getElem?_cons_succ] at h
      have e : idsBefore (b :: t) (k + 1) = (b.pointIds.map f).length + idsBefore t k := by
        simp [idsBefore]
      rw [List.flatMap_cons, e, ← List.drop_drop, List.drop_left]
      exact ih k h

theorem flatMap_ids_length (cells : List (Cell K)) (f : Int → Nat) :
    (cells.flatMap fun c => c.pointIds.map f).length = (cells.map fun c => c.pointIds.length).sum := by
  rw [List.length_flatMap]
  simp

/-- Specification: how a reader of the file sees cell `k` with the three arrays of cells: the ids between the previous
offset and its own one. -/
def cellIds (conn offs : List Nat) (k : Nat) : List Nat :=
  let start := if k = 0 then 0 else offs.getD (k - 1) 0
  (conn.drop start).take (offs.getD k 0 - start)

theorem cellInfos_spec (cells : List (Cell K)) (h : (cells.map fun c => c.pointIds.length).sum < 2 ^ 32) :
    (extractCellInfos cells).1.data = cells.flatMap (fun c => c.pointIds.map toUnsigned) ∧
    (extractCellInfos cells).2.1.data = (List.range cells.length).map (fun k => idsBefore cells (k + 1)) ∧
    (extractCellInfos cells).2.2.data = cells.map fun c => c.cellType.toVtk := by
  have := cellInfos_loop cells 0 [] [] [] (by omega)
  rw [extractCellInfos, this]
  simp

theorem cellIds_eq (cells : List (Cell K)) (k : Nat) (c : Cell K) (h : cells[k]? = some c) (f : Int → Nat) :
    cellIds (cells.flatMap fun c => c.pointIds.map f) ((List.range cells.length).map fun k => idsBefore cells (k + 1)) k =
      c.pointIds.map f := by
  obtain ⟨hlt, hc⟩ := List.getElem?_eq_some_iff.mp h
  have hg : ∀ j, j < cells.length →
      ((List.range cells.length).map fun k => idsBefore cells (k + 1)).getD j 0 = idsBefore cells (j + 1) := by
    intro j hj
    rw [List.getD_eq_getElem _ _ (by simpa using hj)]
    simp
  have hs : idsBefore cells (k + 1) = idsBefore cells k + c.pointIds.length := by
    rw [idsBefore, List.take_add_one, h, Option.toList_some, List.map_append, List.sum_append]
    simp [idsBefore]
  have hstart : (if k = 0 then 0 else
      ((List.range cells.length).map fun k => idsBefore cells (k + 1)).getD (k - 1) 0) = idsBefore cells k := by
    split
    · next h0 => subst h0; rfl
    · next h0 => rw [hg _ (by omega), Nat.sub_add_cancel (by omega)]
  rw [cellIds, hstart, hg _ hlt, hs, Nat.add_sub_cancel_left]
  exact flatMap_slice cells k c h f

theorem toVtk_lt (t : CellType) : t.toVtk < 256 ^ 1 := by cases t <;> decide

theorem toUnsigned_lt (i : Int) : toUnsigned i < 256 ^ 4 := by
  rw [toUnsigned]
  omega

theorem idsBefore_le (cells : List (Cell K)) (k : Nat) :
    idsBefore cells k ≤ (cells.map fun c => c.pointIds.length).sum := by
  induction cells generalizing k with
  | nil => simp [idsBefore]
  | cons c t ih =>
    cases k with
    | zero => simp [idsBefore]
    | succ k =>
      have := ih k
      simp only [idsBefore, List.take_succ_cons, List.map_cons, List.sum_cons] at this ⊢
      omega

theorem getData_point (p : Point K) (k : Nat) (v : List K) (h : p.getData k = .ok v) : p.data[k]? = some v := by
  rw [Point.getData] at h
  cases hk : p.data[k]? with
  | none => rw [hk] at h; cases h
  | some w => rw [hk] at h; cases h; rfl

theorem getData_cell (c : Cell K) (k : Nat) (v : List K) (h : c.getData k = .ok v) : c.data[k]? = some v := by
  rw [Cell.getData] at h
  cases hk : c.data[k]? with
  | none => rw [hk] at h; cases h
  | some w => rw [hk] at h; cases h; rfl

theorem data_list {α : Type} (get : α → Nat → Res (List K)) (data : α → List (List K))
    (hg : ∀ a k v, get a k = .ok v → (data a)[k]? = some v) (k : Nat) (ps : List α) (vs : List (List K))
    (hvs : ps.map ((fun x => x k) ∘ get) = vs.map Res.ok) :
    (∀ p ∈ ps, ∃ v ∈ vs, (data p)[k]? = some v) ∧ vs = ps.map fun p => (data p).getD k [] := by
  induction ps generalizing vs with
  | nil =>
    cases vs with
    | nil => exact ⟨by simp, rfl⟩
    | cons v vs => cases hvs
  | cons p ps ih =>
    cases vs with
    | nil => cases hvs
    | cons v vs =>
      rw [List.map_cons, List.map_cons, List.cons.injEq] at hvs
      obtain ⟨ih1, ih2⟩ := ih vs hvs.2
      have hpv : (data p)[k]? = some v := hg p k v hvs.1
      refine ⟨fun q hq => ?_, ?_⟩
      · rcases List.mem_cons.mp hq with rfl | hq
        · exact ⟨v, List.mem_cons_self, hpv⟩
        · obtain ⟨w, hw, hw'⟩ := ih1 q hq
          exact ⟨w, List.mem_cons_of_mem _ hw, hw'⟩
      · rw [List.map_cons, ← ih2, List.getD_eq_getElem?_getD, hpv]; rfl

/-- Result of the named data of points or cells, read from the file. -/
theorem named_data (enc : K → Nat) (items : List (Nat → Res (List K))) (as : List DataArray) (names : List String)
    (hn : names.Nodup) (h : extractAll enc items names = .ok as) (henc : ∀ x, enc x < 256 ^ 4) :
    ∀ a ∈ as, a.Valid := by
  obtain ⟨hl, hk⟩ := extractAll_ok enc items names hn as h
  intro a ha
  obtain ⟨k, hlt, rfl⟩ := List.getElem_of_mem ha
  obtain ⟨b, hb, hb'⟩ := hk k (names[k]'(by omega)) (List.getElem?_eq_getElem (by omega))
  rw [List.getElem?_eq_getElem hlt] at hb
  cases hb
  obtain ⟨vs, _, _, _, h4, h5⟩ := extractData_ok enc items _ k _ hb'
  refine ⟨by rw [h4]; decide, fun v hv => ?_⟩
  rw [h5] at hv
  obtain ⟨w, _, hw⟩ := List.mem_flatMap.mp hv
  obtain ⟨x, _, rfl⟩ := List.mem_map.mp hw
  rw [h4]
  exact henc x

/-- C48: a vtu file with less than 2 GiB of appended data, written for any grid (with different names for its data
fields, as `DefinePointData` and `DefineCellData` keep them): a reader following the declared offsets recovers
every data field of points and cells in the order of the names (tensors in the order of vtk), the coordinates, and for each
cell its point ids and its type.  See `C48_large_counterexample` for larger files. -/
theorem C48_file_partial (enc : K → Nat) (henc : ∀ x, enc x < 256 ^ 4) (g : Grid K) (hp : g.pointDataNames.Nodup)
    (hc : g.cellDataNames.Nodup) (f : VtuFile) (h : exportBinary enc g = .ok f) (hsize : f.appended.length < 2 ^ 31) :
    f.numPoints = g.points.length ∧ f.numCells = g.cells.length ∧
    f.pointData.length = g.pointDataNames.length ∧ f.cellData.length = g.cellDataNames.length ∧
    (∀ k name, g.pointDataNames[k]? = some name → ∃ hd, f.pointData[k]? = some hd ∧ hd.name = name ∧
      (∀ p ∈ g.points, ∃ v, p.data[k]? = some v ∧ v.length = hd.numComponents) ∧
      readArray f.appended hd.offset 4 =
        some (g.points.flatMap fun p => (vtkOrder (p.data.getD k [])).map enc)) ∧
    (∀ k name, g.cellDataNames[k]? = some name → ∃ hd, f.cellData[k]? = some hd ∧ hd.name = name ∧
      (∀ c ∈ g.cells, ∃ v, c.data[k]? = some v ∧ v.length = hd.numComponents) ∧
      readArray f.appended hd.offset 4 =
        some (g.cells.flatMap fun c => (vtkOrder (c.data.getD k [])).map enc)) ∧
    (∃ hd, f.points = [hd] ∧ hd.numComponents = 3 ∧ readArray f.appended hd.offset 4 =
      some (g.points.flatMap fun p => [enc p.coords.1, enc p.coords.2.1, enc p.coords.2.2])) ∧
    ∃ h1 h2 h3 conn offs types, f.cells = [h1, h2, h3] ∧
      h1.name = "connectivity" ∧ h2.name = "offsets" ∧ h3.name = "types" ∧
      readArray f.appended h1.offset 4 = some conn ∧ readArray f.appended h2.offset 4 = some offs ∧
      readArray f.appended h3.offset 1 = some types ∧
      offs.length = g.cells.length ∧ types.length = g.cells.length ∧
      ∀ k c, g.cells[k]? = some c → types[k]? = some c.cellType.toVtk ∧
        ((∀ i ∈ c.pointIds, 0 ≤ i ∧ i < 2 ^ 32) → cellIds conn offs k = c.pointIds.map Int.toNat) := by
  unfold exportBinary at h
  cases h1 : extractAll enc (g.points.map Point.getData) g.pointDataNames with
  | throw => rw [h1] at h; cases h
  | ub => rw [h1] at h; cases h
  | ok pd =>
  rw [h1, Res.bind_ok'] at h
  cases h2 : extractAll enc (g.cells.map Cell.getData) g.cellDataNames with
  | throw => rw [h2] at h; cases h
  | ub => rw [h2] at h; cases h
  | ok cd =>
  rw [h2, Res.bind_ok'] at h
  dsimp only at h
  generalize harr : pd ++ cd ++ [extractCoordinates enc g.points, (extractCellInfos g.cells).1,
    (extractCellInfos g.cells).2.1, (extractCellInfos g.cells).2.2] = arrays at h
  cases h3 : writeHeaders arrays with
  | throw => rw [h3] at h; cases h
  | ub => rw [h3] at h; cases h
  | ok hs =>
  rw [h3, Res.bind_ok'] at h
  cases h
  dsimp only at hsize ⊢
  have hsize' := hsize
  rw [flatMap_data_length] at hsize'
  -- sizes of the arrays of cells
  have hmem : ∀ a ∈ arrays, a.bytes ≤ (arrays.map DataArray.bytes).sum := fun a ha =>
    le_sum _ _ (List.mem_map_of_mem ha)
  have hconn : (extractCellInfos g.cells).1 ∈ arrays := by rw [← harr]; simp
  have hids : (g.cells.map fun c => c.pointIds.length).sum < 2 ^ 32 := by
    have hb := hmem _ hconn
    have key : ∀ (cells : List (Cell K)) (s : Nat × List Nat × List Nat × List Nat),
        (cells.foldl (fun (s : Nat × List Nat × List Nat × List Nat) (c : Cell K) =>
          let offset := (s.1 + c.pointIds.length) % 2 ^ 32
          (offset, s.2.1 ++ c.pointIds.map toUnsigned, s.2.2.1 ++ [offset], s.2.2.2 ++ [c.cellType.toVtk])) s).2.1.length =
          s.2.1.length + (cells.map fun c => c.pointIds.length).sum := by
      intro cells
      induction cells with
      | nil => intro s; simp
      | cons c t ih =>
        intro s
        rw [List.foldl_cons, ih, List.map_cons, List.sum_cons]
        dsimp only
        rw [List.length_append, List.length_map]
        omega
    have hlen : (extractCellInfos g.cells).1.data.length = (g.cells.map fun c => c.pointIds.length).sum := by
      have := key g.cells (0, [], [], [])
      rw [List.length_nil, Nat.zero_add] at this
      exact this
    rw [DataArray.bytes, hlen] at hb
    have hw : (extractCellInfos g.cells).1.width = 4 := rfl
    rw [hw] at hb
    omega
  obtain ⟨i1, i2, i3⟩ := cellInfos_spec g.cells hids
  -- validity
  have hv : ∀ a ∈ arrays, a.Valid := by
    intro a ha
    rw [← harr, List.mem_append, List.mem_append] at ha
    rcases ha with (ha | ha) | ha
    · exact named_data enc _ _ _ hp h1 henc a ha
    · exact named_data enc _ _ _ hc h2 henc a ha
    · simp only [List.mem_cons, List.not_mem_nil, or_false] at ha
      rcases ha with rfl | rfl | rfl | rfl
      · refine ⟨Nat.succ_pos _, fun v hv => ?_⟩
        rw [extractCoordinates_data] at hv
        obtain ⟨p, _, hv⟩ := List.mem_flatMap.mp hv
        simp only [List.mem_cons, List.not_mem_nil, or_false] at hv
        rcases hv with rfl | rfl | rfl <;> exact henc _
      · refine ⟨Nat.succ_pos _, fun v hv => ?_⟩
        rw [i1] at hv
        obtain ⟨c, _, hv⟩ := List.mem_flatMap.mp hv
        obtain ⟨i, _, rfl⟩ := List.mem_map.mp hv
        exact toUnsigned_lt i
      · refine ⟨Nat.succ_pos _, fun v hv => ?_⟩
        rw [i2] at hv
        obtain ⟨k, _, rfl⟩ := List.mem_map.mp hv
        exact Nat.lt_of_le_of_lt (idsBefore_le _ _) hids
      · refine ⟨Nat.succ_pos _, fun v hv => ?_⟩
        rw [i3] at hv
        obtain ⟨c, _, rfl⟩ := List.mem_map.mp hv
        exact toVtk_lt _
  obtain ⟨hs', e1, e2, e3⟩ := C48_offsets_partial arrays hv hsize'
  rw [h3] at e1
  cases e1
  dsimp only
  obtain ⟨p1, p2⟩ := extractAll_ok enc _ _ hp _ h1
  obtain ⟨c1, c2⟩ := extractAll_ok enc _ _ hc _ h2
  have hlen : hs'.length = pd.length + cd.length + 4 := by
    rw [e2, ← harr]; simp [Nat.add_assoc]
  have hA : ∀ j a, [extractCoordinates enc g.points, (extractCellInfos g.cells).1,
      (extractCellInfos g.cells).2.1, (extractCellInfos g.cells).2.2][j]? = some a →
      arrays[pd.length + cd.length + j]? = some a := by
    intro j a hj
    rw [← harr, List.getElem?_append_right (by rw [List.length_append]; omega), List.length_append,
      Nat.add_sub_cancel_left, hj]
  refine ⟨rfl, rfl, ?_, ?_, ?_, ?_, ?_, ?_⟩
  · rw [List.length_take, hlen, p1]; omega
  · rw [List.length_take, List.length_drop, hlen, c1]; omega
  · intro k name hk
    obtain ⟨a, ha, ha'⟩ := p2 k name hk
    obtain ⟨vs, v1, v2, v3, v4, v5⟩ := extractData_ok enc _ _ _ _ ha'
    have hlt := (List.getElem?_eq_some_iff.mp ha).1
    obtain ⟨off, o1, o2, _⟩ := e3 k a (by
      rw [← harr, List.append_assoc, List.getElem?_append_left hlt]; exact ha)
    rw [List.map_map] at v1
    obtain ⟨q1, q2⟩ := data_list (fun (p : Point K) k => p.getData k) Point.data getData_point k _ _ v1
    refine ⟨_, by rw [List.getElem?_take_of_lt hlt]; exact o1, v3, ?_, ?_⟩
    · intro p hp'
      obtain ⟨v, hv1, hv2⟩ := q1 p hp'
      exact ⟨v, hv2, v2 v hv1⟩
    · rw [v4, v5] at o2
      rw [o2, q2, List.flatMap_map]
  · intro k name hk
    obtain ⟨a, ha, ha'⟩ := c2 k name hk
    obtain ⟨vs, v1, v2, v3, v4, v5⟩ := extractData_ok enc _ _ _ _ ha'
    have hlt := (List.getElem?_eq_some_iff.mp ha).1
    obtain ⟨off, o1, o2, _⟩ := e3 (pd.length + k) a (by
      rw [← harr, List.append_assoc, List.getElem?_append_right (by omega), Nat.add_sub_cancel_left,
        List.getElem?_append_left hlt]; exact ha)
    rw [List.map_map] at v1
    obtain ⟨q1, q2⟩ := data_list (fun (c : Cell K) k => c.getData k) Cell.data getData_cell k _ _ v1
    refine ⟨_, by rw [List.getElem?_take_of_lt hlt, List.getElem?_drop]; exact o1, v3, ?_, ?_⟩
    · intro p hp'
      obtain ⟨v, hv1, hv2⟩ := q1 p hp'
      exact ⟨v, hv2, v2 v hv1⟩
    · rw [v4, v5] at o2
      rw [o2, q2, List.flatMap_map]
  · obtain ⟨off, o1, o2, _⟩ := e3 _ _ (hA 0 _ rfl)
    refine ⟨⟨"points", 3, 4, off⟩, ?_, ?_, ?_⟩
    · rw [List.take_one, List.head?_drop]
      rw [Nat.add_zero] at o1
      rw [o1]; rfl
    · rfl
    · rw [← extractCoordinates_data]; exact o2
  · obtain ⟨off1, o1, r1, _⟩ := e3 _ _ (hA 1 _ rfl)
    obtain ⟨off2, o2, r2, _⟩ := e3 _ _ (hA 2 _ rfl)
    obtain ⟨off3, o3, r3, _⟩ := e3 _ _ (hA 3 _ rfl)
    rw [i1] at r1
    rw [i2] at r2
    rw [i3] at r3
    refine ⟨⟨"connectivity", 0, 4, off1⟩, ⟨"offsets", 0, 4, off2⟩, ⟨"types", 0, 1, off3⟩, _, _, _, ?_, ?_, ?_, ?_,
      r1, r2, r3, ?_, ?_, ?_⟩
    · rw [List.drop_drop]
      apply List.ext_getElem?
      intro j
      rw [List.getElem?_drop]
      rcases j with _ | _ | _ | j
      · exact o1
      · exact o2
      · exact o3
      · rw [List.getElem?_eq_none (by omega)]; rfl
    · rfl
    · rfl
    · rfl
    · simp
    · simp
    · intro k c hk
      refine ⟨by rw [List.getElem?_map, hk]; rfl, fun hr => ?_⟩
      rw [cellIds_eq g.cells k c hk]
      apply List.map_congr_left
      intro i hi
      obtain ⟨h0, h1⟩ := hr i hi
      rw [toUnsigned, Int.emod_eq_of_lt h0 h1]

theorem extractData_succeeds (enc : K → Nat) (items : List (Nat → Res (List K))) (name : String) (idx n : Nat)
    (hne : items ≠ []) (h : ∀ i ∈ items, ∃ v, i idx = .ok v ∧ v.length = n) :
    ∃ a, extractData enc items name idx = .ok a := by
  cases items with
  | nil => exact absurd rfl hne
  | cons i t =>
    obtain ⟨v, hv, hn⟩ := h i List.mem_cons_self
    have key : ∀ (l : List (Nat → Res (List K))) (d : List Nat), (∀ i ∈ l, ∃ v, i idx = .ok v ∧ v.length = n) →
        ∃ r, Res.foldlM (fun (data : List Nat) (item : Nat → Res (List K)) =>
          (item idx).bind fun w =>
            Res.require (v.length = (transformData w).length) (.ok (data ++ (transformData w).map enc))) d l = .ok r := by
      intro l
      induction l with
      | nil => intro d _; exact ⟨d, rfl⟩
      | cons j l ih =>
        intro d hl
        obtain ⟨w, hw, hwn⟩ := hl j List.mem_cons_self
        obtain ⟨r, hr⟩ := ih (d ++ (transformData w).map enc) fun i hi => hl i (List.mem_cons_of_mem _ hi)
        refine ⟨r, ?_⟩
        rw [Res.foldlM_cons, hw, Res.bind_ok', Res.require,
          if_pos (by rw [transformData_eq, vtkOrder_length, hn, hwn]), Res.bind_ok']
        exact hr
    obtain ⟨r, hr⟩ := key (i :: t) [] h
    refine ⟨⟨name, v.length, 4, r⟩, ?_⟩
    rw [extractData, hv, Res.bind_ok', hr, Res.bind_ok']

theorem extractAll_succeeds (enc : K → Nat) (items : List (Nat → Res (List K))) (names : List String)
    (hn : names.Nodup) (hne : names ≠ [] → items ≠ [])
    (h : ∀ k < names.length, ∃ n, ∀ i ∈ items, ∃ v, i k = .ok v ∧ v.length = n) :
    ∃ as, extractAll enc items names = .ok as := by
  have key : ∀ (rest : List String) (s : List DataArray), (∀ x ∈ rest, x ∈ names) →
      ∃ as, Res.foldlM (fun (s : List DataArray) (name : String) =>
        (dataIndex names name).bind fun idx =>
          (extractData enc items name idx).bind fun a => .ok (s ++ [a])) s rest = .ok as := by
    intro rest
    induction rest with
    | nil => intro s _; exact ⟨s, rfl⟩
    | cons name rest ih =>
      intro s hr
      have hm := hr name List.mem_cons_self
      obtain ⟨k, hk, hkn⟩ := List.getElem_of_mem hm
      have hidx : dataIndex names name = .ok k := by
        rw [dataIndex, if_pos hm, findIdx_eq names hn k name (by rw [List.getElem?_eq_getElem hk, hkn])]
      obtain ⟨n, hkn'⟩ := h k hk
      obtain ⟨a, ha⟩ := extractData_succeeds enc items name k n
        (hne (fun e => by rw [e] at hm; cases hm)) hkn'
      obtain ⟨as, has⟩ := ih (s ++ [a]) fun x hx => hr x (List.mem_cons_of_mem _ hx)
      refine ⟨as, ?_⟩
      rw [Res.foldlM_cons, hidx, Res.bind_ok', ha, Res.bind_ok', Res.bind_ok']
      exact has
  exact key names [] fun _ hx => hx

/-- Specification: the number of bytes of data field `k` of points or cells: eight for its size and four for
each component. -/
def fieldBytes (data : List (List (List K))) (k : Nat) : Nat :=
  8 + 4 * (data.map fun d => (d.getD k []).length).sum

/-- Specification: the number of bytes of the appended data of a grid. -/
def Grid.bytes (g : Grid K) : Nat :=
  ((List.range g.pointDataNames.length).map (fieldBytes (g.points.map Point.data))).sum +
  ((List.range g.cellDataNames.length).map (fieldBytes (g.cells.map Cell.data))).sum +
  (8 + 12 * g.points.length) + (8 + 4 * (g.cells.map fun c => c.pointIds.length).sum) +
  (8 + 4 * g.cells.length) + (8 + g.cells.length)

theorem extractAll_bytes {α : Type} (enc : K → Nat) (get : α → Nat → Res (List K)) (data : α → List (List K))
    (hg : ∀ a k v, get a k = .ok v → (data a)[k]? = some v) (ps : List α) (names : List String) (hn : names.Nodup)
    (as : List DataArray) (h : extractAll enc (ps.map get) names = .ok as) :
    as.map DataArray.bytes = (List.range names.length).map (fieldBytes (ps.map data)) := by
  obtain ⟨hl, hk⟩ := extractAll_ok enc _ names hn as h
  apply List.ext_getElem (by simp [hl])
  intro k h1 h2
  rw [List.getElem_map, List.getElem_map, List.getElem_range]
  have hkn : k < names.length := by simpa using h2
  obtain ⟨a, ha, ha'⟩ := hk k names[k] (List.getElem?_eq_getElem hkn)
  rw [List.getElem?_eq_getElem (by omega)] at ha
  cases ha
  obtain ⟨vs, v1, _, _, v4, v5⟩ := extractData_ok enc _ _ _ _ ha'
  rw [List.map_map] at v1
  obtain ⟨_, q2⟩ := data_list get data hg k _ _ v1
  rw [DataArray.bytes, v4, v5, fieldBytes, List.length_flatMap, q2, List.map_map, List.map_map]
  congr 3
  apply List.map_congr_left
  intro p _
  simp only [Function.comp_apply, List.length_map, vtkOrder_length]

theorem cellInfos_lengths (cells : List (Cell K)) :
    (extractCellInfos cells).1.data.length = (cells.map fun c => c.pointIds.length).sum ∧
    (extractCellInfos cells).2.1.data.length = cells.length ∧
    (extractCellInfos cells).2.2.data.length = cells.length := by
  have key : ∀ (cells : List (Cell K)) (s : Nat × List Nat × List Nat × List Nat),
      let r := cells.foldl (fun (s : Nat × List Nat × List Nat × List Nat) (c : Cell K) =>
        let offset := (s.1 + c.pointIds.length) % 2 ^ 32
        (offset, s.2.1 ++ c.pointIds.map toUnsigned, s.2.2.1 ++ [offset], s.2.2.2 ++ [c.cellType.toVtk])) s
      r.2.1.length = s.2.1.length + (cells.map fun c => c.pointIds.length).sum ∧
      r.2.2.1.length = s.2.2.1.length + cells.length ∧ r.2.2.2.length = s.2.2.2.length + cells.length := by
    intro cells
    induction cells with
    | nil => intro s; simp
    | cons c t ih =>
      intro s
      obtain ⟨a1, a2, a3⟩ := ih ((s.1 + c.pointIds.length) % 2 ^ 32, s.2.1 ++ c.pointIds.map toUnsigned,
        s.2.2.1 ++ [(s.1 + c.pointIds.length) % 2 ^ 32], s.2.2.2 ++ [c.cellType.toVtk])
      rw [List.foldl_cons]
      refine ⟨a1.trans ?_, a2.trans ?_, a3.trans ?_⟩
      · rw [List.length_append, List.length_map, List.map_cons, List.sum_cons, Nat.add_assoc]
      · rw [List.length_append, List.length_cons, List.length_cons, List.length_nil]; omega
      · rw [List.length_append, List.length_cons, List.length_cons, List.length_nil]; omega
  have := key cells (0, [], [], [])
  simp only [List.length_nil, Nat.zero_add] at this
  exact this

/-- C48: export succeeds for every grid whose points and cells all have data of one size for each name, with
at least one point (cell) if there is point (cell) data, as long as the appended data stay below 2 GiB. -/
theorem C48_succeeds (enc : K → Nat) (g : Grid K) (hp : g.pointDataNames.Nodup) (hc : g.cellDataNames.Nodup)
    (hpn : g.pointDataNames ≠ [] → g.points ≠ []) (hcn : g.cellDataNames ≠ [] → g.cells ≠ [])
    (hpd : ∀ k < g.pointDataNames.length, ∃ n, ∀ p ∈ g.points, ∃ v, p.data[k]? = some v ∧ v.length = n)
    (hcd : ∀ k < g.cellDataNames.length, ∃ n, ∀ c ∈ g.cells, ∃ v, c.data[k]? = some v ∧ v.length = n)
    (hsize : g.bytes < 2 ^ 31) :
    ∃ f, exportBinary enc g = .ok f ∧ f.appended.length = g.bytes := by
  obtain ⟨pd, h1⟩ := extractAll_succeeds enc (g.points.map Point.getData) g.pointDataNames hp
    (fun h e => hpn h (List.map_eq_nil_iff.mp e)) (fun k hk => by
      obtain ⟨n, hn⟩ := hpd k hk
      refine ⟨n, fun i hi => ?_⟩
      obtain ⟨p, hp', rfl⟩ := List.mem_map.mp hi
      obtain ⟨v, hv, hvn⟩ := hn p hp'
      exact ⟨v, by rw [Point.getData, hv], hvn⟩)
  obtain ⟨cd, h2⟩ := extractAll_succeeds enc (g.cells.map Cell.getData) g.cellDataNames hc
    (fun h e => hcn h (List.map_eq_nil_iff.mp e)) (fun k hk => by
      obtain ⟨n, hn⟩ := hcd k hk
      refine ⟨n, fun i hi => ?_⟩
      obtain ⟨c, hc', rfl⟩ := List.mem_map.mp hi
      obtain ⟨v, hv, hvn⟩ := hn c hc'
      exact ⟨v, by rw [Cell.getData, hv], hvn⟩)
  have hb1 := extractAll_bytes enc (fun (p : Point K) k => p.getData k) Point.data getData_point _ _ hp _ h1
  have hb2 := extractAll_bytes enc (fun (c : Cell K) k => c.getData k) Cell.data getData_cell _ _ hc _ h2
  generalize harr : pd ++ cd ++ [extractCoordinates enc g.points, (extractCellInfos g.cells).1,
    (extractCellInfos g.cells).2.1, (extractCellInfos g.cells).2.2] = arrays
  have hbytes : (arrays.map DataArray.bytes).sum = g.bytes := by
    obtain ⟨l1, l2, l3⟩ := cellInfos_lengths g.cells
    have l0 : (extractCoordinates enc g.points).data.length = 3 * g.points.length := by
      rw [extractCoordinates_data, List.length_flatMap]
      simp [Nat.mul_comm]
    have w0 : (extractCoordinates enc g.points).bytes = 8 + 12 * g.points.length := by
      rw [DataArray.bytes, l0, show (extractCoordinates enc g.points).width = 4 from rfl]; omega
    have w1 : (extractCellInfos g.cells).1.bytes = 8 + 4 * (g.cells.map fun c => c.pointIds.length).sum := by
      rw [DataArray.bytes, l1]; rfl
    have w2 : (extractCellInfos g.cells).2.1.bytes = 8 + 4 * g.cells.length := by
      rw [DataArray.bytes, l2]; rfl
    have w3 : (extractCellInfos g.cells).2.2.bytes = 8 + g.cells.length := by
      rw [DataArray.bytes, l3, show (extractCellInfos g.cells).2.2.width = 1 from rfl, Nat.one_mul]
    rw [← harr, List.map_append, List.map_append, List.sum_append, List.sum_append, hb1, hb2]
    simp only [List.map_cons, List.map_nil, List.sum_cons, List.sum_nil, w0, w1, w2, w3, Grid.bytes]
    omega
  have h3 := writeHeaders_eq arrays [] 0 (by rw [Nat.zero_add, hbytes]; exact hsize)
  have h4 : exportBinary enc g = .ok ⟨g.points.length, g.cells.length, (headersFrom 0 arrays).take pd.length,
      ((headersFrom 0 arrays).drop pd.length).take cd.length,
      ((headersFrom 0 arrays).drop (pd.length + cd.length)).take 1,
      ((headersFrom 0 arrays).drop (pd.length + cd.length)).drop 1, arrays.flatMap writeBinaryData⟩ := by
    have h3' : writeHeaders arrays = .ok (headersFrom 0 arrays, ((0 + (arrays.map DataArray.bytes).sum : Nat) : Int)) := h3
    rw [exportBinary, h1, Res.bind_ok', h2, Res.bind_ok']
    dsimp only
    rw [harr, h3', Res.bind_ok']
  exact ⟨_, h4, (flatMap_data_length _).trans hbytes⟩

/-- C48: without points (cells) the export of a grid with point (cell) data is undefined: the first point
(cell) is read anyway. -/
theorem C48_empty_counterexample (enc : K → Nat) (g : Grid K) (name : String) (names : List String)
    (hn : g.pointDataNames = name :: names) (hp : g.points = []) : exportBinary enc g = .ub := by
  have : extractAll enc (g.points.map Point.getData) g.pointDataNames = .ub := by
    rw [hp, hn, extractAll, Res.foldlM_cons, dataIndex, if_pos List.mem_cons_self]
    rfl
  rw [exportBinary, this]
  rfl

/-- A grid with a vector and a tensor field. -/
def exampleGrid : Grid ℚ :=
  ⟨[⟨(0, 0, 0), [[1, 2, 3], [1, 2, 3, 4, 5, 6]]⟩, ⟨(1, 0, 0), [[4, 5, 6], [7, 8, 9, 10, 11, 12]]⟩,
    ⟨(0, 1, 0), [[7, 8, 9], [0, 0, 0, 1, 2, 3]]⟩, ⟨(1, 1, 0), [[0, 0, 1], [1, 1, 1, 2, 2, 2]]⟩],
   [⟨[0, 1, 2], .triangle, [[3]]⟩, ⟨[1, 3], .line, [[4]]⟩], ["u", "stress"], ["damage"]⟩

theorem exampleGrid_ok : ∃ f, exportBinary (fun x : ℚ => x.num.natAbs) exampleGrid = .ok f ∧
    f.appended.length = 286 := by
  have h : exampleGrid.bytes = 286 := by decide +kernel
  obtain ⟨f, h1, h2⟩ := C48_succeeds (fun x : ℚ => x.num.natAbs) exampleGrid (by decide +kernel) (by decide +kernel)
    (by decide +kernel) (by decide +kernel) (by
      intro k hk
      have hk' : k < 2 := hk
      interval_cases k
      · refine ⟨3, fun p hp => ?_⟩
        simp only [exampleGrid, List.mem_cons, List.not_mem_nil, or_false] at hp
        rcases hp with rfl | rfl | rfl | rfl <;> exact ⟨_, rfl, rfl⟩
      · refine ⟨6, fun p hp => ?_⟩
        simp only [exampleGrid, List.mem_cons, List.not_mem_nil, or_false] at hp
        rcases hp with rfl | rfl | rfl | rfl <;> exact ⟨_, rfl, rfl⟩) (by
      intro k hk
      have hk' : k < 1 := hk
      interval_cases k
      refine ⟨1, fun p hp => ?_⟩
      simp only [exampleGrid, List.mem_cons, List.not_mem_nil, or_false] at hp
      rcases hp with rfl | rfl <;> exact ⟨_, rfl, rfl⟩) (by rw [h]; decide)
  exact ⟨f, h1, h2.trans h⟩

example : ∃ f, exportBinary (fun x : ℚ => x.num.natAbs) exampleGrid = .ok f ∧ f.appended.length < 2 ^ 31 := by
  obtain ⟨f, h1, h2⟩ := exampleGrid_ok
  exact ⟨f, h1, by rw [h2]; decide⟩

example : ∃ a : DataArray, a.Valid ∧ a.bytes = 20 := ⟨⟨"x", 1, 4, [7, 8, 9]⟩, ⟨by decide, by decide⟩, by decide⟩

end NuTo.Visualize
