import Verif.Model.VtuText
import Verif.Lemmas.Xml
import Verif.Props.Vtu

/-!
C118: the text of vtu files is xml with the data of the grid.
-/

namespace NuTo.Visualize

open Xml

variable {K : Type}

/-! ### Specification -/

/-- The attributes that all `DataArray` elements have -/
def arrayAttrs (type name : List Char) (n : Nat) : List (List Char × List Char) :=
  [(chars! "type", type), (chars! "Name", name)] ++ if n ≠ 0 then [(chars! "NumberOfComponents", Nat.toDigits 10 n)] else []

/-- An array in the text -/
def asciiArray (type name : List Char) (n : Nat) (ws : List (List Char)) : Node :=
  .elem (chars! "DataArray") (arrayAttrs type name n ++ [(chars! "format", chars! "ascii")]) (ws.map Node.word)

/-- An array in the appended data -/
def appendedArray (type name : List Char) (n : Nat) (offset : Int) : Node :=
  .elem (chars! "DataArray")
    (arrayAttrs type name n ++ [(chars! "format", chars! "appended"), (chars! "offset", printInt offset)]) []

/-- A grid: numbers of points and cells, then the arrays -/
def gridNode (numPoints numCells : Nat) (pointData cellData points cells : List Node) : Node :=
  .elem (chars! "UnstructuredGrid") [] [
    .elem (chars! "Piece") [(chars! "NumberOfPoints", Nat.toDigits 10 numPoints), (chars! "NumberOfCells", Nat.toDigits 10 numCells)] [
      .elem (chars! "PointData") [] pointData, .elem (chars! "CellData") [] cellData,
      .elem (chars! "Points") [] points, .elem (chars! "Cells") [] cells]]

/-- The attributes of the first element -/
def fileAttrs : List (List Char × List Char) :=
  [(chars! "type", chars! "UnstructuredGrid"), (chars! "version", chars! "0.1"), (chars! "byte_order", chars! "LittleEndian")]

/-! ### Lemmas -/

theorem plain_vtk (k : Scalar) : Plain k.vtk := by
  cases k <;> simp [Plain, Scalar.vtk]

theorem run_common (k : Scalar) (name : List Char) (n : Nat) (hn : Plain name) (out : List Tok) (rest : List Char) :
    run (.text [], out) (commonHeader k name n ++ rest) =
      run (.between (chars! "DataArray").reverse (arrayAttrs k.vtk name n), out) rest := by
  rw [run_append]
  congr 1
  have h1 : run (.text [], out) (chars! "<DataArray ") = (.between (chars! "DataArray").reverse [], out) := rfl
  have h2 : ∀ as, run (.between (chars! "DataArray").reverse as, out) (chars! "type=\"") =
      (.val (chars! "DataArray").reverse as (chars! "type").reverse [], out) := fun _ => rfl
  have h3 : ∀ as, run (.between (chars! "DataArray").reverse as, out) (chars! "Name=\"") =
      (.val (chars! "DataArray").reverse as (chars! "Name").reverse [], out) := fun _ => rfl
  have h4 : ∀ as, run (.between (chars! "DataArray").reverse as, out) (chars! " NumberOfComponents=\"") =
      (.val (chars! "DataArray").reverse as (chars! "NumberOfComponents").reverse [], out) := fun _ => rfl
  have h5 : ∀ as, run (.after (chars! "DataArray").reverse as, out) [' '] = (.between (chars! "DataArray").reverse as, out) :=
    fun _ => rfl
  rw [commonHeader]
  simp only [run_append]
  rw [h1, h2, run_lit _ _ _ _ _ (plain_vtk k), h5, h3, run_lit _ _ _ _ _ hn, h5]
  split
  · next h =>
    simp only [run_append]
    rw [h4, run_lit _ _ _ _ _ (plain_digits n), h5, arrayAttrs, if_pos h]
    rfl
  · next h => rw [arrayAttrs, if_neg h]; rfl

theorem reads_ascii (fmt : Nat → List Char) (k : Scalar) (a : DataArray) (hn : Plain a.name.toList)
    (hf : ∀ v ∈ a.data, Word (k.print fmt v)) :
    Reads (writeAscii fmt k a) [asciiArray k.vtk a.name.toList a.numComponents (a.data.map (k.print fmt))] := by
  have e : writeAscii fmt k a =
      (commonHeader k a.name.toList a.numComponents ++ (chars! "format=\"ascii\" >\n")) ++
        ((((a.data.map (k.print fmt)).flatMap fun w => ' ' :: w) ++ ['\n']) ++ chars! "</DataArray>") := by
    rw [writeAscii, List.flatMap_map]
    simp only [List.append_assoc]
    rfl
  rw [e]
  refine Reads.elem (fun out => ?_) (Reads.words fun w hw => ?_) (fun out => rfl)
  · rw [run_common k _ _ hn]
    rfl
  · obtain ⟨v, hv, rfl⟩ := List.mem_map.1 hw
    exact hf v hv

theorem plain_int (i : Int) : Plain (printInt i) := by
  unfold printInt
  split
  · intro c hc
    rcases List.mem_cons.1 hc with rfl | hc
    · decide
    · exact plain_digits _ c hc
  · exact plain_digits _

theorem reads_appended (k : Scalar) (h : Header) (hn : Plain h.name.toList) :
    Reads (binaryHeaderText k h) [appendedArray k.vtk h.name.toList h.numComponents h.offset] := by
  refine Reads.single fun out => ?_
  rw [binaryHeaderText, run_common k _ _ hn]
  have h1 : ∀ as, run (.between (chars! "DataArray").reverse as, out) (chars! "format=\"") =
      (.val (chars! "DataArray").reverse as (chars! "format").reverse [], out) := fun _ => rfl
  have h2 : ∀ as, run (.between (chars! "DataArray").reverse as, out) (chars! "offset=\"") =
      (.val (chars! "DataArray").reverse as (chars! "offset").reverse [], out) := fun _ => rfl
  have h5 : ∀ as, run (.after (chars! "DataArray").reverse as, out) [' '] = (.between (chars! "DataArray").reverse as, out) :=
    fun _ => rfl
  have hp : Plain (chars! "appended") := by simp [Plain]
  simp only [run_append]
  rw [h1, run_lit _ _ _ _ _ hp, h5, h2, run_lit _ _ _ _ _ (plain_int _), h5, List.append_assoc]
  rfl

theorem run_piece (p c : Nat) (out : List Tok) :
    run (.text [], out) (chars! "  <Piece NumberOfPoints=\"" ++ (Nat.toDigits 10 p ++
      (chars! "\" NumberOfCells=\"" ++ (Nat.toDigits 10 c ++ chars! "\">\n")))) =
      (.text [], .opn (chars! "Piece") [(chars! "NumberOfPoints", Nat.toDigits 10 p), (chars! "NumberOfCells", Nat.toDigits 10 c)]
        false :: out) := by
  have h1 : run (.text [], out) (chars! "  <Piece NumberOfPoints=\"") =
      (.val (chars! "Piece").reverse [] (chars! "NumberOfPoints").reverse [], out) := rfl
  have h2 : ∀ as, run (.after (chars! "Piece").reverse as, out) (chars! " NumberOfCells=\"") =
      (.val (chars! "Piece").reverse as (chars! "NumberOfCells").reverse [], out) := fun _ => rfl
  simp only [run_append]
  rw [h1, run_lit _ _ _ _ _ (plain_digits p), h2, run_lit _ _ _ _ _ (plain_digits c)]
  rfl

theorem piece_reads {p c : Nat} {pd cd po ce : List Char} {pds cds pos ces : List Node} (h1 : Reads pd pds) (h2 : Reads cd cds)
    (h3 : Reads po pos) (h4 : Reads ce ces) :
    ∃ t, pieceText p c pd cd po ce = chars! ">\n" ++ t ∧ Reads t [gridNode p c pds cds pos ces] := by
  have e1 : Reads (chars! "   <PointData>\n" ++ (pd ++ chars! "   </PointData>\n")) [.elem (chars! "PointData") [] pds] :=
    Reads.elem (fun _ => rfl) h1 (fun _ => rfl)
  have e2 : Reads (chars! "   <CellData>\n" ++ (cd ++ chars! "   </CellData>\n")) [.elem (chars! "CellData") [] cds] :=
    Reads.elem (fun _ => rfl) h2 (fun _ => rfl)
  have e3 : Reads (chars! "   <Points>\n" ++ (po ++ chars! "   </Points>\n")) [.elem (chars! "Points") [] pos] :=
    Reads.elem (fun _ => rfl) h3 (fun _ => rfl)
  have e4 : Reads (chars! "   <Cells>\n" ++ (ce ++ chars! "   </Cells>\n")) [.elem (chars! "Cells") [] ces] :=
    Reads.elem (fun _ => rfl) h4 (fun _ => rfl)
  have e5 := Reads.elem (run_piece p c) (e1.append (e2.append (e3.append e4)))
    (c := chars! "  </Piece>\n") (fun _ => rfl)
  have e6 : Reads (chars! " <UnstructuredGrid>\n" ++ (_ ++ chars! " </UnstructuredGrid>\n"))
    [.elem (chars! "UnstructuredGrid") [] _] := Reads.elem (fun _ => rfl) e5 (fun _ => rfl)
  refine ⟨_, ?_, e6⟩
  unfold pieceText
  simp only [List.append_assoc]
  rfl

theorem print_word (fmt : Nat → List Char) (hf : ∀ v, Word (fmt v)) (k : Scalar) (v : Nat) : Word (k.print fmt v) := by
  cases k
  · exact hf v
  · exact word_digits v
  · exact word_digits v

/-- The fields of points or cells as elements: `data` are the values of an item, `n` the numbers of components -/
def fieldNodes {α : Type} (show' : K → List Char) (items : List α) (data : α → List (List K)) (names : List String)
    (n : Nat → Nat) : List Node :=
  names.zipIdx.map fun x => asciiArray (chars! "Float32") x.1.toList (n x.2)
    (items.flatMap fun i => (vtkOrder ((data i).getD x.2 [])).map show')

theorem reads_fields {α : Type} (fmt : Nat → List Char) (enc : K → Nat) (hf : ∀ v, Word (fmt v)) (items : List α)
    (get : α → Nat → Res (List K)) (data : α → List (List K)) (hg : ∀ a k v, get a k = .ok v → (data a)[k]? = some v)
    (names : List String) (hn : names.Nodup) (hx : ∀ x ∈ names, Plain x.toList) (n : Nat → Nat)
    (hne : names ≠ [] → items ≠ []) (hd : ∀ k < names.length, ∀ i ∈ items, ∃ v, (data i)[k]? = some v ∧ v.length = n k)
    (as : List DataArray) (h : extractAll enc (items.map get) names = .ok as) :
    Reads (as.flatMap (writeAscii fmt .float32)) (fieldNodes (fun x => fmt (enc x)) items data names n) := by
  obtain ⟨hl, hk⟩ := extractAll_ok enc _ _ hn _ h
  have hspec : ∀ k (hk1 : k < as.length) (hk2 : k < names.length), as[k].name = names[k] ∧ as[k].numComponents = n k ∧
      as[k].data = items.flatMap fun i => (vtkOrder ((data i).getD k [])).map enc := by
    intro k hk1 hk2
    obtain ⟨a, ha, ha'⟩ := hk k names[k] (List.getElem?_eq_getElem hk2)
    rw [List.getElem?_eq_getElem hk1] at ha
    cases ha
    obtain ⟨vs, v1, v2, v3, v4, v5⟩ := extractData_ok enc _ _ _ _ ha'
    rw [List.map_map] at v1
    obtain ⟨q1, q2⟩ := data_list get data hg k _ _ v1
    refine ⟨v3, ?_, ?_⟩
    · obtain ⟨i, hi⟩ := List.exists_mem_of_ne_nil _ (hne (List.ne_nil_of_length_pos (by omega)))
      obtain ⟨v, hv, hv'⟩ := q1 i hi
      obtain ⟨w, hw, hw'⟩ := hd k hk2 i hi
      rw [hv'] at hw
      cases hw
      rw [← v2 v hv, hw']
    · rw [v5, q2, List.flatMap_map]
  have e : fieldNodes (fun x => fmt (enc x)) items data names n =
      as.map fun a => asciiArray (chars! "Float32") a.name.toList a.numComponents (a.data.map (Scalar.float32.print fmt)) := by
    apply List.ext_getElem
    · simp [fieldNodes, hl]
    · intro k h1 h2
      have hk1 : k < as.length := by simpa using h2
      obtain ⟨s1, s2, s3⟩ := hspec k hk1 (by omega)
      simp only [fieldNodes, List.getElem_map, List.getElem_zipIdx, Nat.zero_add, s1, s2, s3]
      congr 1
      rw [List.map_flatMap]
      simp only [List.map_map]
      rfl
  rw [e]
  refine Reads.flatMap fun a ha => reads_ascii fmt .float32 a ?_ fun v _ => print_word fmt hf _ v
  obtain ⟨k, hlt, rfl⟩ := List.getElem_of_mem ha
  rw [(hspec k hlt (by omega)).1]
  exact hx _ (List.getElem_mem _)

theorem name_points (enc : K → Nat) (ps : List (Point K)) : (extractCoordinates enc ps).name.toList = chars! "points" := by
  show "points".toList = _
  decide +kernel

theorem name_connectivity (cs : List (Cell K)) : (extractCellInfos cs).1.name.toList = chars! "connectivity" := by
  show "connectivity".toList = _
  decide +kernel

theorem name_offsets (cs : List (Cell K)) : (extractCellInfos cs).2.1.name.toList = chars! "offsets" := by
  show "offsets".toList = _
  decide +kernel

theorem name_types (cs : List (Cell K)) : (extractCellInfos cs).2.2.name.toList = chars! "types" := by
  show "types".toList = _
  decide +kernel

set_option maxRecDepth 4000 in
theorem run_file (out : List Tok) :
    run (.text [], out) (chars! "<VTKFile type=\"UnstructuredGrid\" version=\"0.1\" byte_order=\"LittleEndian\"") =
      (.after (chars! "VTKFile").reverse fileAttrs, out) := rfl

theorem headers_names (P : String → Prop) (arrays : List DataArray) (s r : List Header × Int)
    (h : Res.foldlM (fun (s : List Header × Int) (a : DataArray) =>
      (writeBinaryHeader a s.2).bind fun r => .ok (s.1 ++ [r.1], r.2)) s arrays = .ok r)
    (hs : ∀ x ∈ s.1, P x.name) (ha : ∀ a ∈ arrays, P a.name) : ∀ x ∈ r.1, P x.name := by
  induction arrays generalizing s with
  | nil => cases h; exact hs
  | cons a t ih =>
    rw [Res.foldlM_cons, writeBinaryHeader, Res.require] at h
    split at h
    · rw [Res.bind_ok', Res.bind_ok'] at h
      refine ih _ h (fun x hx => ?_) fun b hb => ha b (List.mem_cons_of_mem _ hb)
      rcases List.mem_append.1 hx with hx | hx
      · exact hs x hx
      · rw [List.mem_singleton] at hx
        subst hx
        exact ha a List.mem_cons_self
    · cases h

theorem extractAll_names (enc : K → Nat) (items : List (Nat → Res (List K))) (names : List String) (hn : names.Nodup)
    (as : List DataArray) (h : extractAll enc items names = .ok as) : ∀ a ∈ as, a.name ∈ names := by
  obtain ⟨hl, hk⟩ := extractAll_ok enc items names hn as h
  intro a ha
  obtain ⟨k, hlt, rfl⟩ := List.getElem_of_mem ha
  obtain ⟨b, hb, hb'⟩ := hk k (names[k]'(by omega)) (List.getElem?_eq_getElem (by omega))
  rw [List.getElem?_eq_getElem hlt] at hb
  cases hb
  obtain ⟨vs, _, _, h3, _⟩ := extractData_ok enc items _ k _ hb'
  rw [h3]
  exact List.getElem_mem _

theorem export_names (enc : K → Nat) (g : Grid K) (hp : g.pointDataNames.Nodup) (hc : g.cellDataNames.Nodup)
    (hpx : ∀ x ∈ g.pointDataNames, Plain x.toList) (hcx : ∀ x ∈ g.cellDataNames, Plain x.toList)
    (f : VtuFile) (h : exportBinary enc g = .ok f) :
    ∀ h ∈ f.pointData ++ f.cellData ++ f.points ++ f.cells, Plain h.name.toList := by
  unfold exportBinary at h
  cases h1 : extractAll enc (g.points.map Point.getData) g.pointDataNames with
  | throw => rw [h1] at h; cases h
  | ub => rw [h1] at h; cases h
  | ok pd =>
    rw [h1, Res.bind_ok'] at h
    cases h2 : extractAll enc (g.cells.map Cell.getData) g.cellDataNames with
    | throw => rw [h2] at h; cases h
    | ub => rw [h2] at h; cases h
    | ok cd =>
      rw [h2, Res.bind_ok'] at h
      dsimp only at h
      cases h3 : writeHeaders (pd ++ cd ++ [extractCoordinates enc g.points, (extractCellInfos g.cells).1,
        (extractCellInfos g.cells).2.1, (extractCellInfos g.cells).2.2]) with
      | throw => rw [h3] at h; cases h
      | ub => rw [h3] at h; cases h
      | ok r =>
        rw [h3, Res.bind_ok'] at h
        cases h
        have key := headers_names (fun s => Plain s.toList) _ _ _ h3 (by simp) (fun a ha => by
          rw [List.mem_append, List.mem_append] at ha
          rcases ha with (ha | ha) | ha
          · exact hpx _ (extractAll_names enc _ _ hp _ h1 a ha)
          · exact hcx _ (extractAll_names enc _ _ hc _ h2 a ha)
          · simp only [List.mem_cons, List.not_mem_nil, or_false] at ha
            rcases ha with rfl | rfl | rfl | rfl
            · rw [name_points]; simp [Plain]
            · rw [name_connectivity]; simp [Plain]
            · rw [name_offsets]; simp [Plain]
            · rw [name_types]; simp [Plain])
        intro x hx
        simp only [List.mem_append] at hx
        rcases hx with ((hx | hx) | hx) | hx
        · exact key x (List.mem_of_mem_take hx)
        · exact key x (List.mem_of_mem_drop (List.mem_of_mem_take hx))
        · exact key x (List.mem_of_mem_drop (List.mem_of_mem_take hx))
        · exact key x (List.mem_of_mem_drop (List.mem_of_mem_drop hx))

/-! ### Theorems -/

/-- C118: with names of fields without `"`, `<` and `&`, the ascii file is xml: a reader finds the numbers of points and cells,
each field of points and cells under its name with its number of components and, as words, its values (tensors in the order of
vtk), the three coordinates of each point, and the ids, the ends of the ids and the types of the cells. -/
theorem C118_ascii_partial (fmt : Nat → List Char) (enc : K → Nat) (hf : ∀ v, Word (fmt v)) (g : Grid K)
    (hp : g.pointDataNames.Nodup) (hc : g.cellDataNames.Nodup)
    (hpx : ∀ x ∈ g.pointDataNames, Plain x.toList) (hcx : ∀ x ∈ g.cellDataNames, Plain x.toList)
    (hpn : g.pointDataNames ≠ [] → g.points ≠ []) (hcn : g.cellDataNames ≠ [] → g.cells ≠ []) (np nc : Nat → Nat)
    (hpd : ∀ k < g.pointDataNames.length, ∀ p ∈ g.points, ∃ v, p.data[k]? = some v ∧ v.length = np k)
    (hcd : ∀ k < g.cellDataNames.length, ∀ c ∈ g.cells, ∃ v, c.data[k]? = some v ∧ v.length = nc k)
    (hid : ∀ c ∈ g.cells, ∀ i ∈ c.pointIds, 0 ≤ i ∧ i < 2 ^ 32) (hsum : (g.cells.map fun c => c.pointIds.length).sum < 2 ^ 32) :
    ∃ t, exportAscii fmt enc g = .ok t ∧ Xml.parse t = some (.elem (chars! "VTKFile") fileAttrs [
      gridNode g.points.length g.cells.length
        (fieldNodes (fun x => fmt (enc x)) g.points Point.data g.pointDataNames np)
        (fieldNodes (fun x => fmt (enc x)) g.cells Cell.data g.cellDataNames nc)
        [asciiArray (chars! "Float32") (chars! "points") 3
          (g.points.flatMap fun p => [fmt (enc p.coords.1), fmt (enc p.coords.2.1), fmt (enc p.coords.2.2)])]
        [asciiArray (chars! "UInt32") (chars! "connectivity") 0
            (g.cells.flatMap fun c => c.pointIds.map fun i => Nat.toDigits 10 i.toNat),
          asciiArray (chars! "UInt32") (chars! "offsets") 0
            ((List.range g.cells.length).map fun k => Nat.toDigits 10 (idsBefore g.cells (k + 1))),
          asciiArray (chars! "UInt8") (chars! "types") 0 (g.cells.map fun c => Nat.toDigits 10 c.cellType.toVtk)]]) := by
  obtain ⟨pd, h1⟩ := extractAll_succeeds enc (g.points.map Point.getData) g.pointDataNames hp
    (fun h e => hpn h (List.map_eq_nil_iff.mp e)) (fun k hk => by
      refine ⟨np k, fun i hi => ?_⟩
      obtain ⟨p, hp', rfl⟩ := List.mem_map.mp hi
      obtain ⟨v, hv, hvn⟩ := hpd k hk p hp'
      exact ⟨v, by rw [Point.getData, hv], hvn⟩)
  obtain ⟨cd, h2⟩ := extractAll_succeeds enc (g.cells.map Cell.getData) g.cellDataNames hc
    (fun h e => hcn h (List.map_eq_nil_iff.mp e)) (fun k hk => by
      refine ⟨nc k, fun i hi => ?_⟩
      obtain ⟨p, hp', rfl⟩ := List.mem_map.mp hi
      obtain ⟨v, hv, hvn⟩ := hcd k hk p hp'
      exact ⟨v, by rw [Cell.getData, hv], hvn⟩)
  have r1 := reads_fields fmt enc hf g.points (fun (p : Point K) k => p.getData k) Point.data getData_point _ hp hpx np hpn hpd pd h1
  have r2 := reads_fields fmt enc hf g.cells (fun (c : Cell K) k => c.getData k) Cell.data getData_cell _ hc hcx nc hcn hcd cd h2
  obtain ⟨i1, i2, i3⟩ := cellInfos_spec g.cells hsum
  have r3 := reads_ascii fmt .float32 (extractCoordinates enc g.points)
    (by rw [name_points]; simp [Plain]) (fun v _ => print_word fmt hf _ v)
  have r4 := reads_ascii fmt .uint32 (extractCellInfos g.cells).1
    (by rw [name_connectivity]; simp [Plain]) (fun v _ => print_word fmt hf _ v)
  have r5 := reads_ascii fmt .uint32 (extractCellInfos g.cells).2.1
    (by rw [name_offsets]; simp [Plain]) (fun v _ => print_word fmt hf _ v)
  have r6 := reads_ascii fmt .uint8 (extractCellInfos g.cells).2.2
    (by rw [name_types]; simp [Plain]) (fun v _ => print_word fmt hf _ v)
  obtain ⟨t, ht, hr⟩ := piece_reads (p := g.points.length) (c := g.cells.length) r1 r2 r3 (r4.append (r5.append r6))
  refine ⟨_, by rw [exportAscii, h1, Res.bind_ok', h2, Res.bind_ok'], ?_⟩
  apply parse_of_reads
  rw [ht]
  have hr' := Reads.elem
    (o := chars! "<VTKFile type=\"UnstructuredGrid\" version=\"0.1\" byte_order=\"LittleEndian\"" ++ chars! ">\n")
    (c := chars! "</VTKFile>\n") (n := chars! "VTKFile") (as := fileAttrs)
    (fun out => by rw [run_append, run_file]; rfl) hr (fun _ => rfl)
  simp only [name_points, name_connectivity, name_offsets, name_types, extractCoordinates_data, i1, i2, i3, List.map_flatMap,
    List.map_map, List.map_cons, List.map_nil] at hr'
  have e : (g.cells.flatMap fun c => c.pointIds.map (Scalar.print fmt .uint32 ∘ toUnsigned)) =
      g.cells.flatMap fun c => c.pointIds.map fun i => Nat.toDigits 10 i.toNat := by
    apply List.flatMap_congr
    intro c hc'
    apply List.map_congr_left
    intro i hi
    obtain ⟨h0, h1⟩ := hid c hc' i hi
    show Nat.toDigits 10 (i % 2 ^ 32).toNat = _
    rw [Int.emod_eq_of_lt h0 h1]
  rw [e, List.append_assoc] at hr'
  rw [List.append_assoc]
  exact hr'

/-- C118: a binary file: apart from the appended data (here any word), it is xml, the elements of the arrays
have the attributes of `C48_file_partial`, and the data begins after the underscore in `AppendedData`. -/
theorem C118_binary_partial (enc : K → Nat) (g : Grid K) (hp : g.pointDataNames.Nodup) (hc : g.cellDataNames.Nodup)
    (hpx : ∀ x ∈ g.pointDataNames, Plain x.toList) (hcx : ∀ x ∈ g.cellDataNames, Plain x.toList)
    (f : VtuFile) (h : exportBinary enc g = .ok f) (raw : List Char)
    (hraw : ∀ c ∈ raw, c ≠ '<' ∧ c ≠ '&' ∧ c ≠ '>' ∧ Xml.space c = false) :
    Xml.parse (binaryText f ++ (raw ++ binaryEnd)) = some (.elem (chars! "VTKFile")
      (fileAttrs ++ [(chars! "header_type", chars! "UInt64")]) [
      gridNode f.numPoints f.numCells
        (f.pointData.map fun h => appendedArray (chars! "Float32") h.name.toList h.numComponents h.offset)
        (f.cellData.map fun h => appendedArray (chars! "Float32") h.name.toList h.numComponents h.offset)
        (f.points.map fun h => appendedArray (chars! "Float32") h.name.toList h.numComponents h.offset)
        ((f.cells.take 2).map (fun h => appendedArray (chars! "UInt32") h.name.toList h.numComponents h.offset) ++
          (f.cells.drop 2).map fun h => appendedArray (chars! "UInt8") h.name.toList h.numComponents h.offset),
      .elem (chars! "AppendedData") [(chars! "encoding", chars! "raw")] [.word ('_' :: raw)]]) := by
  have hn := export_names enc g hp hc hpx hcx f h
  simp only [List.mem_append] at hn
  have r1 := Reads.flatMap (l := f.pointData) (fun h hh => reads_appended .float32 h (hn h (.inl (.inl (.inl hh)))))
  have r2 := Reads.flatMap (l := f.cellData) (fun h hh => reads_appended .float32 h (hn h (.inl (.inl (.inr hh)))))
  have r3 := Reads.flatMap (l := f.points) (fun h hh => reads_appended .float32 h (hn h (.inl (.inr hh))))
  have r4 := Reads.flatMap (l := f.cells.take 2)
    (fun h hh => reads_appended .uint32 h (hn h (.inr (List.mem_of_mem_take hh))))
  have r5 := Reads.flatMap (l := f.cells.drop 2)
    (fun h hh => reads_appended .uint8 h (hn h (.inr (List.mem_of_mem_drop hh))))
  obtain ⟨t, ht, hr⟩ := piece_reads (p := f.numPoints) (c := f.numCells) r1 r2 r3 (r4.append r5)
  have hw : Reads (('_' :: raw) ++ chars! "\n ") [.word ('_' :: raw)] := by
    refine ⟨[.word ('_' :: raw)], fun out => ?_, fun _ _ _ _ => rfl⟩
    rw [run_append, run_word]
    · rw [List.append_nil]
      show run (.text [], emit ('_' :: raw).reverse out) [' '] = _
      rw [emit_reverse (by simp)]
      rfl
    · intro c hc
      rcases List.mem_cons.1 hc with rfl | hc
      · decide
      · exact hraw c hc
  have ha : Reads (chars! " <AppendedData encoding=\"raw\">\n" ++ (_ ++ chars! "</AppendedData>\n"))
    [.elem (chars! "AppendedData") [(chars! "encoding", chars! "raw")] _] := Reads.elem (fun _ => rfl) hw (fun _ => rfl)
  have hr' := Reads.elem
    (o := chars! "<VTKFile type=\"UnstructuredGrid\" version=\"0.1\" byte_order=\"LittleEndian\"" ++
      (chars! " header_type=\"UInt64\"" ++ chars! ">\n"))
    (c := chars! "</VTKFile>\n") (n := chars! "VTKFile") (as := fileAttrs ++ [(chars! "header_type", chars! "UInt64")])
    (fun out => by rw [run_append, run_file]; rfl) (hr.append ha) (fun _ => rfl)
  apply parse_of_reads
  refine (congrArg (fun c => Reads c _) ?_).mpr hr'
  unfold binaryText
  rw [ht]
  simp only [List.append_assoc]
  rfl

/-- C118 fails for names with a quote or `<`: no reader accepts the file. -/
theorem C118_name_counterexample :
    (∃ t, exportAscii (K := Nat) (fun v => Nat.toDigits 10 v) id ⟨[⟨(0, 0, 0), [[1]]⟩], [], ["\"n\""], []⟩ = .ok t ∧
      Xml.parse t = none) ∧
    ∃ t, exportAscii (K := Nat) (fun v => Nat.toDigits 10 v) id ⟨[⟨(0, 0, 0), [[1]]⟩], [], ["x<1"], []⟩ = .ok t ∧
      Xml.parse t = none := by
  constructor
  · refine ⟨_, rfl, ?_⟩
    decide +kernel
  · refine ⟨_, rfl, ?_⟩
    decide +kernel

/-- C118 fails for grids without points (or cells) whose fields are defined: the first point is read although there is none. -/
theorem C118_empty_counterexample (fmt : Nat → List Char) (enc : K → Nat) (name : String) :
    exportAscii fmt enc (⟨[], [], [name], []⟩ : Grid K) = .ub := by
  simp [exportAscii, extractAll, extractData, dataIndex, Res.foldlM, Res.bind]

/-- A number of a format without exponents and signs -/
example : ∀ v : Nat, Word (Nat.toDigits 10 v) := word_digits

example : ∃ t, exportAscii (fun v => Nat.toDigits 10 v) (fun x : ℚ => x.num.natAbs) exampleGrid = .ok t ∧
    (Xml.parse t).isSome := by
  obtain ⟨t, h1, h2⟩ := C118_ascii_partial (fun v => Nat.toDigits 10 v) (fun x : ℚ => x.num.natAbs) word_digits exampleGrid
    (by decide +kernel) (by decide +kernel) (by simp [exampleGrid, Plain]) (by simp [exampleGrid, Plain])
    (by decide +kernel) (by decide +kernel) (fun k => if k = 0 then 3 else 6) (fun _ => 1)
    (by
      intro k hk
      have hk' : k < 2 := hk
      interval_cases k <;> simp [exampleGrid])
    (by
      intro k hk
      have hk' : k < 1 := hk
      interval_cases k
      simp [exampleGrid])
    (by simp [exampleGrid]) (by decide +kernel)
  exact ⟨t, h1, by rw [h2]; rfl⟩

example : (∃ f, exportBinary (fun x : ℚ => x.num.natAbs) exampleGrid = .ok f) ∧
    (∀ x ∈ exampleGrid.pointDataNames, Plain x.toList) ∧ ∀ x ∈ exampleGrid.cellDataNames, Plain x.toList := by
  obtain ⟨f, h, _⟩ := exampleGrid_ok
  exact ⟨⟨f, h⟩, by simp [exampleGrid, Plain], by simp [exampleGrid, Plain]⟩

end NuTo.Visualize
