/-
Facts about the data of an unstructured grid: what writing one value changes.
-/
import Verif.Model.Visualize
import Mathlib.Data.List.GetD
import Mathlib.Data.List.Nodup

namespace NuTo.Visualize

variable {K : Type}

/-- Row `i` of a table with these column names has the value `v` in the column `name`. -/
def HasData (rows : List (List (List K))) (names : List String) (i : Nat) (name : String) (v : List K) : Prop :=
  name ∈ names ∧ ∃ d, rows[i]? = some d ∧ d[names.findIdx (· == name)]? = some v

theorem getElem?_findIdx (names : List String) (name : String) (h : name ∈ names) :
    names[names.findIdx (· == name)]? = some name := by
  have hlt : names.findIdx (· == name) < names.length := List.findIdx_lt_length_of_exists ⟨name, h, by simp⟩
  rw [List.getElem?_eq_getElem hlt]
  have := List.findIdx_getElem (w := hlt)
  rw [beq_iff_eq] at this
  rw [this]

theorem findIdx_append (names : List String) (name x : String) (h : name ∈ names) :
    (names ++ [x]).findIdx (· == name) = names.findIdx (· == name) := by
  have hlt : names.findIdx (· == name) < names.length := List.findIdx_lt_length_of_exists ⟨name, h, by simp⟩
  rw [List.findIdx_append, if_pos hlt]

theorem HasData.define (rows : List (List (List K))) (names : List String) (i : Nat) (name x : String) (v : List K)
    (h : HasData rows names i name v) : HasData rows (names ++ [x]) i name v := by
  obtain ⟨h1, d, h2, h3⟩ := h
  exact ⟨List.mem_append_left _ h1, d, h2, by rw [findIdx_append _ _ _ h1]; exact h3⟩

theorem setData_get (d : List (List K)) (j : Nat) (v : List K) : (setData d j v)[j]? = some v := by
  rw [setData, List.getElem?_set_self]
  split
  · rw [List.length_append, List.length_replicate]; omega
  · omega

theorem setData_get_ne (d : List (List K)) (j k : Nat) (v w : List K) (h : k ≠ j) (hw : d[k]? = some w) :
    (setData d j v)[k]? = some w := by
  have hk := (List.getElem?_eq_some_iff.mp hw).1
  rw [setData, List.getElem?_set_ne (fun e => h e.symm)]
  split
  · rw [List.getElem?_append_left hk]; exact hw
  · exact hw

theorem HasData.set_hit (rows : List (List (List K))) (names : List String) (i : Nat) (name : String) (v : List K)
    (d : List (List K)) (hn : name ∈ names) (hd : rows[i]? = some d) :
    HasData (rows.set i (setData d (names.findIdx (· == name)) v)) names i name v := by
  refine ⟨hn, setData d (names.findIdx (· == name)) v, ?_, setData_get _ _ _⟩
  rw [List.getElem?_set_self (List.getElem?_eq_some_iff.mp hd).1]

theorem HasData.set_frame (rows : List (List (List K))) (names : List String) (i i' : Nat) (name name' : String)
    (v w : List K) (d : List (List K)) (hn : name ∈ names) (hd : rows[i]? = some d)
    (hne : name' ≠ name ∨ i' ≠ i) (h : HasData rows names i' name' w) :
    HasData (rows.set i (setData d (names.findIdx (· == name)) v)) names i' name' w := by
  obtain ⟨h1, e, h2, h3⟩ := h
  by_cases hi : i' = i
  · subst hi
    rw [hd] at h2
    cases h2
    refine ⟨h1, _, by rw [List.getElem?_set_self (List.getElem?_eq_some_iff.mp hd).1], setData_get_ne _ _ _ _ _ ?_ h3⟩
    intro he
    have e1 := getElem?_findIdx names name' h1
    rw [he, getElem?_findIdx names name hn] at e1
    cases e1
    rcases hne with h | h <;> exact h rfl
  · exact ⟨h1, e, by rw [List.getElem?_set_ne (fun e => hi e.symm)]; exact h2, h3⟩

/-- The value of the data field `name` at point `i`. -/
def Grid.HasPointData (g : Grid K) (i : Nat) (name : String) (v : List K) : Prop :=
  HasData (g.points.map Point.data) g.pointDataNames i name v

/-- The value of the data field `name` of cell `i`. -/
def Grid.HasCellData (g : Grid K) (i : Nat) (name : String) (v : List K) : Prop :=
  HasData (g.cells.map Cell.data) g.cellDataNames i name v

/-- Between two grids exactly these values of the point data field `name` were written. -/
structure PointWrites (name : String) (ws : List (Nat × List K)) (g g' : Grid K) : Prop where
  cells : g'.cells = g.cells ∧ g'.cellDataNames = g.cellDataNames
  coords : g'.points.map Point.coords = g.points.map Point.coords
  names : ∀ n ∈ g.pointDataNames, n ∈ g'.pointDataNames
  hit : ∀ w ∈ ws, g'.HasPointData w.1 name w.2
  frame : ∀ i n v, g.HasPointData i n v → (n ≠ name ∨ i ∉ ws.map Prod.fst) → g'.HasPointData i n v

/-- Between two grids exactly these values of the cell data field `name` were written. -/
structure CellWrites (name : String) (ws : List (Nat × List K)) (g g' : Grid K) : Prop where
  points : g'.points = g.points ∧ g'.pointDataNames = g.pointDataNames
  geometry : g'.cells.map (fun c => (c.pointIds, c.cellType)) = g.cells.map (fun c => (c.pointIds, c.cellType))
  names : ∀ n ∈ g.cellDataNames, n ∈ g'.cellDataNames
  hit : ∀ w ∈ ws, g'.HasCellData w.1 name w.2
  frame : ∀ i n v, g.HasCellData i n v → (n ≠ name ∨ i ∉ ws.map Prod.fst) → g'.HasCellData i n v

theorem PointWrites.refl (name : String) (g : Grid K) : PointWrites name [] g g :=
  ⟨⟨rfl, rfl⟩, rfl, fun _ h => h, (fun _ h => absurd h List.not_mem_nil), fun _ _ _ h _ => h⟩

theorem CellWrites.refl (name : String) (g : Grid K) : CellWrites name [] g g :=
  ⟨⟨rfl, rfl⟩, rfl, fun _ h => h, (fun _ h => absurd h List.not_mem_nil), fun _ _ _ h _ => h⟩

theorem PointWrites.trans {name : String} {ws ws' : List (Nat × List K)} {g g1 g2 : Grid K}
    (h1 : PointWrites name ws g g1) (h2 : PointWrites name ws' g1 g2)
    (hd : ∀ w ∈ ws, w.1 ∉ ws'.map Prod.fst) : PointWrites name (ws ++ ws') g g2 := by
  refine ⟨⟨h2.cells.1.trans h1.cells.1, h2.cells.2.trans h1.cells.2⟩, h2.coords.trans h1.coords,
    fun n hn => h2.names n (h1.names n hn), fun w hw => ?_, fun i n v h hne => ?_⟩
  · rcases List.mem_append.mp hw with hw | hw
    · exact h2.frame _ _ _ (h1.hit w hw) (Or.inr (hd w hw))
    · exact h2.hit w hw
  · rw [List.map_append, List.mem_append, not_or] at hne
    refine h2.frame _ _ _ (h1.frame _ _ _ h ?_) ?_
    · exact hne.imp id fun h => h.1
    · exact hne.imp id fun h => h.2

theorem CellWrites.trans {name : String} {ws ws' : List (Nat × List K)} {g g1 g2 : Grid K}
    (h1 : CellWrites name ws g g1) (h2 : CellWrites name ws' g1 g2)
    (hd : ∀ w ∈ ws, w.1 ∉ ws'.map Prod.fst) : CellWrites name (ws ++ ws') g g2 := by
  refine ⟨⟨h2.points.1.trans h1.points.1, h2.points.2.trans h1.points.2⟩, h2.geometry.trans h1.geometry,
    fun n hn => h2.names n (h1.names n hn), fun w hw => ?_, fun i n v h hne => ?_⟩
  · rcases List.mem_append.mp hw with hw | hw
    · exact h2.frame _ _ _ (h1.hit w hw) (Or.inr (hd w hw))
    · exact h2.hit w hw
  · rw [List.map_append, List.mem_append, not_or] at hne
    refine h2.frame _ _ _ (h1.frame _ _ _ h ?_) ?_
    · exact hne.imp id fun h => h.1
    · exact hne.imp id fun h => h.2

theorem PointWrites.length {name : String} {ws : List (Nat × List K)} {g g' : Grid K}
    (h : PointWrites name ws g g') : g'.points.length = g.points.length := by
  have := congrArg List.length h.coords
  simpa using this

theorem CellWrites.length {name : String} {ws : List (Nat × List K)} {g g' : Grid K}
    (h : CellWrites name ws g g') : g'.cells.length = g.cells.length := by
  have := congrArg List.length h.geometry
  simpa using this

theorem definePointData_writes (g : Grid K) (name : String) :
    PointWrites name [] g (g.definePointData name) ∧ name ∈ (g.definePointData name).pointDataNames := by
  rw [Grid.definePointData]
  split
  · next h => exact ⟨PointWrites.refl name g, h⟩
  · exact ⟨⟨⟨rfl, rfl⟩, rfl, fun n hn => List.mem_append_left _ hn, fun _ h => absurd h List.not_mem_nil,
      fun i n v h _ => HasData.define _ _ _ _ _ _ h⟩, List.mem_append_right _ List.mem_cons_self⟩

theorem defineCellData_writes (g : Grid K) (name : String) :
    CellWrites name [] g (g.defineCellData name) ∧ name ∈ (g.defineCellData name).cellDataNames := by
  rw [Grid.defineCellData]
  split
  · next h => exact ⟨CellWrites.refl name g, h⟩
  · exact ⟨⟨⟨rfl, rfl⟩, rfl, fun n hn => List.mem_append_left _ hn, fun _ h => absurd h List.not_mem_nil,
      fun i n v h _ => HasData.define _ _ _ _ _ _ h⟩, List.mem_append_right _ List.mem_cons_self⟩

theorem map_set_eq {α β : Type} (f : α → β) (l : List α) (i : Nat) (a b : α) (h : l[i]? = some a) (hf : f b = f a) :
    (l.set i b).map f = l.map f := by
  rw [List.map_set, hf]
  apply List.ext_getElem?
  intro k
  by_cases hk : i = k
  · subst hk
    have hlt := (List.getElem?_eq_some_iff.mp h).1
    rw [List.getElem?_set_self (by simpa using hlt), List.getElem?_map, h]; rfl
  · rw [List.getElem?_set_ne hk]

theorem setPointData_writes (g : Grid K) (i : Nat) (name : String) (v : List K) (hn : name ∈ g.pointDataNames)
    (hi : i < g.points.length) :
    ∃ g', g.setPointData i name v = .ok g' ∧ PointWrites name [(i, v)] g g' := by
  have hp := List.getElem?_eq_getElem hi
  refine ⟨{ g with points := g.points.set i { g.points[i] with
      data := setData g.points[i].data (g.pointDataNames.findIdx (· == name)) v } }, ?_, ?_⟩
  · rw [Grid.setPointData, dataIndex, if_pos hn, Res.bind_ok', hp]
  · have hrow : (g.points.map Point.data)[i]? = some g.points[i].data := by rw [List.getElem?_map, hp]; rfl
    refine ⟨⟨rfl, rfl⟩, map_set_eq _ _ _ _ _ hp rfl, fun _ h => h, fun w hw => ?_, fun j n w h hne => ?_⟩
    · rw [List.mem_singleton] at hw
      subst hw
      have := HasData.set_hit _ _ i name v _ hn hrow
      rw [Grid.HasPointData, List.map_set]
      exact this
    · have := HasData.set_frame _ _ i j name n v w _ hn hrow (hne.imp id fun h => by simpa using h) h
      rw [Grid.HasPointData, List.map_set]
      exact this

theorem setCellData_writes (g : Grid K) (i : Nat) (name : String) (v : List K) (hn : name ∈ g.cellDataNames)
    (hi : i < g.cells.length) :
    ∃ g', g.setCellData i name v = .ok g' ∧ CellWrites name [(i, v)] g g' := by
  have hp := List.getElem?_eq_getElem hi
  refine ⟨{ g with cells := g.cells.set i { g.cells[i] with
      data := setData g.cells[i].data (g.cellDataNames.findIdx (· == name)) v } }, ?_, ?_⟩
  · rw [Grid.setCellData, dataIndex, if_pos hn, Res.bind_ok', hp]
  · have hrow : (g.cells.map Cell.data)[i]? = some g.cells[i].data := by rw [List.getElem?_map, hp]; rfl
    refine ⟨⟨rfl, rfl⟩, map_set_eq _ _ _ _ _ hp rfl, fun _ h => h, fun w hw => ?_, fun j n w h hne => ?_⟩
    · rw [List.mem_singleton] at hw
      subst hw
      have := HasData.set_hit _ _ i name v _ hn hrow
      rw [Grid.HasCellData, List.map_set]
      exact this
    · have := HasData.set_frame _ _ i j name n v w _ hn hrow (hne.imp id fun h => by simpa using h) h
      rw [Grid.HasCellData, List.map_set]
      exact this

end NuTo.Visualize
