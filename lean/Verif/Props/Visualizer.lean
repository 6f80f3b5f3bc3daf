/-
C58: visualised data is attached to the right cells and points.
-/
import Verif.Lemmas.Visualize
import Verif.Lemmas.MatrixAssembler
import Mathlib.Data.List.Induction
import Mathlib.Tactic.Ring
import Mathlib.Tactic.NormNum
import Mathlib.Data.Rat.Defs
import Mathlib.Algebra.Field.Rat
import Mathlib.Algebra.BigOperators.Group.List.Basic

namespace NuTo.Visualize

variable {K D : Type} [Field K]

/-! ### What is drawn for a cell -/

/-- Specification: the vector with zeros for missing components. -/
def fill3 (v : List K) : K × K × K := (v.getD 0 0, v.getD 1 0, v.getD 2 0)

/-- Specification: the local coordinates of the points drawn for one cell and the grid cells, given by local point numbers. -/
def layout (h : Handler K) (s : Shape) : List (List K) × List (List Nat × CellType) :=
  match h, s with
  | .average, .line => ([[-1], [1]], [([0, 1], .line)])
  | .average, .quadrilateral => ([[-1, -1], [1, -1], [1, 1], [-1, 1]], [([0, 1, 2, 3], .quad)])
  | .average, .triangle => ([[0, 0], [1, 0], [0, 1]], [([0, 1, 2], .triangle)])
  | .average, .tetrahedron => ([[0, 0, 0], [1, 0, 0], [0, 1, 0], [0, 0, 1]], [([0, 1, 2, 3], .tetraeder)])
  | .average, .prism =>
    ([[0, 0, -1], [1, 0, -1], [0, 1, -1], [0, 0, 1], [1, 0, 1], [0, 1, 1]], [([0, 1, 2, 3, 4, 5], .wedge)])
  | .average, _ => ([], [])
  | .voronoi pts cells _, _ => (pts, cells)
  | .point ips, _ => (ips, [])

/-- Specification: the handler can draw the cell: known shape for averages, corner numbers of existing
points, at most three coordinates. -/
def Drawable (h : Handler K) (c : CellI K D) : Prop :=
  (h = .average → c.shape ≠ .hexahedron ∧ c.shape ≠ .pyramid) ∧
  (∀ l ∈ (layout h c.shape).2, ∀ i ∈ l.1, i < (layout h c.shape).1.length) ∧
  ∀ x ∈ (layout h c.shape).1, (c.interpolate x).length ≤ 3

/-- Specification: the handler has not been used. -/
def Fresh : Handler K → Prop
  | .voronoi _ _ sub => sub = []
  | _ => True

/-- The points of a cell. -/
def drawnPoints (h : Handler K) (c : CellI K D) : List (Point K) :=
  (layout h c.shape).1.map fun x => ⟨fill3 (c.interpolate x), []⟩

/-- The grid cells of a cell whose points start at `base`. -/
def drawnCells (h : Handler K) (base : Nat) (c : CellI K D) : List (Cell K) :=
  (layout h c.shape).2.map fun l => ⟨l.1.map fun i => ((base + i : Nat) : Int), l.2, []⟩

/-- The handler with other sub cells. -/
def Handler.withSub (h : Handler K) (sub : List (List Nat)) : Handler K :=
  match h with
  | .voronoi pts cells _ => .voronoi pts cells sub
  | h => h

omit [Field K] in
theorem to3D_ok [Zero K] (v : List K) (h : v.length ≤ 3) : to3D v = .ok (v.getD 0 0, v.getD 1 0, v.getD 2 0) := by
  match v, h with
  | [], _ => rfl
  | [_], _ => rfl
  | [_, _], _ => rfl
  | [_, _, _], _ => rfl

theorem addPoints_eq (c : CellI K D) (g : Grid K) (xs : List (List K)) (h : ∀ x ∈ xs, (c.interpolate x).length ≤ 3) :
    addPoints c g xs = .ok ({ g with points := g.points ++ xs.map fun x => ⟨fill3 (c.interpolate x), []⟩ },
      List.range' g.points.length xs.length) := by
  have key : ∀ (xs : List (List K)) (g : Grid K) (ids : List Nat), (∀ x ∈ xs, (c.interpolate x).length ≤ 3) →
      Res.foldlM (fun (s : Grid K × List Nat) (x : List K) =>
        (s.1.addPoint (c.interpolate x)).bind fun r => .ok (r.1, s.2 ++ [r.2])) (g, ids) xs =
      .ok ({ g with points := g.points ++ xs.map fun x => ⟨fill3 (c.interpolate x), []⟩ },
        ids ++ List.range' g.points.length xs.length) := by
    intro xs
    induction xs with
    | nil => intro g ids _; simp
    | cons x t ih =>
      intro g ids h
      rw [Res.foldlM_cons]
      dsimp only
      rw [Grid.addPoint, to3D_ok _ (h x List.mem_cons_self), Res.bind_ok', Res.bind_ok', Res.bind_ok',
        ih _ _ fun y hy => h y (List.mem_cons_of_mem _ hy)]
      simp [fill3, List.range'_succ]
  rw [addPoints, key xs g [] h, List.nil_append]

theorem voronoiIds_eq (n base : Nat) (corners : List Nat) (h : ∀ i ∈ corners, i < n) :
    voronoiIds (List.range' base n) corners = .ok (corners.map fun i => ((base + i : Nat) : Int)) := by
  have key : ∀ (corners : List Nat) (ids : List Int), (∀ i ∈ corners, i < n) →
      Res.foldlM (fun (ids : List Int) (i : Nat) =>
        match (List.range' base n)[i]? with
        | none => .ub
        | some p => .ok (ids ++ [(p : Int)])) ids corners =
      .ok (ids ++ corners.map fun i => ((base + i : Nat) : Int)) := by
    intro corners
    induction corners with
    | nil => intro ids _; simp
    | cons i t ih =>
      intro ids h
      have hi : (List.range' base n)[i]? = some (base + i) := by
        rw [List.getElem?_range' (h i List.mem_cons_self)]; simp
      rw [Res.foldlM_cons, hi]
      dsimp only
      rw [Res.bind_ok', ih _ fun j hj => h j (List.mem_cons_of_mem _ hj)]
      simp
  exact (key corners [] h).trans (by rw [List.nil_append])

omit [Field K] in
theorem addCell_eq (g : Grid K) (ids : List Int) (t : CellType) (h : ∀ i ∈ ids, i < g.points.length) :
    g.addCell ids t = .ok ({ g with cells := g.cells ++ [⟨ids, t, []⟩] }, g.cells.length) := by
  rw [Grid.addCell, if_neg]
  rw [List.any_eq_true]
  rintro ⟨i, hi, hle⟩
  rw [decide_eq_true_eq] at hle
  exact absurd (h i hi) (by omega)

omit [Field K] in
theorem voronoiCells_eq (base n : Nat) (g : Grid K) (cells : List (List Nat × CellType))
    (h : ∀ l ∈ cells, ∀ i ∈ l.1, i < n) (hg : base + n ≤ g.points.length) :
    voronoiCells (List.range' base n) g cells =
      .ok ({ g with cells := g.cells ++ cells.map fun l => ⟨l.1.map fun i => ((base + i : Nat) : Int), l.2, []⟩ },
        List.range' g.cells.length cells.length) := by
  have key : ∀ (cells : List (List Nat × CellType)) (g : Grid K) (ids : List Nat),
      (∀ l ∈ cells, ∀ i ∈ l.1, i < n) → base + n ≤ g.points.length →
      Res.foldlM (fun (s : Grid K × List Nat) (v : List Nat × CellType) =>
        (voronoiIds (List.range' base n) v.1).bind fun ids =>
          (s.1.addCell ids v.2).bind fun r => .ok (r.1, s.2 ++ [r.2])) (g, ids) cells =
      .ok ({ g with cells := g.cells ++ cells.map fun l => ⟨l.1.map fun i => ((base + i : Nat) : Int), l.2, []⟩ },
        ids ++ List.range' g.cells.length cells.length) := by
    intro cells
    induction cells with
    | nil => intro g ids _ _; simp
    | cons l t ih =>
      intro g ids h hg
      rw [Res.foldlM_cons]
      dsimp only
      rw [voronoiIds_eq _ _ _ (h l List.mem_cons_self), Res.bind_ok', addCell_eq, Res.bind_ok', Res.bind_ok']
      · dsimp only
        refine (ih _ _ (fun m hm => h m (List.mem_cons_of_mem _ hm)) (by exact hg)).trans ?_
        simp [List.range'_succ]
      · intro i hi
        obtain ⟨j, hj, rfl⟩ := List.mem_map.mp hi
        have := h l List.mem_cons_self j hj
        omega
  rw [voronoiCells, key cells g [] h hg, List.nil_append]

theorem averageGeometry_eq (c : CellI K D) (h : c.shape ≠ .hexahedron ∧ c.shape ≠ .pyramid) :
    ∃ t, averageGeometry (K := K) c.shape = .ok ((layout (.average : Handler K) c.shape).1, t) ∧
      (layout (.average : Handler K) c.shape).2 =
        [(List.range (layout (.average : Handler K) c.shape).1.length, t)] := by
  cases hs : c.shape with
  | line => exact ⟨_, rfl, rfl⟩
  | quadrilateral => exact ⟨_, rfl, rfl⟩
  | triangle => exact ⟨_, rfl, rfl⟩
  | tetrahedron => exact ⟨_, rfl, rfl⟩
  | prism => exact ⟨_, rfl, rfl⟩
  | hexahedron => exact absurd hs h.1
  | pyramid => exact absurd hs h.2

/-- The sub cells after one more cell. -/
theorem writeGeometry_eq (h : Handler K) (sub : List (List Nat)) (c : CellI K D) (g : Grid K) (hd : Drawable h c) :
    ∃ sub', sub' = sub ++ [List.range' g.cells.length (layout h c.shape).2.length] ∧
    writeGeometry (h.withSub sub) c g = .ok (h.withSub sub',
      { g with
        points := g.points ++ drawnPoints h c
        cells := g.cells ++ drawnCells h g.points.length c },
      List.range' g.points.length (layout h c.shape).1.length) := by
  obtain ⟨h1, h2, h3⟩ := hd
  refine ⟨_, rfl, ?_⟩
  cases h with
  | average =>
    obtain ⟨t, ht, hl⟩ := averageGeometry_eq c (h1 rfl)
    show ((averageGeometry (K := K) c.shape).bind _) = _
    rw [ht, Res.bind_ok', addPoints_eq c g _ h3, Res.bind_ok', addCell_eq, Res.bind_ok']
    · rw [drawnCells, hl, drawnPoints]
      simp [Handler.withSub, List.range'_eq_map_range]
    · intro i hi
      obtain ⟨j, hj, rfl⟩ := List.mem_map.mp hi
      rw [List.mem_range'_1] at hj
      rw [List.length_append, List.length_map]
      omega
  | voronoi pts cells s =>
    show ((addPoints c g pts).bind _) = _
    rw [addPoints_eq c g pts h3, Res.bind_ok']
    dsimp only
    rw [voronoiCells_eq g.points.length pts.length _ cells h2 (by simp), Res.bind_ok']
    rfl
  | point ips =>
    show ((addPoints c g ips).bind _) = _
    rw [addPoints_eq c g ips h3, Res.bind_ok', drawnCells, drawnPoints]
    simp [Handler.withSub, layout]

/-- Specification: total of `f` over the first `k` cells. -/
def before (f : CellI K D → Nat) (cells : List (CellI K D)) (k : Nat) : Nat := ((cells.take k).map f).sum

omit [Field K] in
theorem before_succ (f : CellI K D → Nat) (cells : List (CellI K D)) (k : Nat) (c : CellI K D) (h : cells[k]? = some c) :
    before f cells (k + 1) = before f cells k + f c := by
  rw [before, List.take_add_one, h, Option.toList_some, List.map_append, List.sum_append]
  simp [before]

omit [Field K] in
theorem before_append (f : CellI K D → Nat) (cells rest : List (CellI K D)) (k : Nat) (h : k ≤ cells.length) :
    before f (cells ++ rest) k = before f cells k := by
  rw [before, List.take_append_of_le_length h, before]

/-- Number of points and of grid cells drawn for a cell. -/
def numPoints (h : Handler K) (c : CellI K D) : Nat := (layout h c.shape).1.length
def numCells (h : Handler K) (c : CellI K D) : Nat := (layout h c.shape).2.length

/-- The state after writing the geometry of `cs`. -/
structure Drawn (h : Handler K) (cs : List (CellI K D)) (v : Visualizer K D) : Prop where
  numPoints : v.grid.points.length = before (numPoints h) cs cs.length
  numCells : v.grid.cells.length = before (numCells h) cs cs.length
  names : v.grid.pointDataNames = [] ∧ v.grid.cellDataNames = []
  ids : v.pointIds.length = cs.length
  sub : ∃ sub, v.handler = h.withSub sub ∧ sub.length = cs.length ∧ ∀ k c, cs[k]? = some c →
    sub[k]? = some (List.range' (before (Visualize.numCells h) cs k) (Visualize.numCells h c))
  geometry : ∀ k c, cs[k]? = some c →
    v.pointIds[k]? = some (List.range' (before (Visualize.numPoints h) cs k) (Visualize.numPoints h c)) ∧
    (∀ j x, (layout h c.shape).1[j]? = some x →
      v.grid.points[before (Visualize.numPoints h) cs k + j]? = some ⟨fill3 (c.interpolate x), []⟩) ∧
    ∀ j l, (layout h c.shape).2[j]? = some l →
      v.grid.cells[before (Visualize.numCells h) cs k + j]? =
        some ⟨l.1.map fun i => ((before (Visualize.numPoints h) cs k + i : Nat) : Int), l.2, []⟩

theorem layout_withSub (h : Handler K) (sub : List (List Nat)) (s : Shape) : layout (h.withSub sub) s = layout h s := by
  cases h <;> rfl

theorem construct_drawn (all cs : List (CellI K D)) (h : Handler K) (hf : Fresh h) (hd : ∀ c ∈ cs, Drawable h c) :
    ∃ v, Res.foldlM (fun (v : Visualizer K D) (c : CellI K D) =>
      (writeGeometry v.handler c v.grid).bind fun r =>
        .ok { v with pointIds := v.pointIds ++ [r.2.2], handler := r.1, grid := r.2.1 })
      ⟨all, [], h, Grid.empty⟩ cs = .ok v ∧ v.cells = all ∧ Drawn h cs v := by
  induction cs using List.reverseRecOn with
  | nil =>
    refine ⟨_, rfl, rfl, ⟨rfl, rfl, ⟨rfl, rfl⟩, rfl, ⟨[], ?_, rfl, fun k c hk => by cases hk⟩, fun k c hk => by cases hk⟩⟩
    cases h with
    | voronoi p c s => cases hf; rfl
    | average => rfl
    | point => rfl
  | append_singleton cs c ih =>
    obtain ⟨v, hv, hall, hD⟩ := ih fun c hc => hd c (List.mem_append_left _ hc)
    obtain ⟨sub, hs1, hs2, hs3⟩ := hD.sub
    obtain ⟨sub', hsub, hw⟩ := writeGeometry_eq h sub c v.grid (hd c (by simp))
    have hlp : (drawnPoints h c).length = numPoints h c := by rw [drawnPoints, List.length_map]; rfl
    have hlc : (drawnCells h v.grid.points.length c).length = numCells h c := by
      rw [drawnCells, List.length_map]; rfl
    have hbl : ∀ f : CellI K D → Nat, before f (cs ++ [c]) (cs ++ [c]).length = before f cs cs.length + f c := by
      intro f
      rw [List.length_append, List.length_singleton,
        before_succ f _ _ c (by rw [List.getElem?_append_right (by omega)]; simp),
        before_append _ _ _ _ (Nat.le_refl _)]
    refine ⟨{ v with
        pointIds := v.pointIds ++ [List.range' v.grid.points.length (layout h c.shape).1.length]
        handler := h.withSub sub'
        grid := { v.grid with
          points := v.grid.points ++ drawnPoints h c
          cells := v.grid.cells ++ drawnCells h v.grid.points.length c } }, ?_, hall, ?_⟩
    · rw [Res.foldlM_append, hv, Res.bind_ok', Res.foldlM_cons, hs1, hw, Res.bind_ok', Res.bind_ok', Res.foldlM_nil]
    · refine ⟨?_, ?_, hD.names, ?_, ⟨sub', rfl, ?_, ?_⟩, ?_⟩
      · show (v.grid.points ++ drawnPoints h c).length = _
        rw [hbl, List.length_append, hlp, hD.numPoints]
      · show (v.grid.cells ++ drawnCells h v.grid.points.length c).length = _
        rw [hbl, List.length_append, hlc, hD.numCells]
      · simp [hD.ids]
      · rw [hsub]; simp [hs2]
      · intro k c' hk
        have hkl := (List.getElem?_eq_some_iff.mp hk).1
        rw [List.length_append, List.length_singleton] at hkl
        rw [before_append _ _ _ _ (by omega), hsub]
        by_cases hlt : k < cs.length
        · rw [List.getElem?_append_left hlt] at hk
          rw [List.getElem?_append_left (by omega)]
          exact hs3 k c' hk
        · have hke : k = cs.length := by omega
          subst hke
          rw [List.getElem?_append_right (by omega), Nat.sub_self] at hk
          cases hk
          rw [List.getElem?_append_right (by omega), hs2, Nat.sub_self, ← hD.numCells]
          rfl
      · intro k c' hk
        have hkl := (List.getElem?_eq_some_iff.mp hk).1
        rw [List.length_append, List.length_singleton] at hkl
        rw [before_append _ _ _ _ (by omega), before_append _ _ _ _ (by omega)]
        dsimp only
        by_cases hlt : k < cs.length
        · rw [List.getElem?_append_left hlt] at hk
          obtain ⟨g1, g2, g3⟩ := hD.geometry k c' hk
          refine ⟨?_, fun j x hj => ?_, fun j l hj => ?_⟩
          · rw [List.getElem?_append_left (by rw [hD.ids]; exact hlt)]; exact g1
          · have := g2 j x hj
            rw [List.getElem?_append_left (List.getElem?_eq_some_iff.mp this).1]; exact this
          · have := g3 j l hj
            rw [List.getElem?_append_left (List.getElem?_eq_some_iff.mp this).1]; exact this
        · have hke : k = cs.length := by omega
          subst hke
          rw [List.getElem?_append_right (by omega), Nat.sub_self] at hk
          cases hk
          refine ⟨?_, fun j x hj => ?_, fun j l hj => ?_⟩
          · rw [List.getElem?_append_right (by rw [hD.ids]), hD.ids, Nat.sub_self, ← hD.numPoints]; rfl
          · rw [List.getElem?_append_right (by rw [hD.numPoints]; omega), hD.numPoints, Nat.add_sub_cancel_left,
              drawnPoints, List.getElem?_map, hj]
            rfl
          · rw [List.getElem?_append_right (by rw [hD.numCells]; omega), hD.numCells, Nat.add_sub_cancel_left,
              drawnCells, List.getElem?_map, hj, hD.numPoints]
            rfl

/-- Loops whose steps write disjoint ranges. -/
theorem writes_loop {C G V : Type} (W : List (Nat × V) → G → G → Prop) (Q : G → Prop)
    (hrefl : ∀ g, W [] g g)
    (htrans : ∀ ws ws' g g1 g2, W ws g g1 → W ws' g1 g2 → (∀ w ∈ ws, w.1 ∉ ws'.map Prod.fst) → W (ws ++ ws') g g2)
    (hQ : ∀ ws g g', Q g → W ws g g' → Q g')
    (f : G → C × Nat → Res G) (ws : C → Nat → List (Nat × V)) (lo : Nat → Nat) (cells : List C)
    (hstep : ∀ g k c, cells[k]? = some c → Q g → ∃ g', f g (c, k) = .ok g' ∧ W (ws c k) g g')
    (hlo : ∀ k c, cells[k]? = some c → lo k ≤ lo (k + 1) ∧ ∀ w ∈ ws c k, lo k ≤ w.1 ∧ w.1 < lo (k + 1))
    (g : G) (hg : Q g) :
    ∃ g', Res.foldlM f g cells.zipIdx = .ok g' ∧ Q g' ∧ W (cells.zipIdx.flatMap fun ck => ws ck.1 ck.2) g g' ∧
      ∀ w ∈ (cells.zipIdx.flatMap fun ck => ws ck.1 ck.2), w.1 < lo cells.length := by
  induction cells using List.reverseRecOn with
  | nil => exact ⟨g, rfl, hg, hrefl g, fun w hw => absurd hw List.not_mem_nil⟩
  | append_singleton cs c ih =>
    have hpre : ∀ k d, cs[k]? = some d → (cs ++ [c])[k]? = some d := fun k d hk => by
      rw [List.getElem?_append_left (List.getElem?_eq_some_iff.mp hk).1]; exact hk
    have hlast : (cs ++ [c])[cs.length]? = some c := by rw [List.getElem?_append_right (by omega)]; simp
    obtain ⟨g1, h1, h2, h3, h4⟩ := ih (fun g k d hk => hstep g k d (hpre k d hk)) fun k d hk => hlo k d (hpre k d hk)
    obtain ⟨g2, h5, h6⟩ := hstep g1 cs.length c hlast h2
    obtain ⟨l1, l2⟩ := hlo cs.length c hlast
    have hz : (cs ++ [c]).zipIdx = cs.zipIdx ++ [(c, cs.length)] := by rw [List.zipIdx_append]; simp
    have hfm : ((cs ++ [c]).zipIdx.flatMap fun ck => ws ck.1 ck.2) =
        (cs.zipIdx.flatMap fun ck => ws ck.1 ck.2) ++ ws c cs.length := by rw [hz, List.flatMap_append]; simp
    refine ⟨g2, ?_, hQ _ _ _ h2 h6, ?_, ?_⟩
    · rw [hz, Res.foldlM_append, h1, Res.bind_ok', Res.foldlM_cons, h5, Res.bind_ok', Res.foldlM_nil]
    · rw [hfm]
      refine htrans _ _ _ _ _ h3 h6 fun w hw hm => ?_
      obtain ⟨w', hw', he⟩ := List.mem_map.mp hm
      have e1 := h4 w hw
      have e2 := (l2 w' hw').1
      omega
    · intro w hw
      rw [List.length_append, List.length_singleton]
      rw [hfm] at hw
      rcases List.mem_append.mp hw with hw | hw
      · have := h4 w hw; omega
      · exact (l2 w hw).2

omit [Field K] in
theorem setCells_writes (name : String) (ws : List (Nat × List K)) (g : Grid K) (hn : name ∈ g.cellDataNames)
    (hk : (ws.map Prod.fst).Nodup) (hl : ∀ w ∈ ws, w.1 < g.cells.length) :
    ∃ g', setCells name g ws = .ok g' ∧ CellWrites name ws g g' := by
  induction ws generalizing g with
  | nil => exact ⟨g, rfl, CellWrites.refl name g⟩
  | cons w ws ih =>
    obtain ⟨g1, h1, h2⟩ := setCellData_writes g w.1 name w.2 hn (hl w List.mem_cons_self)
    rw [List.map_cons, List.nodup_cons] at hk
    obtain ⟨g2, h3, h4⟩ := ih g1 (h2.names _ hn) hk.2 fun u hu => by
      rw [h2.length]; exact hl u (List.mem_cons_of_mem _ hu)
    refine ⟨g2, ?_, ?_⟩
    · rw [setCells, Res.foldlM_cons, h1, Res.bind_ok']; exact h3
    · refine CellWrites.trans (ws := [w]) h2 h4 fun u hu => ?_
      rw [List.mem_singleton] at hu
      subst hu
      exact hk.1

omit [Field K] in
theorem setPointsAt_writes (name : String) (ws : List (Nat × List K)) (g : Grid K) (hn : name ∈ g.pointDataNames)
    (hk : (ws.map Prod.fst).Nodup) (hl : ∀ w ∈ ws, w.1 < g.points.length) :
    ∃ g', setPointsAt name g ws = .ok g' ∧ PointWrites name ws g g' := by
  induction ws generalizing g with
  | nil => exact ⟨g, rfl, PointWrites.refl name g⟩
  | cons w ws ih =>
    obtain ⟨g1, h1, h2⟩ := setPointData_writes g w.1 name w.2 hn (hl w List.mem_cons_self)
    rw [List.map_cons, List.nodup_cons] at hk
    obtain ⟨g2, h3, h4⟩ := ih g1 (h2.names _ hn) hk.2 fun u hu => by
      rw [h2.length]; exact hl u (List.mem_cons_of_mem _ hu)
    refine ⟨g2, ?_, ?_⟩
    · rw [setPointsAt, Res.foldlM_cons, h1, Res.bind_ok']; exact h3
    · refine PointWrites.trans (ws := [w]) h2 h4 fun u hu => ?_
      rw [List.mem_singleton] at hu
      subst hu
      exact hk.1

theorem foldlM_map_congr {S A B : Type} (f : S → A → Res S) (f' : S → B → Res S) (m : A → B) (l : List A)
    (h : ∀ a ∈ l, ∀ s, f s a = f' s (m a)) (s : S) : Res.foldlM f s l = Res.foldlM f' s (l.map m) := by
  induction l generalizing s with
  | nil => rfl
  | cons a t ih =>
    rw [List.map_cons, Res.foldlM_cons, Res.foldlM_cons, h a List.mem_cons_self]
    cases f' s (m a) with
    | ok x => exact ih (fun b hb => h b (List.mem_cons_of_mem _ hb)) x
    | throw => rfl
    | ub => rfl

omit [Field K] in
/-- The values at the points of one cell. -/
theorem setPoints_eq (name : String) (base : Nat) (val : List K → Res (List K)) (val' : List K → List K) (g : Grid K)
    (xs : List (List K)) (hv : ∀ x ∈ xs, val x = .ok (val' x)) :
    setPoints name (List.range' base xs.length) val g xs =
      setPointsAt name g (xs.zipIdx.map fun xi => (base + xi.2, val' xi.1)) := by
  rw [setPoints, setPointsAt]
  apply foldlM_map_congr
  rintro ⟨x, i⟩ hxi s
  have hi := List.mem_zipIdx' hxi
  have hx : x ∈ xs := by have := hi.2; rw [this]; exact List.getElem_mem _
  dsimp only
  rw [List.getElem?_range' hi.1, hv x hx, Nat.one_mul]
  rfl

/-- The state of a visualizer after construction and any data. -/
structure Ready (h : Handler K) (cs : List (CellI K D)) (v : Visualizer K D) : Prop where
  cells : v.cells = cs
  numPoints : v.grid.points.length = before (Visualize.numPoints h) cs cs.length
  numCells : v.grid.cells.length = before (Visualize.numCells h) cs cs.length
  sub : ∃ sub, v.handler = h.withSub sub ∧ ∀ k c, cs[k]? = some c →
    sub[k]? = some (List.range' (before (Visualize.numCells h) cs k) (Visualize.numCells h c))
  ids : ∀ k c, cs[k]? = some c →
    v.pointIds[k]? = some (List.range' (before (Visualize.numPoints h) cs k) (Visualize.numPoints h c))

omit [Field K] in
theorem before_mono (f : CellI K D → Nat) (cells : List (CellI K D)) (j k : Nat) (h : j ≤ k) :
    before f cells j ≤ before f cells k := by
  induction k, h using Nat.le_induction with
  | base => exact Nat.le_refl _
  | succ k _ ih =>
    refine Nat.le_trans ih ?_
    rw [before, before, List.take_add_one, List.map_append, List.sum_append]
    exact Nat.le_add_right _ _

omit [Field K] in
theorem before_le_total (f : CellI K D → Nat) (cells : List (CellI K D)) (k : Nat) (c : CellI K D)
    (h : cells[k]? = some c) : before f cells k + f c ≤ before f cells cells.length := by
  rw [← before_succ f cells k c h]
  exact before_mono _ _ _ _ (List.getElem?_eq_some_iff.mp h).1

omit [Field K] in
theorem keys_nodup (base : Nat) (xs : List (List K)) (val : List K → List K) :
    ((xs.zipIdx.map fun xi => (base + xi.2, val xi.1)).map Prod.fst).Nodup := by
  rw [List.map_map]
  have : (Prod.fst ∘ fun xi : List K × Nat => (base + xi.2, val xi.1)) = (fun i => base + i) ∘ Prod.snd := rfl
  rw [this, ← List.map_map, List.zipIdx_map_snd, ← List.range_eq_range']
  exact List.nodup_range.map fun a b h => Nat.add_left_cancel h

theorem coords_eq (h : Handler K) (sub : List (List Nat)) (c : CellI K D) (hd : Drawable h c) :
    (h.withSub sub).coords c = .ok (layout h c.shape).1 := by
  cases h with
  | average =>
    obtain ⟨t, ht, _⟩ := averageGeometry_eq c (hd.1 rfl)
    show ((averageGeometry (K := K) c.shape).bind _) = _
    rw [ht]
    rfl
  | voronoi => rfl
  | point => rfl

/-- Data written at the points of every cell. -/
theorem forCells_points (h : Handler K) (cells : List (CellI K D)) (v : Visualizer K D) (hv : Ready h cells v)
    (f : CellI K D → List Nat → Grid K → Res (Grid K)) (name : String)
    (val : CellI K D → List K → Res (List K)) (val' : CellI K D → List K → List K)
    (hval : ∀ c ∈ cells, ∀ x ∈ (layout h c.shape).1, val c x = .ok (val' c x))
    (hf : ∀ c ∈ cells, ∀ ids g, f c ids g = setPoints name ids (val c) (g.definePointData name) (layout h c.shape).1) :
    ∃ v', v.forCells f = .ok v' ∧ Ready h cells v' ∧
      ∃ ws, PointWrites name ws v.grid v'.grid ∧
        (∀ i x, (i, x) ∈ ws ↔ ∃ k c j p, cells[k]? = some c ∧ (layout h c.shape).1[j]? = some p ∧
          i = before (numPoints h) cells k + j ∧ x = val' c p) := by
  let ws : CellI K D → Nat → List (Nat × List K) := fun c k =>
    (layout h c.shape).1.zipIdx.map fun xi => (before (numPoints h) cells k + xi.2, val' c xi.1)
  have hmem : ∀ c k i x, (i, x) ∈ ws c k ↔ ∃ j p, (layout h c.shape).1[j]? = some p ∧
      i = before (numPoints h) cells k + j ∧ x = val' c p := by
    intro c k i x
    simp only [ws, List.mem_map, Prod.exists, List.mem_zipIdx_iff_getElem?, Prod.mk.injEq]
    constructor
    · rintro ⟨p, j, h1, h2, h3⟩; exact ⟨j, p, h1, h2.symm, h3.symm⟩
    · rintro ⟨j, p, h1, h2, h3⟩; exact ⟨p, j, h1, h2.symm, h3.symm⟩
  obtain ⟨g', h1, h2, h3, _⟩ := writes_loop (V := List K) (PointWrites name)
    (fun g => g.points.length = before (numPoints h) cells cells.length)
    (PointWrites.refl name) (fun _ _ _ _ _ a b c => a.trans b c) (fun _ _ _ a b => b.length.trans a)
    (fun (g : Grid K) (ci : CellI K D × Nat) =>
      match v.pointIds[ci.2]? with
      | none => .ub
      | some ids => f ci.1 ids g) ws (before (numPoints h) cells) cells
    (by
      intro g k c hk hg
      have hc : c ∈ cells := List.mem_of_getElem? hk
      obtain ⟨d1, d2⟩ := definePointData_writes g name
      obtain ⟨g', h1, h2⟩ := setPointsAt_writes name (ws c k) (g.definePointData name) d2 (keys_nodup _ _ _) (by
        rintro ⟨i, x⟩ hw
        obtain ⟨j, p, h1, h2, _⟩ := (hmem c k i x).mp hw
        have := before_le_total (numPoints h) cells k c hk
        have hj : j < numPoints h c := (List.getElem?_eq_some_iff.mp h1).1
        show i < _
        rw [d1.length, hg]
        omega)
      refine ⟨g', ?_, ?_⟩
      · dsimp only
        rw [hv.ids k c hk]
        dsimp only
        rw [hf c hc, numPoints, setPoints_eq _ _ _ (val' c) _ _ (hval c hc)]
        exact h1
      · exact PointWrites.trans (ws := []) d1 h2 fun w hw => absurd hw List.not_mem_nil)
    (by
      intro k c hk
      rw [before_succ _ _ _ c hk]
      refine ⟨Nat.le_add_right _ _, ?_⟩
      rintro ⟨i, x⟩ hw
      obtain ⟨j, p, h1, h2, _⟩ := (hmem c k i x).mp hw
      have hj : j < numPoints h c := (List.getElem?_eq_some_iff.mp h1).1
      constructor
      · show _ ≤ i; omega
      · show i < _; omega)
    v.grid hv.numPoints
  · refine ⟨{ v with grid := g' }, ?_, ?_, cells.zipIdx.flatMap fun ck => ws ck.1 ck.2, h3, ?_⟩
    · have e : v.forCells f = (Res.ok g').bind fun g => .ok { v with grid := g } := by
        rw [← h1, ← hv.cells]; rfl
      rw [e]; rfl
    · exact ⟨hv.cells, h2, by rw [← hv.numCells]; exact congrArg List.length h3.cells.1, hv.sub, hv.ids⟩
    · intro i x
      simp only [List.mem_flatMap, Prod.exists, List.mem_zipIdx_iff_getElem?]
      constructor
      · rintro ⟨c, k, hk, hm⟩
        obtain ⟨j, p, e⟩ := (hmem c k i x).mp hm
        exact ⟨k, c, j, p, hk, e⟩
      · rintro ⟨k, c, j, p, hk, e⟩
        exact ⟨c, k, hk, (hmem c k i x).mpr ⟨j, p, e⟩⟩

/-- Specification: the mean of vectors with `n` components. -/
def mean (n : Nat) (values : List (List K)) : List K :=
  (List.range n).map fun i => (values.map fun v => v.getD i 0).sum / (values.length : K)

theorem average_eq (n : Nat) (values : List (List K)) (hne : values ≠ []) (hl : ∀ v ∈ values, v.length = n) :
    average values = .ok (mean n values) := by
  have key : ∀ (values : List (List K)) (acc : List K), acc.length = n → (∀ v ∈ values, v.length = n) →
      Res.foldlM addVec acc values =
        .ok ((List.range n).map fun i => acc.getD i 0 + (values.map fun v => v.getD i 0).sum) := by
    intro values
    induction values with
    | nil =>
      intro acc ha _
      rw [Res.foldlM_nil]
      congr 1
      apply List.ext_getElem
      · simp [ha]
      · intro i h1 h2
        simp [h1]
    | cons v t ih =>
      intro acc ha hl
      have hv := hl v List.mem_cons_self
      rw [Res.foldlM_cons, addVec, Res.require, if_pos (by rw [ha, hv]), Res.bind_ok',
        ih _ (by simp [ha, hv]) fun u hu => hl u (List.mem_cons_of_mem _ hu)]
      congr 1
      apply List.map_congr_left
      intro i hi
      rw [List.mem_range] at hi
      rw [List.getD_eq_getElem _ _ (by simp [ha, hv, hi]), List.getD_eq_getElem _ _ (by omega), List.getElem_zipWith,
        List.map_cons, List.sum_cons, List.getD_eq_getElem v _ (by omega)]
      ring
  cases values with
  | nil => exact absurd rfl hne
  | cons v t =>
    rw [average, key _ _ (by simp [hl v List.mem_cons_self]) hl, Res.bind_ok', List.map_map, mean]
    congr 1
    apply List.map_congr_left
    intro i hi
    rw [List.mem_range] at hi
    have : (List.replicate v.length (0 : K)).getD i 0 = 0 := by
      rw [List.getD_eq_getElem _ _ (by simp [hl v List.mem_cons_self, hi])]; simp
    simp only [Function.comp_apply, this, zero_add]

theorem numCells_average (c : CellI K D) (hd : Drawable (.average : Handler K) c) :
    numCells (.average : Handler K) c = 1 := by
  obtain ⟨t, _, h⟩ := averageGeometry_eq c (hd.1 rfl)
  rw [numCells, h]; rfl

omit [Field K] in
theorem before_const (f : CellI K D → Nat) (n : Nat) (cells : List (CellI K D)) (h : ∀ c ∈ cells, f c = n) (k : Nat)
    (hk : k ≤ cells.length) : before f cells k = k * n := by
  rw [before, List.map_congr_left (g := fun _ => n) fun c hc => h c (List.mem_of_mem_take hc), List.map_const',
    List.sum_replicate, List.length_take, Nat.min_eq_left hk, smul_eq_mul]

/-- C58: constructing a visualizer draws the points and grid cells of every cell, in order; the `k`-th cell owns
the points and grid cells after those of the first `k` cells, its grid cells refer to its own points. -/
theorem C58_geometry (cells : List (CellI K D)) (h : Handler K) (hf : Fresh h) (hd : ∀ c ∈ cells, Drawable h c) :
    ∃ v, construct cells h = .ok v ∧ Ready h cells v ∧
      ∀ k c, cells[k]? = some c →
        (∀ j x, (layout h c.shape).1[j]? = some x →
          v.grid.points[before (numPoints h) cells k + j]? = some ⟨fill3 (c.interpolate x), []⟩) ∧
        ∀ j l, (layout h c.shape).2[j]? = some l →
          v.grid.cells[before (numCells h) cells k + j]? =
            some ⟨l.1.map fun i => ((before (numPoints h) cells k + i : Nat) : Int), l.2, []⟩ ∧
          ∀ i ∈ l.1, before (numPoints h) cells k + i < v.grid.points.length := by
  obtain ⟨v, h1, h2, h3⟩ := construct_drawn cells cells h hf hd
  obtain ⟨sub, s1, s2, s3⟩ := h3.sub
  refine ⟨v, h1, ⟨h2, h3.numPoints, h3.numCells, ⟨sub, s1, s3⟩, fun k c hk => (h3.geometry k c hk).1⟩, ?_⟩
  intro k c hk
  refine ⟨(h3.geometry k c hk).2.1, fun j l hj => ⟨(h3.geometry k c hk).2.2 j l hj, fun i hi => ?_⟩⟩
  have := (hd c (List.mem_of_getElem? hk)).2.1 l (List.mem_of_getElem? hj) i hi
  have := before_le_total (numPoints h) cells k c hk
  rw [h3.numPoints]
  have e : numPoints h c = (layout h c.shape).1.length := rfl
  omega

/-- C58: point data of all cells: at the points of the `k`-th cell the function of their coordinates is written and
nothing else changes. -/
theorem C58_point_data (h : Handler K) (cells : List (CellI K D)) (hd : ∀ c ∈ cells, Drawable h c)
    (v : Visualizer K D) (hv : Ready h cells v) (f : List K → List K) (name : String) :
    ∃ v', v.pointData f name = .ok v' ∧ Ready h cells v' ∧ ∃ ws, PointWrites name ws v.grid v'.grid ∧
      (∀ i x, (i, x) ∈ ws ↔ ∃ k c j p, cells[k]? = some c ∧ (layout h c.shape).1[j]? = some p ∧
        i = before (numPoints h) cells k + j ∧ x = f (c.interpolate p)) := by
  obtain ⟨sub, s1, _⟩ := hv.sub
  refine forCells_points h cells v hv _ name (fun c x => .ok (f (c.interpolate x))) (fun c x => f (c.interpolate x))
    (fun _ _ _ _ => rfl) fun c hc ids g => ?_
  rw [s1, Visualize.pointData, coords_eq h sub c (hd c hc)]
  rfl

/-- Specification: the drawn value of a dof with `num` components. -/
def drawnDof (h : Handler K) (num : Nat) (v : List K) : List K :=
  match h with
  | .point _ => v
  | _ => if num = 2 then v ++ [0] else v

/-- C58: dof values of all cells; two components are filled up with zero except by the point handler. -/
theorem C58_dof_values (h : Handler K) (cells : List (CellI K D)) (hd : ∀ c ∈ cells, Drawable h c)
    (v : Visualizer K D) (hv : Ready h cells v) (dof : D) (num : Nat) (name : String)
    (hnum : ∀ c ∈ cells, ∀ x, (c.interpolateDof x dof).length = num) :
    ∃ v', v.dofValues dof num name = .ok v' ∧ Ready h cells v' ∧ ∃ ws, PointWrites name ws v.grid v'.grid ∧
      (∀ i x, (i, x) ∈ ws ↔ ∃ k c j p, cells[k]? = some c ∧ (layout h c.shape).1[j]? = some p ∧
        i = before (numPoints h) cells k + j ∧
        x = drawnDof h num (c.interpolateDof p dof)) := by
  obtain ⟨sub, s1, _⟩ := hv.sub
  refine forCells_points h cells v hv _ name (fun c x => (h.withSub sub).dofValue num (c.interpolateDof x dof))
    (fun c x => drawnDof h num (c.interpolateDof x dof))
    (fun c hc x _ => ?_) fun c hc ids g => ?_
  · have hl := hnum c hc x
    generalize c.interpolateDof x dof = y at hl
    have two : num = 2 → ∃ a b, y = [a, b] := fun e => List.length_eq_two.mp (hl.trans e)
    cases h with
    | point ips => rfl
    | average =>
      by_cases e : num = 2
      · obtain ⟨a, b, rfl⟩ := two e
        simp [Handler.dofValue, Handler.withSub, drawnDof, e, to3D, Res.bind_ok']
      · simp [Handler.dofValue, Handler.withSub, drawnDof, e]
    | voronoi pts cs s =>
      by_cases e : num = 2
      · obtain ⟨a, b, rfl⟩ := two e
        simp [Handler.dofValue, Handler.withSub, drawnDof, e, to3D, Res.bind_ok']
      · simp [Handler.dofValue, Handler.withSub, drawnDof, e]
  · rw [s1, writeDofValues, coords_eq h sub c (hd c hc)]
    rfl

/-- Cell data of all cells whose step writes the grid cells of the cell. -/
theorem cellData_cells (h : Handler K) (cells : List (CellI K D)) (v : Visualizer K D) (hv : Ready h cells v)
    (eval : CellI K D → List (List K)) (name : String) (vals : CellI K D → List (List K))
    (hl : ∀ c ∈ cells, (vals c).length = numCells h c)
    (hf : ∀ k c g, cells[k]? = some c → Visualize.cellData v.handler k (eval c) name g =
      setCells name (g.defineCellData name) ((vals c).zipIdx.map fun xi => (before (numCells h) cells k + xi.2, xi.1))) :
    ∃ v', v.cellData eval name = .ok v' ∧ Ready h cells v' ∧ ∃ ws, CellWrites name ws v.grid v'.grid ∧
      (∀ i x, (i, x) ∈ ws ↔ ∃ k c j, cells[k]? = some c ∧ (vals c)[j]? = some x ∧
        i = before (numCells h) cells k + j) := by
  let ws : CellI K D → Nat → List (Nat × List K) := fun c k =>
    (vals c).zipIdx.map fun xi => (before (numCells h) cells k + xi.2, xi.1)
  have hmem : ∀ c k i x, (i, x) ∈ ws c k ↔ ∃ j, (vals c)[j]? = some x ∧ i = before (numCells h) cells k + j := by
    intro c k i x
    simp only [ws, List.mem_map, Prod.exists, List.mem_zipIdx_iff_getElem?, Prod.mk.injEq]
    constructor
    · rintro ⟨p, j, h1, h2, h3⟩; exact ⟨j, h3 ▸ h1, h2.symm⟩
    · rintro ⟨j, h1, h2⟩; exact ⟨x, j, h1, h2.symm, rfl⟩
  obtain ⟨g', h1, h2, h3, _⟩ := writes_loop (V := List K) (CellWrites name)
    (fun g => g.cells.length = before (numCells h) cells cells.length)
    (CellWrites.refl name) (fun _ _ _ _ _ a b c => a.trans b c) (fun _ _ _ a b => b.length.trans a)
    (fun (g : Grid K) (ci : CellI K D × Nat) => Visualize.cellData v.handler ci.2 (eval ci.1) name g)
    ws (before (numCells h) cells) cells
    (by
      intro g k c hk hg
      obtain ⟨d1, d2⟩ := defineCellData_writes g name
      obtain ⟨g', h1, h2⟩ := setCells_writes name (ws c k) (g.defineCellData name) d2 (keys_nodup _ _ id) (by
        rintro ⟨i, x⟩ hw
        obtain ⟨j, h1, h2⟩ := (hmem c k i x).mp hw
        have := before_le_total (numCells h) cells k c hk
        have hj := (List.getElem?_eq_some_iff.mp h1).1
        rw [hl c (List.mem_of_getElem? hk)] at hj
        show i < _
        rw [d1.length, hg]
        omega)
      exact ⟨g', (hf k c g hk).trans h1, CellWrites.trans (ws := []) d1 h2 fun w hw => absurd hw List.not_mem_nil⟩)
    (by
      intro k c hk
      rw [before_succ _ _ _ c hk]
      refine ⟨Nat.le_add_right _ _, ?_⟩
      rintro ⟨i, x⟩ hw
      obtain ⟨j, h1, h2⟩ := (hmem c k i x).mp hw
      have hj := (List.getElem?_eq_some_iff.mp h1).1
      rw [hl c (List.mem_of_getElem? hk)] at hj
      constructor
      · show _ ≤ i; omega
      · show i < _; omega)
    v.grid hv.numCells
  refine ⟨{ v with grid := g' }, ?_, ?_, cells.zipIdx.flatMap fun ck => ws ck.1 ck.2, h3, ?_⟩
  · have e : v.cellData eval name = (Res.ok g').bind fun g => .ok { v with grid := g } := by
      rw [← h1, ← hv.cells]; rfl
    rw [e]; rfl
  · exact ⟨hv.cells, by rw [← hv.numPoints]; exact congrArg List.length h3.points.1, h2, hv.sub, hv.ids⟩
  · intro i x
    simp only [List.mem_flatMap, Prod.exists, List.mem_zipIdx_iff_getElem?]
    constructor
    · rintro ⟨c, k, hk, hm⟩
      obtain ⟨j, e⟩ := (hmem c k i x).mp hm
      exact ⟨k, c, j, hk, e⟩
    · rintro ⟨k, c, j, hk, e⟩
      exact ⟨c, k, hk, (hmem c k i x).mpr ⟨j, e⟩⟩

/-- C58: with the average handler grid cell `k` gets the mean of the values of the `k`-th cell; nothing else changes. -/
theorem C58_cell_average (cells : List (CellI K D)) (hd : ∀ c ∈ cells, Drawable (.average : Handler K) c)
    (v : Visualizer K D) (hv : Ready .average cells v) (eval : CellI K D → List (List K)) (name : String) (n : Nat)
    (he : ∀ c ∈ cells, eval c ≠ [] ∧ ∀ x ∈ eval c, x.length = n) :
    ∃ v', v.cellData eval name = .ok v' ∧ Ready .average cells v' ∧ ∃ ws, CellWrites name ws v.grid v'.grid ∧
      (∀ i x, (i, x) ∈ ws ↔ ∃ c, cells[i]? = some c ∧ x = mean n (eval c)) := by
  have hb : ∀ k c, cells[k]? = some c → before (numCells (.average : Handler K)) cells k = k := fun k c hk => by
    rw [before_const _ 1 _ (fun c hc => numCells_average c (hd c hc)) k
      (Nat.le_of_lt (List.getElem?_eq_some_iff.mp hk).1), Nat.mul_one]
  obtain ⟨sub, s1, _⟩ := hv.sub
  obtain ⟨v', h1, h2, ws, h3, h4⟩ := cellData_cells .average cells v hv eval name (fun c => [mean n (eval c)])
    (fun c hc => (numCells_average c (hd c hc)).symm) (fun k c g hk => by
      have hc := he c (List.mem_of_getElem? hk)
      rw [hb k c hk, s1]
      show ((average (eval c)).bind _) = _
      rw [average_eq n _ hc.1 hc.2, Res.bind_ok', setCells]
      show _ = Res.foldlM _ _ [(k + 0, mean n (eval c))]
      rw [Res.foldlM_cons]
      dsimp only
      rw [Nat.add_zero]
      cases (g.defineCellData name).setCellData k name (mean n (eval c)) <;> rfl)
  refine ⟨v', h1, h2, ws, h3, fun i x => (h4 i x).trans ?_⟩
  constructor
  · rintro ⟨k, c, j, hk, hj, hi⟩
    have hj0 : j = 0 := by have := (List.getElem?_eq_some_iff.mp hj).1; simpa using this
    subst hj0
    cases hj
    rw [hb k c hk, Nat.add_zero] at hi
    exact ⟨c, hi ▸ hk, rfl⟩
  · rintro ⟨c, hk, hx⟩
    exact ⟨i, c, 0, hk, by rw [hx]; rfl, by rw [hb i c hk]; rfl⟩

/-- C58: with the voronoi handler of `m` sub cells, sub cell `j` of the `k`-th cell, which is grid cell `k m + j`, gets
the `j`-th value of the `k`-th cell; nothing else changes. -/
theorem C58_cell_voronoi (pts : List (List K)) (vc : List (List Nat × CellType)) (cells : List (CellI K D))
    (v : Visualizer K D) (hv : Ready (.voronoi pts vc []) cells v) (eval : CellI K D → List (List K)) (name : String)
    (he : ∀ c ∈ cells, (eval c).length = vc.length) :
    ∃ v', v.cellData eval name = .ok v' ∧ Ready (.voronoi pts vc []) cells v' ∧
      ∃ ws, CellWrites name ws v.grid v'.grid ∧
        (∀ i x, (i, x) ∈ ws ↔ ∃ k c j, cells[k]? = some c ∧ (eval c)[j]? = some x ∧ i = k * vc.length + j) := by
  have hb : ∀ k c, cells[k]? = some c → before (numCells (.voronoi pts vc [])) cells k = k * vc.length :=
    fun k c hk => before_const _ vc.length _ (fun _ _ => rfl) k (Nat.le_of_lt (List.getElem?_eq_some_iff.mp hk).1)
  obtain ⟨sub, s1, s2⟩ := hv.sub
  obtain ⟨v', h1, h2, ws, h3, h4⟩ := cellData_cells (.voronoi pts vc []) cells v hv eval name eval he
    (fun k c g hk => by
      rw [s1]
      show (match sub[k]? with | none => Res.ub | some s => _) = _
      rw [s2 k c hk]
      show Res.require _ _ = _
      have hlen := he c (List.mem_of_getElem? hk)
      rw [Res.require, if_pos (by rw [List.length_range']; exact hlen)]
      congr 1
      apply List.ext_getElem
      · simp [numCells, layout, hlen]
      · intro i h1 h2
        simp)
  refine ⟨v', h1, h2, ws, h3, fun i x => (h4 i x).trans ?_⟩
  constructor
  · rintro ⟨k, c, j, hk, hj, hi⟩; exact ⟨k, c, j, hk, hj, by rw [hi, hb k c hk]⟩
  · rintro ⟨k, c, j, hk, hj, hi⟩; exact ⟨k, c, j, hk, hj, by rw [hi, hb k c hk]⟩

/-- C58: with the point handler the `j`-th value of the `k`-th cell is written at its `j`-th point, `k n + j`. -/
theorem C58_cell_point (ips : List (List K)) (cells : List (CellI K D))
    (v : Visualizer K D) (hv : Ready (.point ips) cells v) (eval : CellI K D → List (List K)) (name : String)
    (he : ∀ c ∈ cells, (eval c).length = ips.length) :
    ∃ v', v.cellData eval name = .ok v' ∧ Ready (.point ips) cells v' ∧ ∃ ws, PointWrites name ws v.grid v'.grid ∧
      (∀ i x, (i, x) ∈ ws ↔ ∃ k c j, cells[k]? = some c ∧ (eval c)[j]? = some x ∧ i = k * ips.length + j) := by
  obtain ⟨sub, s1, _⟩ := hv.sub
  have hnum : v.grid.points.length = cells.length * ips.length := by
    exact hv.numPoints.trans (before_const _ ips.length _ (fun _ _ => rfl) _ (Nat.le_refl _))
  let ws : CellI K D → Nat → List (Nat × List K) := fun c k =>
    (eval c).zipIdx.map fun xi => (k * ips.length + xi.2, xi.1)
  have hmem : ∀ c k i x, (i, x) ∈ ws c k ↔ ∃ j, (eval c)[j]? = some x ∧ i = k * ips.length + j := by
    intro c k i x
    simp only [ws, List.mem_map, Prod.exists, List.mem_zipIdx_iff_getElem?, Prod.mk.injEq]
    constructor
    · rintro ⟨p, j, h1, h2, h3⟩; exact ⟨j, h3 ▸ h1, h2.symm⟩
    · rintro ⟨j, h1, h2⟩; exact ⟨x, j, h1, h2.symm, rfl⟩
  obtain ⟨g', h1, h2, h3, _⟩ := writes_loop (V := List K) (PointWrites name)
    (fun g => g.points.length = cells.length * ips.length)
    (PointWrites.refl name) (fun _ _ _ _ _ a b c => a.trans b c) (fun _ _ _ a b => b.length.trans a)
    (fun (g : Grid K) (ci : CellI K D × Nat) => Visualize.cellData v.handler ci.2 (eval ci.1) name g)
    ws (fun k => k * ips.length) cells
    (by
      intro g k c hk hg
      obtain ⟨d1, d2⟩ := definePointData_writes g name
      have hlen := he c (List.mem_of_getElem? hk)
      have hkl := (List.getElem?_eq_some_iff.mp hk).1
      obtain ⟨g', h1, h2⟩ := setPointsAt_writes name (ws c k) (g.definePointData name) d2 (keys_nodup _ _ id) (by
        rintro ⟨i, x⟩ hw
        obtain ⟨j, h1, h2⟩ := (hmem c k i x).mp hw
        have hj := (List.getElem?_eq_some_iff.mp h1).1
        have : (k + 1) * ips.length ≤ cells.length * ips.length := Nat.mul_le_mul_right _ hkl
        rw [Nat.succ_mul] at this
        show i < _
        rw [d1.length, hg]
        omega)
      refine ⟨g', ?_, PointWrites.trans (ws := []) d1 h2 fun w hw => absurd hw List.not_mem_nil⟩
      rw [← h1, s1]
      show Res.require _ _ = _
      rw [Res.require, if_pos hlen, hlen]
      congr 1
      apply List.map_congr_left
      intro xi _
      rw [Nat.add_comm])
    (by
      intro k c hk
      have hlen := he c (List.mem_of_getElem? hk)
      rw [Nat.succ_mul]
      refine ⟨Nat.le_add_right _ _, ?_⟩
      rintro ⟨i, x⟩ hw
      obtain ⟨j, h1, h2⟩ := (hmem c k i x).mp hw
      have hj := (List.getElem?_eq_some_iff.mp h1).1
      constructor
      · show _ ≤ i; omega
      · show i < _; omega)
    v.grid hnum
  refine ⟨{ v with grid := g' }, ?_, ?_, cells.zipIdx.flatMap fun ck => ws ck.1 ck.2, h3, ?_⟩
  · have e : v.cellData eval name = (Res.ok g').bind fun g => .ok { v with grid := g } := by
      rw [← h1, ← hv.cells]; rfl
    rw [e]; rfl
  · exact ⟨hv.cells, by rw [← hv.numPoints, hnum]; exact h2,
      by rw [← hv.numCells]; exact congrArg List.length h3.cells.1, hv.sub, hv.ids⟩
  · intro i x
    simp only [List.mem_flatMap, Prod.exists, List.mem_zipIdx_iff_getElem?]
    constructor
    · rintro ⟨c, k, hk, hm⟩
      obtain ⟨j, e⟩ := (hmem c k i x).mp hm
      exact ⟨k, c, j, hk, e⟩
    · rintro ⟨k, c, j, hk, e⟩
      exact ⟨c, k, hk, (hmem c k i x).mpr ⟨j, e⟩⟩

/-- Two cells of different shapes: a line from 0 to 2 and a triangle. -/
def exampleCells : List (CellI ℚ Unit) :=
  [⟨.line, fun x => [1 + x.getD 0 0], fun x _ => [x.getD 0 0]⟩,
   ⟨.triangle, fun x => [3 + x.getD 0 0, x.getD 1 0], fun x _ => [x.getD 1 0]⟩]

example : ∀ c ∈ exampleCells, Drawable (.average : Handler ℚ) c := by
  intro c hc
  simp only [exampleCells, List.mem_cons, List.not_mem_nil, or_false] at hc
  rcases hc with rfl | rfl <;> refine ⟨by simp, by simp [layout], by simp⟩

example : ∀ c ∈ exampleCells, Drawable (.voronoi [[-1], [0], [1]] [([0, 1], .line), ([1, 2], .line)] []) c := by
  intro c hc
  simp only [exampleCells, List.mem_cons, List.not_mem_nil, or_false] at hc
  rcases hc with rfl | rfl <;> refine ⟨by simp, by simp [layout], by simp⟩

example : mean 2 [[1, 2], [3, 6], [(5 : ℚ), 1]] = [3, 3] := by
  norm_num [mean, List.range_succ]

/-! ### VTK cell types -/

/-- The number of points of the VTK cell type with this number, from the VTK file format: 1 vertex, 3 line,
5 triangle, 9 quadrilateral, 10 tetrahedron, 12 hexahedron, 13 wedge, 14 pyramid, 21 to 25 the quadratic line,
triangle, quadrilateral, tetrahedron and hexahedron.  A polygon (7) has any number of points. -/
def vtkPoints : Nat → Option Nat
  | 1 => some 1 | 3 => some 2 | 5 => some 3 | 9 => some 4 | 10 => some 4 | 12 => some 8 | 13 => some 6 | 14 => some 5
  | 21 => some 3 | 22 => some 6 | 23 => some 8 | 24 => some 10 | 25 => some 20
  | _ => none

/-- The number of points an element of this type has: corners, and the middles of the edges if quadratic. -/
def CellType.elementPoints : CellType → Option Nat
  | .vertex => some 1
  | .line => some 2
  | .triangle => some 3
  | .quad => some 4
  | .tetraeder => some 4
  | .hexahedron => some 8
  | .polygon => none
  | .wedge => some 6
  | .pyramid => some 5
  | .line2 => some (2 + 1)
  | .triangle2 => some (3 + 3)
  | .quad2 => some (4 + 4)
  | .tetraeder2 => some (4 + 6)
  | .hexahedron2 => some (8 + 12)

/-- C58: the number written for a cell type is that of a VTK type with the same number of points, different types get
different numbers, and every cell the average handler draws lists exactly the points its VTK type needs. -/
theorem C58_vtk_types :
    (∀ t : CellType, vtkPoints t.toVtk = t.elementPoints) ∧
    (∀ t u : CellType, t.toVtk = u.toVtk → t = u) ∧
    CellType.polygon.toVtk = 7 ∧ CellType.quad.toVtk = 9 ∧ CellType.tetraeder.toVtk = 10 ∧
    ∀ (s : Shape), ∀ l ∈ (layout (.average : Handler K) s).2, vtkPoints l.2.toVtk = some l.1.length := by
  refine ⟨?_, ?_, rfl, rfl, rfl, ?_⟩
  · intro t; cases t <;> rfl
  · intro t u h
    cases t <;> cases u <;> first | rfl | exact absurd h (by decide)
  · intro s l hl
    cases s <;> simp only [layout, List.mem_singleton, List.not_mem_nil] at hl <;>
      first | (rw [hl]; rfl) | exact hl.elim

omit [Field K] in
/-- C58: a cell is added iff none of its point numbers is too large; it is appended with the given points and its
position is returned.  Negative numbers are accepted. -/
theorem C58_add_cell (g : Grid K) (ids : List Int) (t : CellType) :
    ((∃ i ∈ ids, (g.points.length : Int) ≤ i) → g.addCell ids t = .throw) ∧
    ((∀ i ∈ ids, i < g.points.length) →
      g.addCell ids t = .ok ({ g with cells := g.cells ++ [⟨ids, t, []⟩] }, g.cells.length)) := by
  refine ⟨?_, addCell_eq g ids t⟩
  rintro ⟨i, hi, h⟩
  rw [Grid.addCell, if_pos]
  rw [List.any_eq_true]
  exact ⟨i, hi, by rwa [decide_eq_true_eq]⟩

/-- Cells are checked against the points that exist: the number of points itself is too large, minus one is not. -/
example : (Grid.addCell (⟨[⟨(0, 0, 0), []⟩], [], [], []⟩ : Grid ℚ) [0, 1] .line) = .throw ∧
    (Grid.addCell (⟨[⟨(0, 0, 0), []⟩], [], [], []⟩ : Grid ℚ) [0, -1] .line) =
      .ok (⟨[⟨(0, 0, 0), []⟩], [⟨[0, -1], .line, []⟩], [], []⟩, 0) := by
  decide +kernel

end NuTo.Visualize
