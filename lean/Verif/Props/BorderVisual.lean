import Verif.Model.BorderVisual
import Verif.Props.SphereCollision
import Verif.Props.CollisionBoxes
import Verif.Lemmas.MatrixAssembler
import Mathlib.Tactic.FinCases

/-!
C117: the pictures of the walls of a particle simulation show the walls.
-/

namespace NuTo.Collision

/-! ### Vectors -/

theorem dot_cross_left (u v : V3) : dot (cross u v) u = 0 := by simp [dot, cross]; ring
theorem dot_cross_right (u v : V3) : dot (cross u v) v = 0 := by simp [dot, cross]; ring

theorem lagrange (u v : V3) : dot (cross u v) (cross u v) = dot u u * dot v v - dot u v * dot u v := by
  simp [dot, cross]; ring

theorem dot_normalize (u v : V3) (h : dot u v = 0) : dot (normalize u) v = 0 := by
  unfold normalize
  split_ifs
  · rw [smul_dot, h, mul_zero]
  · exact h

theorem dot_normalize' (u v : V3) (h : dot u v = 0) : dot u (normalize v) = 0 := by
  rw [dot_comm] at h ⊢; exact dot_normalize _ _ h

/-- The vector chosen in `VisualizationStatic` is not parallel to the direction. -/
theorem cross_someOther {d : V3} (hd : dot d d = 1) : 0 < dot (cross (someOther d) d) (cross (someOther d) d) := by
  have hd' := hd
  simp only [dot] at hd
  unfold someOther
  split_ifs with h
  · have h0 : d 0 * d 0 = 1 := by
      simp only [dot] at h
      have : |d 0| = 1 := by simpa using h
      rw [← abs_mul_abs_self, this, one_mul]
    simp [dot, cross]
    nlinarith [mul_self_nonneg (d 2)]
  · have h0 : d 0 * d 0 ≠ 1 := by
      intro h0
      apply h
      have : |d 0| * |d 0| = 1 := by rw [abs_mul_abs_self, h0]
      have h1 : |d 0| = 1 := by nlinarith [abs_nonneg (d 0)]
      simpa [dot] using h1
    have hle : d 0 * d 0 ≤ 1 := by nlinarith [mul_self_nonneg (d 1), mul_self_nonneg (d 2)]
    have hlt : d 0 * d 0 < 1 := lt_of_le_of_ne hle h0
    simp [dot, cross]
    nlinarith

theorem transversals {d : V3} (hd : dot d d = 1) (s : ℝ) :
    dot (transversal d s) d = 0 ∧ dot (transversal2 d s) d = 0 ∧ dot (transversal d s) (transversal2 d s) = 0 ∧
    dot (transversal d s) (transversal d s) = s / 2 * (s / 2) ∧
    dot (transversal2 d s) (transversal2 d s) = s / 2 * (s / 2) := by
  have h0 := cross_someOther hd
  set t := cross (someOther d) d with ht
  have htd : dot t d = 0 := dot_cross_right _ _
  have h1 : 0 < dot (cross t d) (cross t d) := by rw [lagrange, hd, htd]; linarith
  unfold transversal transversal2
  rw [← ht]
  simp only [smul_dot, dot_smul]
  rw [dot_normalize _ _ htd, dot_normalize _ _ (dot_cross_right t d),
    dot_normalize _ _ (dot_normalize' _ _ ((dot_comm _ _).trans (dot_cross_left t d))), normalize_unit h0, normalize_unit h1]
  exact ⟨by ring, by ring, by ring, by ring, by ring⟩

/-! ### The grid -/

/-- A point of the grid without data -/
def pointOf (v : V3) : Visualize.Point ℝ := ⟨(v 0, v 1, v 2), []⟩

theorem addPoints_eq (g : Visualize.Grid ℝ) (ps : List V3) :
    addPoints g ps = .ok ({ g with points := g.points ++ ps.map pointOf },
      (List.range ps.length).map fun k : ℕ => ((g.points.length + k : ℕ) : Int)) := by
  unfold addPoints
  induction ps using List.reverseRecOn with
  | nil => simp
  | append_singleton ps p ih =>
    rw [Res.foldlM_append, ih]
    simp [Visualize.Grid.addPoint, coordsOf, Visualize.to3D, pointOf, List.range_succ]

theorem addDirected_eq (g : Visualize.Grid ℝ) (hn : g.cellDataNames = ["Direction"]) (ids : List Int)
    (hi : ∀ i ∈ ids, i < (g.points.length : Int)) (t : Visualize.CellType) (d : V3) :
    addDirected g ids t d = .ok { g with cells := g.cells ++ [⟨ids, t, [[d 0, d 1, d 2]]⟩] } := by
  have h : (ids.any fun i => decide ((g.points.length : Int) ≤ i)) = false := by
    rw [List.any_eq_false]
    intro i h
    have := hi i h
    simp; omega
  simp [addDirected, Visualize.Grid.addCell, h, Visualize.Grid.setCellData, Visualize.dataIndex, hn, coordsOf,
    Visualize.setData]

/-- Four points are the corners of a square with side `s` and centre `p` in the plane through `p` with normal `d`. -/
def SquareAt (p d : V3) (s : ℝ) (a b c e : V3) : Prop :=
  (dot (a - p) d = 0 ∧ dot (b - p) d = 0 ∧ dot (c - p) d = 0 ∧ dot (e - p) d = 0) ∧
  a + b + c + e = (4 : ℝ) • p ∧
  (dot (a - b) (a - b) = s * s ∧ dot (b - c) (b - c) = s * s ∧ dot (c - e) (c - e) = s * s ∧ dot (e - a) (e - a) = s * s) ∧
  dot (a - b) (b - c) = 0

theorem square {d : V3} (hd : dot d d = 1) (p : V3) (s : ℝ) :
    ∃ a b c e, wallCorners p d s = [a, b, c, e] ∧ SquareAt p d s a b c e := by
  obtain ⟨h1, h2, h3, h4, h5⟩ := transversals hd s
  refine ⟨_, _, _, _, rfl, ⟨?_, ?_, ?_, ?_⟩, ?_, ⟨?_, ?_, ?_, ?_⟩, ?_⟩
  · have : p + transversal d s + transversal2 d s - p = transversal d s + transversal2 d s := by abel
    rw [this, add_dot, h1, h2, add_zero]
  · have : p + transversal d s - transversal2 d s - p = transversal d s - transversal2 d s := by abel
    rw [this, sub_dot, h1, h2, sub_zero]
  · have : p - transversal d s - transversal2 d s - p = (-1 : ℝ) • (transversal d s + transversal2 d s) := by
      module
    rw [this, smul_dot, add_dot, h1, h2]; ring
  · have : p - transversal d s + transversal2 d s - p = transversal2 d s - transversal d s := by abel
    rw [this, sub_dot, h1, h2, sub_zero]
  · module
  · have : p + transversal d s + transversal2 d s - (p + transversal d s - transversal2 d s) =
      (2 : ℝ) • transversal2 d s := by module
    rw [this, smul_dot, dot_smul, h5]; ring
  · have : p + transversal d s - transversal2 d s - (p - transversal d s - transversal2 d s) =
      (2 : ℝ) • transversal d s := by module
    rw [this, smul_dot, dot_smul, h4]; ring
  · have : p - transversal d s - transversal2 d s - (p - transversal d s + transversal2 d s) =
      (-2 : ℝ) • transversal2 d s := by module
    rw [this, smul_dot, dot_smul, h5]; ring
  · have : p - transversal d s + transversal2 d s - (p + transversal d s + transversal2 d s) =
      (-2 : ℝ) • transversal d s := by module
    rw [this, smul_dot, dot_smul, h4]; ring
  · have e1 : p + transversal d s + transversal2 d s - (p + transversal d s - transversal2 d s) =
      (2 : ℝ) • transversal2 d s := by module
    have e2 : p + transversal d s - transversal2 d s - (p - transversal d s - transversal2 d s) =
      (2 : ℝ) • transversal d s := by module
    rw [e1, e2, smul_dot, dot_smul, dot_comm, h3]; ring

/-- **C117 (plane walls)** A wall is drawn as one square around its position in its plane, of side 2 if it is a
physical wall and 1 otherwise, and the square carries the direction of the wall. -/
theorem C117_wall (w : DrawnWall) (hd : dot w.direction w.direction = 1) (b : ℤ) (bs : List ℤ) (hb : w.boxes = b :: bs)
    (g : Visualize.Grid ℝ) (hn : g.cellDataNames = ["Direction"]) :
    ∃ p q r t : V3, SquareAt w.position w.direction (if some b = w.outside then 2 else 1) p q r t ∧
      w.draw g = .ok { g with
        points := g.points ++ [⟨(p 0, p 1, p 2), []⟩, ⟨(q 0, q 1, q 2), []⟩, ⟨(r 0, r 1, r 2), []⟩, ⟨(t 0, t 1, t 2), []⟩]
        cells := g.cells ++ [⟨[(g.points.length : Int), g.points.length + 1, g.points.length + 2, g.points.length + 3], .quad,
          [[w.direction 0, w.direction 1, w.direction 2]]⟩] } := by
  obtain ⟨p, q, r, t, he, hs⟩ := square hd w.position (if some b = w.outside then 2 else 1)
  refine ⟨p, q, r, t, hs, ?_⟩
  unfold DrawnWall.draw
  rw [hb]
  simp only [he, addPoints_eq, Res.bind_ok']
  rw [addDirected_eq]
  · simp [pointOf, List.range_succ]
  · exact hn
  · intro i hi
    simp [List.range_succ] at hi ⊢
    omega

/-- A wall whose boxes were never set must not be drawn. -/
theorem C117_unset (p d : V3) (g : Visualize.Grid ℝ) : DrawnWall.draw ⟨p, d, [], none⟩ g = .ub := rfl

theorem toWall_direction {w : BoxWall ℝ} (h : ∑ i, w.direction i * w.direction i = 1) :
    w.toWall.direction = fun i => (w.direction i : ℝ) := by
  have h1 : dot (fun i => (w.direction i : ℝ)) (fun i => (w.direction i : ℝ)) = 1 := by
    rw [Fin.sum_univ_three] at h
    simp only [dot]
    exact_mod_cast h
  simp [BoxWall.toWall, Wall.mk0, normalize, h1]

/-- Cell `k` of the picture `v` shows the wall `w`. -/
def Shows (v : Visualize.Grid ℝ) (k : ℕ) (w : BoxWall ℝ) : Prop :=
  ∃ p q r t : V3, SquareAt w.position (fun i => (w.direction i : ℝ)) (if w.inside = w.outside then 2 else 1) p q r t ∧
    v.cells[k]? = some ⟨[(4 * k : ℕ), (4 * k + 1 : ℕ), (4 * k + 2 : ℕ), (4 * k + 3 : ℕ)], .quad,
      [[(w.direction 0 : ℝ), (w.direction 1 : ℝ), (w.direction 2 : ℝ)]]⟩ ∧
    v.points[4 * k]? = some ⟨(p 0, p 1, p 2), []⟩ ∧ v.points[4 * k + 1]? = some ⟨(q 0, q 1, q 2), []⟩ ∧
    v.points[4 * k + 2]? = some ⟨(r 0, r 1, r 2), []⟩ ∧ v.points[4 * k + 3]? = some ⟨(t 0, t 1, t 2), []⟩

theorem getElem?_append_of_some {α : Type} {l m : List α} {k : ℕ} {x : α} (h : l[k]? = some x) : (l ++ m)[k]? = some x := by
  rw [List.getElem?_append_left (List.getElem?_eq_some_iff.1 h).1, h]

theorem draw_all (L : List (BoxWall ℝ)) (hL : ∀ w ∈ L, ∑ i, w.direction i * w.direction i = 1) :
    ∃ v, Res.foldlM (fun v (w : BoxWall ℝ) => w.drawn.draw v) (Visualize.Grid.empty.defineCellData "Direction") L = .ok v ∧
      v.cellDataNames = ["Direction"] ∧ v.cells.length = L.length ∧ v.points.length = 4 * L.length ∧
      ∀ k w, L[k]? = some w → Shows v k w := by
  induction L using List.reverseRecOn with
  | nil => exact ⟨_, rfl, by simp [Visualize.Grid.defineCellData, Visualize.Grid.empty], by
      simp [Visualize.Grid.defineCellData, Visualize.Grid.empty], by
      simp [Visualize.Grid.defineCellData, Visualize.Grid.empty], by simp⟩
  | append_singleton L w ih =>
    obtain ⟨v, h1, h2, h3, h4, h5⟩ := ih fun w hw => hL w (List.mem_append_left _ hw)
    have hw := hL w (by simp)
    have hdir := toWall_direction hw
    have hu : dot w.drawn.direction w.drawn.direction = 1 := by
      show dot w.toWall.direction w.toWall.direction = 1
      rw [hdir]
      rw [Fin.sum_univ_three] at hw
      simp only [dot]
      exact_mod_cast hw
    obtain ⟨p, q, r, t, hs, he⟩ := C117_wall w.drawn hu w.inside [] rfl v h2
    rw [Res.foldlM_append, h1]
    simp only [Res.bind_ok', Res.foldlM_cons, Res.foldlM_nil, he]
    refine ⟨_, rfl, h2, by simp [h3], by simp [h4]; omega, ?_⟩
    intro k w' hk
    by_cases hkL : k < L.length
    · rw [List.getElem?_append_left hkL] at hk
      obtain ⟨p', q', r', t', a1, a2, a3, a4, a5, a6⟩ := h5 k w' hk
      exact ⟨p', q', r', t', a1, getElem?_append_of_some a2, getElem?_append_of_some a3, getElem?_append_of_some a4,
        getElem?_append_of_some a5, getElem?_append_of_some a6⟩
    · have hlt := (List.getElem?_eq_some_iff.1 hk).1
      have hk' : k = L.length := by simp at hlt; omega
      subst hk'
      rw [List.getElem?_append_right le_rfl] at hk
      simp at hk
      subst hk
      have hdir' : w.drawn.direction = fun i => (w.direction i : ℝ) := hdir
      rw [hdir'] at hs
      have hif : (if some w.inside = w.drawn.outside then (2 : ℝ) else 1) = if w.inside = w.outside then 2 else 1 := by
        simp [BoxWall.drawn, DrawnWall.setBoxes]
      rw [hif] at hs
      refine ⟨p, q, r, t, hs, ?_, ?_, ?_, ?_, ?_⟩
      · rw [hdir', List.getElem?_append_right h3.le, h3, h4]
        simp
      · rw [List.getElem?_append_right (by omega), h4]; simp
      · rw [List.getElem?_append_right (by omega), h4]; simp
      · rw [List.getElem?_append_right (by omega), h4]; simp
      · rw [List.getElem?_append_right (by omega), h4]; simp

theorem foldlM_flatMap {α β γ : Type} (f : γ → β → Res γ) (h : α → List β) (l : List α) (c : γ) :
    Res.foldlM (fun c a => Res.foldlM f c (h a)) c l = Res.foldlM f c (l.flatMap h) := by
  induction l generalizing c with
  | nil => rfl
  | cons a l ih =>
    rw [List.flatMap_cons, Res.foldlM_append, Res.foldlM_cons]
    cases Res.foldlM f c (h a) with
    | ok d => exact ih d
    | throw => rfl
    | ub => rfl

theorem boxWall_unit (g : Grid ℝ) (b : ℤ) : ∀ w ∈ g.buildSubBoxes b, ∑ i, w.direction i * w.direction i = 1 := by
  unfold Grid.buildSubBoxes
  generalize cellSpan (fun _ => 0) (fun i => g.divisions i - 1) = cells
  induction cells using List.reverseRecOn with
  | nil => simp
  | append_singleton cells c ih =>
    rw [List.foldl_append]
    simp only [List.foldl_cons, List.foldl_nil]
    intro w hw
    rw [Function.update_apply] at hw
    split_ifs at hw with h
    · obtain ⟨r, hr, rfl⟩ := List.mem_map.1 hw
      simp only [wallRows, List.mem_cons, List.not_mem_nil, or_false] at hr
      rcases hr with rfl | rfl | rfl | rfl | rfl | rfl <;> simp [Grid.wall, Fin.sum_univ_three]
    · exact ih w hw

/-- **C117 (box)** `VisualizeBorders` of a box shaped specimen succeeds.  Its picture has one square for each wall of each
sub box, in the order of the sub boxes, with the direction of the wall. -/
theorem C117_borders (g : Grid ℝ) :
    ∃ v, g.visualizeBorders = .ok v ∧ v.cellDataNames = ["Direction"] ∧
      v.cells.length = ((intSpan 0 (g.size - 1)).flatMap g.buildSubBoxes).length ∧
      v.points.length = 4 * v.cells.length ∧
      ∀ k w, ((intSpan 0 (g.size - 1)).flatMap g.buildSubBoxes)[k]? = some w → Shows v k w := by
  obtain ⟨v, h1, h2, h3, h4, h5⟩ := draw_all ((intSpan 0 (g.size - 1)).flatMap g.buildSubBoxes) (by
    intro w hw
    obtain ⟨b, -, hw⟩ := List.mem_flatMap.1 hw
    exact boxWall_unit g b w hw)
  refine ⟨v, ?_, h2, h3, by rw [h3, h4], h5⟩
  unfold Grid.visualizeBorders
  rw [foldlM_flatMap]
  exact h1

/-- The squares have fixed sizes: the picture of a specimen of edge length 1/2 leaves the specimen. -/
theorem C117_size_counterexample :
    ∃ (g : Grid ℝ) (v : Visualize.Grid ℝ), g.Valid ∧ g.visualizeBorders = .ok v ∧
      ∃ (k : ℕ) (x y z : ℝ), v.points[k]? = some (⟨(x, y, z), []⟩ : Visualize.Point ℝ) ∧
        ¬ ((g.lower 0 ≤ x ∧ x ≤ g.upper 0) ∧ (g.lower 1 ≤ y ∧ y ≤ g.upper 1) ∧ (g.lower 2 ≤ z ∧ z ≤ g.upper 2)) := by
  refine ⟨⟨fun _ => 1, fun _ => 0, fun _ => 1 / 2⟩, ?_⟩
  set g : Grid ℝ := ⟨fun _ => 1, fun _ => 0, fun _ => 1 / 2⟩ with hg
  have hv : g.Valid := ⟨fun i => by simp [hg], fun i => by simp [hg]⟩
  obtain ⟨v, h1, -, -, -, h5⟩ := C117_borders g
  refine ⟨v, hv, h1, ?_⟩
  have hm : g.Mem (fun _ => 0) := fun i => by simp [hg]
  have hb := buildSubBoxes_eq hm
  have hi : g.getBoxIndex (fun _ => 0) = 0 := by simp [Grid.getBoxIndex, Grid.linearIndex, clampIndex, hg]
  rw [hi] at hb
  have hs : intSpan 0 (g.size - 1) = [0] := by simp [Grid.size, hg, intSpan]
  have h := h5 0 (g.wall (fun _ => 0) (![-1, 0, 0], ![0, 1 / 2, 1 / 2])) (by rw [hs]; simp [hb, wallRows])
  obtain ⟨p, q, r, t, ⟨-, -, ⟨hside, -⟩, -⟩, -, hp, hq, -⟩ := h
  have hio : (g.wall (fun _ => 0) (![-1, 0, 0], ![0, 1 / 2, 1 / 2])).inside =
      (g.wall (fun _ => 0) (![-1, 0, 0], ![0, 1 / 2, 1 / 2])).outside := by
    simp [Grid.wall, Grid.getBoxIndex, Grid.linearIndex, clampIndex, hg]
  rw [if_pos hio] at hside
  by_contra hc
  push Not at hc
  obtain ⟨⟨a1, a2⟩, ⟨a3, a4⟩, a5, a6⟩ := hc _ _ _ _ hp
  obtain ⟨⟨b1, b2⟩, ⟨b3, b4⟩, b5, b6⟩ := hc _ _ _ _ hq
  simp only [hg] at a1 a2 a3 a4 a5 a6 b1 b2 b3 b4 b5 b6
  simp only [dot, Pi.sub_apply] at hside
  nlinarith [abs_le.2 (⟨by linarith, by linarith⟩ : -(1 / 2) ≤ p 0 - q 0 ∧ p 0 - q 0 ≤ 1 / 2),
    mul_nonneg (sub_nonneg.2 (by linarith : p 0 - q 0 ≤ 1 / 2)) (sub_nonneg.2 (by linarith : -(1 / 2) ≤ p 0 - q 0)),
    mul_nonneg (sub_nonneg.2 (by linarith : p 1 - q 1 ≤ 1 / 2)) (sub_nonneg.2 (by linarith : -(1 / 2) ≤ p 1 - q 1)),
    mul_nonneg (sub_nonneg.2 (by linarith : p 2 - q 2 ≤ 1 / 2)) (sub_nonneg.2 (by linarith : -(1 / 2) ≤ p 2 - q 2))]

/-! ### The cylinder -/

theorem addCell_ok (g : Visualize.Grid ℝ) (ids : List Int) (hi : ∀ i ∈ ids, i < (g.points.length : Int))
    (t : Visualize.CellType) :
    g.addCell ids t = .ok ({ g with cells := g.cells ++ [⟨ids, t, []⟩] }, g.cells.length) := by
  have h : (ids.any fun i => decide ((g.points.length : Int) ≤ i)) = false := by
    rw [List.any_eq_false]
    intro i h
    have := hi i h
    simp; omega
  simp [Visualize.Grid.addCell, h]

theorem drawTriangles_eq (w : Cylinder) (k i : ℕ) (g : Visualize.Grid ℝ) (hn : g.cellDataNames = ["Direction"])
    (hm : k + 6 + 2 * i ≤ g.points.length) :
    drawTriangles w k g i = .ok { g with cells := g.cells ++
        [⟨[(k : Int), k + 2 + 2 * i, k + 2 + 2 * (i + 1)], .triangle, [[-w.direction 0, -w.direction 1, -w.direction 2]]⟩,
         ⟨[(k : Int) + 1, k + 3 + 2 * i, k + 3 + 2 * (i + 1)], .triangle, [[w.direction 0, w.direction 1, w.direction 2]]⟩] } := by
  unfold drawTriangles
  rw [addCell_ok _ _ (by simp; omega), Res.bind_ok', addCell_ok _ _ (by simp; omega), Res.bind_ok']
  simp [Visualize.Grid.setCellData, Visualize.dataIndex, hn, coordsOf, Visualize.setData, List.getElem?_append,
    List.set_append]

theorem addTriangles_eq (w : Cylinder) (k : ℕ) (g : Visualize.Grid ℝ) (hn : g.cellDataNames = ["Direction"]) (m : ℕ)
    (hm : k + 4 + 2 * m ≤ g.points.length) :
    Res.foldlM (drawTriangles w k) g (List.range m) = .ok { g with
      cells := g.cells ++ (List.range m).flatMap fun i : ℕ =>
        [⟨[(k : Int), k + 2 + 2 * i, k + 2 + 2 * (i + 1)], .triangle, [[-w.direction 0, -w.direction 1, -w.direction 2]]⟩,
         ⟨[(k : Int) + 1, k + 3 + 2 * i, k + 3 + 2 * (i + 1)], .triangle, [[w.direction 0, w.direction 1, w.direction 2]]⟩] } := by
  induction m with
  | zero => simp
  | succ m ih =>
    rw [List.range_succ, Res.foldlM_append, ih (by omega), Res.bind_ok', Res.foldlM_cons]
    rw [drawTriangles_eq]
    · simp
    · exact hn
    · show k + 6 + 2 * m ≤ g.points.length
      omega

theorem addSides_eq (w : Cylinder) (k : ℕ) (g : Visualize.Grid ℝ) (hn : g.cellDataNames = ["Direction"]) (m : ℕ)
    (hm : k + 4 + 2 * m ≤ g.points.length) :
    Res.foldlM (drawSide w k) g (List.range m) = .ok { g with
      cells := g.cells ++ (List.range m).map fun i : ℕ =>
        ⟨[(k : Int) + 3 + 2 * i, k + 3 + 2 * (i + 1), k + 2 + 2 * (i + 1), k + 2 + 2 * i], .quad,
          [[sideDirection w i 0, sideDirection w i 1, sideDirection w i 2]]⟩ } := by
  induction m with
  | zero => simp
  | succ m ih =>
    rw [List.range_succ, Res.foldlM_append, ih (by omega), Res.bind_ok', Res.foldlM_cons]
    unfold drawSide
    rw [addDirected_eq]
    · simp
    · exact hn
    · simp; omega

theorem cylinderPoints_length (w : Cylinder) (h : ℝ) : (cylinderPoints w h).length = 84 := by
  simp [cylinderPoints, List.range_succ]

theorem drawCylinder_eq (w : Cylinder) (h : ℝ) (g : Visualize.Grid ℝ) (hg : g.cellDataNames = ["Direction"]) :
    drawCylinder w h g = .ok { g with
        points := g.points ++ (cylinderPoints w h).map pointOf
        cells := g.cells ++ ((List.range 40).flatMap fun i : ℕ =>
          [⟨[(g.points.length : Int), g.points.length + 2 + 2 * i, g.points.length + 2 + 2 * (i + 1)], .triangle,
            [[-w.direction 0, -w.direction 1, -w.direction 2]]⟩,
          ⟨[(g.points.length : Int) + 1, g.points.length + 3 + 2 * i, g.points.length + 3 + 2 * (i + 1)], .triangle,
            [[w.direction 0, w.direction 1, w.direction 2]]⟩]) ++ (List.range 40).map fun i : ℕ =>
          ⟨[(g.points.length : Int) + 3 + 2 * i, g.points.length + 3 + 2 * (i + 1), g.points.length + 2 + 2 * (i + 1),
            g.points.length + 2 + 2 * i], .quad, [[sideDirection w i 0, sideDirection w i 1, sideDirection w i 2]]⟩ } := by
  unfold drawCylinder
  rw [addPoints_eq, Res.bind_ok', addTriangles_eq]
  · rw [Res.bind_ok', addSides_eq]
    · exact hg
    · simp [cylinderPoints_length]
  · exact hg
  · simp [cylinderPoints_length]

theorem frame {n : V3} (hn : dot n n = 1) (hx : n ≠ ![-1, 0, 0]) :
    ∃ s b : V3, dot s s = 1 ∧ dot b b = 1 ∧ dot s b = 0 ∧ dot s n = 0 ∧ dot b n = 0 ∧ cross s n = -b ∧ cross b n = s ∧
      ∀ r i, circlePoint n r i = r • (Real.cos (i * (2 * Real.pi / 40)) • s + Real.sin (i * (2 * Real.pi / 40)) • b) := by
  have hpos : 0 < dot (cross n (nonCoLin n)) (cross n (nonCoLin n)) := by
    unfold nonCoLin
    split_ifs with h
    · rw [← h]; simp [dot, cross]
    · have h' := hn
      simp only [dot] at h'
      by_contra hc
      have h0 : n 1 = 0 ∧ n 2 = 0 := by
        simp [dot, cross] at hc
        have a := mul_self_nonneg (n 1)
        have b := mul_self_nonneg (n 2)
        exact ⟨mul_self_eq_zero.1 (by linarith), mul_self_eq_zero.1 (by linarith)⟩
      rw [h0.1, h0.2] at h'
      have : n 0 = 1 ∨ n 0 = -1 := mul_self_eq_one_iff.1 (by linarith)
      rcases this with e | e
      · apply h; funext i; fin_cases i <;> simp [e, h0.1, h0.2]
      · apply hx; funext i; fin_cases i <;> simp [e, h0.1, h0.2]
  set s := normalize (cross n (nonCoLin n)) with hs
  have hss : dot s s = 1 := normalize_unit hpos
  have hsn : dot s n = 0 := dot_normalize _ _ (dot_cross_left _ _)
  have hns : dot n s = 0 := (dot_comm _ _).trans hsn
  have hdouble : cross (cross n s) n = s := by
    have : cross (cross n s) n = dot n n • s - dot n s • n := by
      funext i; fin_cases i <;> simp [cross, dot] <;> ring
    rw [this, hn, hns, one_smul, zero_smul, sub_zero]
  refine ⟨s, cross n s, hss, ?_, ?_, hsn, dot_cross_left _ _, ?_, hdouble, ?_⟩
  · rw [lagrange, hn, hss, hns]; ring
  · rw [dot_comm]; exact dot_cross_right _ _
  · funext i; fin_cases i <;> simp [cross] <;> ring
  · intro r i
    unfold circlePoint
    simp only
    rw [← hs, hns, hdouble, zero_smul, zero_add]

/-- **C117 (cylinder)** The picture of a cylinder with any axis but `-x` consists of the two centres and two closed
polygons on the surface of the cylinder at half the height above and below its position, 40 triangles for each of the
two, and 40 rectangles in between; the directions are unit normals of the cells which point to the inside. -/
theorem C117_cylinder_partial (w : Cylinder) (hn : dot w.direction w.direction = 1) (hx : w.direction ≠ ![-1, 0, 0])
    (hr : 0 < w.radius) (h : ℝ) (g : Visualize.Grid ℝ) (hg : g.cellDataNames = ["Direction"]) :
    ∃ c d : ℕ → V3,
      -- the circle
      (∀ i, dot (c i) w.direction = 0 ∧ dot (c i) (c i) = w.radius * w.radius) ∧ c 40 = c 0 ∧
      (∀ i, dot (c i - c (i + 1)) (c i - c (i + 1)) = (2 * w.radius * Real.sin (Real.pi / 40)) ^ 2) ∧
      -- the normals of the side
      (∀ i, dot (d i) (d i) = 1 ∧ dot (d i) w.direction = 0 ∧ dot (d i) (c (i + 1) - c i) = 0 ∧
        dot (d i) (c i) < 0 ∧ dot (d i) (c (i + 1)) < 0) ∧
      drawCylinder w h g = .ok { g with
        points := g.points ++ ((w.position + (h / 2) • w.direction) :: (w.position - (h / 2) • w.direction) ::
          (List.range 41).flatMap fun i => [c i + (w.position + (h / 2) • w.direction),
            c i + (w.position - (h / 2) • w.direction)]).map fun x => ⟨(x 0, x 1, x 2), []⟩
        cells := g.cells ++ ((List.range 40).flatMap fun i : ℕ =>
          [⟨[(g.points.length : Int), g.points.length + 2 + 2 * i, g.points.length + 2 + 2 * (i + 1)], .triangle,
            [[-w.direction 0, -w.direction 1, -w.direction 2]]⟩,
          ⟨[(g.points.length : Int) + 1, g.points.length + 3 + 2 * i, g.points.length + 3 + 2 * (i + 1)], .triangle,
            [[w.direction 0, w.direction 1, w.direction 2]]⟩]) ++ (List.range 40).map fun i : ℕ =>
          ⟨[(g.points.length : Int) + 3 + 2 * i, g.points.length + 3 + 2 * (i + 1), g.points.length + 2 + 2 * (i + 1),
            g.points.length + 2 + 2 * i], .quad, [[d i 0, d i 1, d i 2]]⟩ } := by
  obtain ⟨s, b, hss, hbb, hsb, hsn, hbn, hcs, hcb, hc⟩ := frame hn hx
  have hbs : dot b s = 0 := (dot_comm _ _).trans hsb
  have hns : dot w.direction s = 0 := (dot_comm _ _).trans hsn
  have hnb : dot w.direction b = 0 := (dot_comm _ _).trans hbn
  set r := w.radius
  set n := w.direction
  set α : ℕ → ℝ := fun i => (i : ℝ) * (2 * Real.pi / 40) with hα
  have hc' : ∀ i, circlePoint n r i = r • (Real.cos (α i) • s + Real.sin (α i) • b) := fun i => hc r i
  have hstep : ∀ i, α (i + 1) = α i + 2 * Real.pi / 40 := fun i => by simp only [hα]; push_cast; ring
  have hsin : 0 < Real.sin (2 * Real.pi / 40) := by
    apply Real.sin_pos_of_pos_of_lt_pi <;> nlinarith [Real.pi_pos]
  have hdot : ∀ i j, dot (circlePoint n r i) (circlePoint n r j) = r * r * Real.cos (α i - α j) := by
    intro i j
    rw [hc', hc', Real.cos_sub]
    simp only [dot_smul, smul_dot, dot_add, add_dot, hss, hbb, hsb, hbs]
    ring
  have hcn : ∀ i, dot (circlePoint n r i) n = 0 := by
    intro i
    rw [hc']
    simp only [smul_dot, add_dot, hsn, hbn]
    ring
  have hchord : ∀ i, dot (circlePoint n r i - circlePoint n r (i + 1)) (circlePoint n r i - circlePoint n r (i + 1)) =
      (2 * r * Real.sin (Real.pi / 40)) ^ 2 := by
    intro i
    simp only [dot_sub, sub_dot, hdot, sub_self, Real.cos_zero, hstep]
    have e1 : α i - (α i + 2 * Real.pi / 40) = -(2 * (Real.pi / 40)) := by ring
    have e2 : α i + 2 * Real.pi / 40 - α i = 2 * (Real.pi / 40) := by ring
    rw [e1, e2, Real.cos_neg, Real.cos_two_mul, Real.cos_sq']
    ring
  have hcross : ∀ i, cross (circlePoint n r i - circlePoint n r (i + 1)) n =
      r • ((Real.sin (α i) - Real.sin (α (i + 1))) • s - (Real.cos (α i) - Real.cos (α (i + 1))) • b) := by
    intro i
    have hlin : ∀ (x y : ℝ), cross (x • s + y • b) n = x • cross s n + y • cross b n := by
      intro x y; funext j; fin_cases j <;> simp [cross] <;> ring
    have : circlePoint n r i - circlePoint n r (i + 1) =
        (r * (Real.cos (α i) - Real.cos (α (i + 1)))) • s + (r * (Real.sin (α i) - Real.sin (α (i + 1)))) • b := by
      rw [hc', hc']; module
    rw [this, hlin, hcs, hcb]
    module
  have hpos : ∀ i, 0 < dot (cross (circlePoint n r i - circlePoint n r (i + 1)) n)
      (cross (circlePoint n r i - circlePoint n r (i + 1)) n) := by
    intro i
    rw [lagrange, hn, hchord, sub_dot, hcn, hcn]
    have : 0 < Real.sin (Real.pi / 40) := by
      apply Real.sin_pos_of_pos_of_lt_pi <;> nlinarith [Real.pi_pos]
    have : 0 < (2 * r * Real.sin (Real.pi / 40)) ^ 2 := by positivity
    linarith
  have hin : ∀ i, dot (cross (circlePoint n r i - circlePoint n r (i + 1)) n) (circlePoint n r i) =
      -(r * r * Real.sin (2 * Real.pi / 40)) := by
    intro i
    rw [hcross, hc']
    simp only [dot_smul, smul_dot, dot_add, sub_dot, hss, hbb, hsb, hbs]
    have : Real.sin (α (i + 1) - α i) = Real.sin (2 * Real.pi / 40) := by rw [hstep]; congr 1; ring
    rw [← this, Real.sin_sub]
    ring
  have hin' : ∀ i, dot (cross (circlePoint n r i - circlePoint n r (i + 1)) n) (circlePoint n r (i + 1)) =
      -(r * r * Real.sin (2 * Real.pi / 40)) := by
    intro i
    rw [hcross, hc' (i + 1)]
    simp only [dot_smul, smul_dot, dot_add, sub_dot, hss, hbb, hsb, hbs]
    have : Real.sin (α (i + 1) - α i) = Real.sin (2 * Real.pi / 40) := by rw [hstep]; congr 1; ring
    rw [← this, Real.sin_sub]
    ring
  have hneg : ∀ (v x : V3), 0 < dot v v → dot v x < 0 → dot (normalize v) x < 0 := by
    intro v x h1 h2
    rw [normalize, if_pos h1, smul_dot]
    have := Real.sqrt_pos.2 h1
    exact mul_neg_of_pos_of_neg (by positivity) h2
  have hrr : 0 < r * r * Real.sin (2 * Real.pi / 40) := by positivity
  refine ⟨circlePoint n r, sideDirection w, fun i => ⟨hcn i, ?_⟩, ?_, hchord, fun i => ⟨?_, ?_, ?_, ?_, ?_⟩, ?_⟩
  · rw [hdot, sub_self, Real.cos_zero, mul_one]
  · rw [hc', hc']
    have e : α 40 = α 0 + 2 * Real.pi := by simp only [hα]; push_cast; ring
    rw [e, Real.cos_add_two_pi, Real.sin_add_two_pi]
  · exact normalize_unit (hpos i)
  · exact dot_normalize _ _ (dot_cross_right _ _)
  · apply dot_normalize
    rw [dot_sub, hin, hin', sub_self]
  · exact hneg _ _ (hpos i) (by rw [hin]; linarith)
  · exact hneg _ _ (hpos i) (by rw [hin']; linarith)
  · rw [drawCylinder_eq w h g hg]
    rfl

/-- The picture of a cylinder with the axis `-x` is a line: all points are one of the two centres. -/
theorem C117_axis_counterexample (p : V3) (r h : ℝ) (g : Visualize.Grid ℝ) (hg : g.cellDataNames = ["Direction"]) :
    ∃ v, drawCylinder (Cylinder.mk0 p ![-1, 0, 0] r) h g = .ok v ∧ v.points.length = g.points.length + 84 ∧
      ∀ x ∈ v.points.drop g.points.length, x = ⟨(p 0 - h / 2, p 1, p 2), []⟩ ∨ x = ⟨(p 0 + h / 2, p 1, p 2), []⟩ := by
  have hu : (Cylinder.mk0 p ![-1, 0, 0] r).direction = ![-1, 0, 0] := by
    simp [Cylinder.mk0, normalize, dot]
  have hc : ∀ i, circlePoint ![-1, 0, 0] r i = 0 := by
    intro i
    have h1 : nonCoLin ![-1, 0, 0] = ![1, 0, 0] := by
      unfold nonCoLin
      rw [if_neg]
      intro e
      have := congrFun e 0
      norm_num at this
    have h2 : normalize (cross ![-1, 0, 0] ![1, 0, 0]) = 0 := by
      have : cross ![-1, 0, 0] ![1, 0, 0] = 0 := by funext j; fin_cases j <;> simp [cross]
      rw [this]; simp [normalize, dot]
    have h3 : ∀ v : V3, cross v 0 = 0 := by intro v; funext j; fin_cases j <;> simp [cross]
    have h4 : ∀ v : V3, cross 0 v = 0 := by intro v; funext j; fin_cases j <;> simp [cross]
    unfold circlePoint
    simp only [h1, h2, h3, h4]
    simp [dot]
  rw [drawCylinder_eq _ _ g hg]
  refine ⟨_, rfl, ?_, ?_⟩
  · simp [cylinderPoints_length]
  · intro x hx
    simp only [List.drop_left] at hx
    obtain ⟨y, hy, rfl⟩ := List.mem_map.1 hx
    unfold cylinderPoints at hy
    rw [hu] at hy
    have hp : (Cylinder.mk0 p ![-1, 0, 0] r).position = p := rfl
    have hr : (Cylinder.mk0 p ![-1, 0, 0] r).radius = r := rfl
    rw [hp, hr] at hy
    simp only [hc, zero_add, List.cons_append, List.nil_append, List.mem_cons, List.mem_flatMap, List.mem_range,
      List.not_mem_nil, or_false] at hy
    have : y = p + (h / 2) • ![-1, 0, 0] ∨ y = p - (h / 2) • ![-1, 0, 0] := by
      rcases hy with e | e | ⟨_, _, e | e⟩
      · exact Or.inl e
      · exact Or.inr e
      · exact Or.inl e
      · exact Or.inr e
    rcases this with rfl | rfl
    · left; simp [pointOf]; ring
    · right; simp [pointOf]

/-- `BuildCylinder` puts the position of the cylinder to the top of the specimen and not to its centre: the lower half of
every cylindrical specimen is missing in the picture, and the picture ends half a height above the specimen. -/
theorem C117_height_counterexample (s : Grid ℝ) (hs : 0 < s.length 2) (g : Visualize.Grid ℝ) (hg : g.cellDataNames = ["Direction"]) :
    ∃ v, drawCylinder s.cylinder (s.length 2) g = .ok v ∧
      (∀ x ∈ v.points.drop g.points.length, s.lower 2 + s.length 2 / 2 ≤ x.coords.2.2) ∧
      ∃ x ∈ v.points.drop g.points.length, x.coords.2.2 = s.upper 2 + s.length 2 / 2 := by
  have hu : s.cylinder.direction = ![0, 0, 1] := by
    simp [Grid.cylinder, Cylinder.mk0, normalize, dot]
  have hz : s.cylinder.position 2 = s.upper 2 := by simp [Grid.cylinder, Cylinder.mk0, Grid.length]
  have hn : dot (![0, 0, 1] : V3) ![0, 0, 1] = 1 := by simp [dot]
  obtain ⟨e1, e2, -, -, -, h4, h5, -, -, hc⟩ := frame hn (by
    intro e
    have := congrFun e 0
    norm_num at this)
  have hc2 : ∀ i, circlePoint ![0, 0, 1] s.cylinder.radius i 2 = 0 := by
    intro i
    simp [dot] at h4 h5
    rw [hc]
    simp [h4, h5]
  rw [drawCylinder_eq _ _ g hg]
  have hl : s.length 2 = s.upper 2 - s.lower 2 := rfl
  refine ⟨_, rfl, ?_, ?_⟩
  · intro x hx
    simp only [List.drop_left] at hx
    obtain ⟨y, hy, rfl⟩ := List.mem_map.1 hx
    unfold cylinderPoints at hy
    rw [hu] at hy
    simp only [List.cons_append, List.nil_append, List.mem_cons, List.mem_flatMap, List.mem_range,
      List.not_mem_nil, or_false] at hy
    show _ ≤ y 2
    have h1 : (![0, 0, 1] : V3) 2 = 1 := rfl
    rcases hy with rfl | rfl | ⟨_, _, rfl | rfl⟩ <;>
      simp only [Pi.add_apply, Pi.sub_apply, Pi.smul_apply, smul_eq_mul, hc2, hz, h1] <;> linarith
  · simp only [List.drop_left]
    refine ⟨_, List.mem_map.2 ⟨_, List.mem_append_left _ List.mem_cons_self, rfl⟩, ?_⟩
    simp [pointOf, hu, hz]

/-- A wall and a cylinder as assumed above -/
example : dot (![0, 3 / 5, 4 / 5] : V3) ![0, 3 / 5, 4 / 5] = 1 ∧ (![0, 3 / 5, 4 / 5] : V3) ≠ ![-1, 0, 0] := by
  refine ⟨by simp [dot]; norm_num, fun e => ?_⟩
  have := congrFun e 0
  norm_num at this

end NuTo.Collision
