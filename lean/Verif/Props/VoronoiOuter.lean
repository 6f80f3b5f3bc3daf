/-
C106, continued: the edges at the hull of the points, and the cells of all points.
-/
import Verif.Props.VoronoiCells

namespace NuTo.Delaunay

variable {K : Type} [Field K] [LinearOrder K] [IsStrictOrderedRing K]

/-! ### Specification -/

/-- Any two corners of the triangle are joined by an edge. -/
def Closed (t : Triangle K) : Prop :=
  ∀ x y, t.contains x = true → t.contains y = true → x ≠ y → ∃ f ∈ t.edges, (f.p0 = x ∧ f.p1 = y) ∨ (f.p0 = y ∧ f.p1 = x)

/-- The point lies on the side of the line through `u` and `v` on which `w` lies, or on the line. -/
def SameSide (u v w s : Pt K) : Prop := 0 ≤ orient u v w * orient u v s

/-! ### The direction at an edge of one triangle -/

theorem edge_pos {u v : Pt K} (h : u ≠ v) : 0 < (v.x - u.x) * (v.x - u.x) + (v.y - u.y) * (v.y - u.y) := by
  have h1 := mul_self_nonneg (v.x - u.x)
  have h2 := mul_self_nonneg (v.y - u.y)
  rcases (add_nonneg h1 h2).lt_or_eq with h3 | h3
  · exact h3
  · exfalso
    have k1 : v.x - u.x = 0 := mul_self_eq_zero.1 (by linarith)
    have k2 : v.y - u.y = 0 := mul_self_eq_zero.1 (by linarith)
    apply h
    obtain ⟨ux, uy⟩ := u
    obtain ⟨vx, vy⟩ := v
    simp only at k1 k2
    rw [Pt.mk.injEq]
    exact ⟨by linarith, by linarith⟩

/-- The direction is that from the circumcentre to the middle of the edge, if they are not near to each other. -/
theorem bisectorDir_middle (q : Edge K) (hq : q.p0 ≠ q.p1) (o : Pt K) (ho : dist2 o q.p0 = dist2 o q.p1)
    (hfar : 1 / 100000000 ≤ dist2 o ⟨(q.p0.x + q.p1.x) / 2, (q.p0.y + q.p1.y) / 2⟩) :
    bisectorDir q o = ⟨(q.p0.x + q.p1.x) / 2 - o.x, (q.p0.y + q.p1.y) / 2 - o.y⟩ := by
  have hpos := edge_pos hq
  have hs : ((q.p1.x - q.p0.x) * (o.x - q.p0.x) + (q.p1.y - q.p0.y) * (o.y - q.p0.y)) /
      ((q.p1.x - q.p0.x) * (q.p1.x - q.p0.x) + (q.p1.y - q.p0.y) * (q.p1.y - q.p0.y)) = 1 / 2 := by
    rw [div_eq_iff hpos.ne']
    unfold dist2 at ho
    linear_combination ho / 2
  have hx : q.p0.x + 1 / 2 * (q.p1.x - q.p0.x) - o.x = (q.p0.x + q.p1.x) / 2 - o.x := by ring
  have hy : q.p0.y + 1 / 2 * (q.p1.y - q.p0.y) - o.y = (q.p0.y + q.p1.y) / 2 - o.y := by ring
  unfold bisectorDir
  simp only
  rw [hs, hx, hy, if_neg]
  rw [not_lt, abs_of_nonneg (add_nonneg (mul_self_nonneg _) (mul_self_nonneg _))]
  refine hfar.trans (le_of_eq ?_)
  unfold dist2
  ring

/-- The line from the middle of the edge `u v` into the triangle leaves it through the edge `u w`, if the foot of `w` is
nearer to `v`. -/
theorem leaves {u v w o n : Pt K} (he : 0 < (v.x - u.x) * (v.x - u.x) + (v.y - u.y) * (v.y - u.y))
    (hn : n = ⟨(u.x + v.x) / 2 - o.x, (u.y + v.y) / 2 - o.y⟩)
    (hperp : (v.x - u.x) * n.x + (v.y - u.y) * n.y = 0) (hn0 : 0 < n.x * n.x + n.y * n.y)
    (hin : 0 < n.x * (w.x - u.x) + n.y * (w.y - u.y))
    (hfoot : (v.x - u.x) * (v.x - u.x) + (v.y - u.y) * (v.y - u.y) ≤
      2 * ((v.x - u.x) * (w.x - u.x) + (v.y - u.y) * (w.y - u.y)))
    (f : Edge K) (hf : (f.p0 = u ∧ f.p1 = w) ∨ (f.p0 = w ∧ f.p1 = u)) : above (f.lineParameter o n) 1 = true := by
  obtain ⟨ex, hex⟩ : ∃ ex, ex = v.x - u.x := ⟨_, rfl⟩
  obtain ⟨ey, hey⟩ : ∃ ey, ey = v.y - u.y := ⟨_, rfl⟩
  obtain ⟨dx, hdx⟩ : ∃ dx, dx = w.x - u.x := ⟨_, rfl⟩
  obtain ⟨dy, hdy⟩ : ∃ dy, dy = w.y - u.y := ⟨_, rfl⟩
  have hox : o.x - u.x = ex / 2 - n.x := by rw [hn, hex]; simp only; ring
  have hoy : o.y - u.y = ey / 2 - n.y := by rw [hn, hey]; simp only; ring
  rw [← hex, ← hey] at he hperp
  rw [← hdx, ← hdy] at hin
  rw [← hex, ← hey, ← hdx, ← hdy] at hfoot
  obtain ⟨A, hA⟩ : ∃ A, A = ex * ex + ey * ey := ⟨_, rfl⟩
  obtain ⟨B, hB⟩ : ∃ B, B = ex * dx + ey * dy := ⟨_, rfl⟩
  obtain ⟨N, hN⟩ : ∃ N, N = n.x * n.x + n.y * n.y := ⟨_, rfl⟩
  obtain ⟨D, hD⟩ : ∃ D, D = n.x * dx + n.y * dy := ⟨_, rfl⟩
  rw [← hA] at he
  rw [← hA, ← hB] at hfoot
  rw [← hN] at hn0
  rw [← hD] at hin
  have hBpos : 0 < B := by linarith
  obtain ⟨m, hm⟩ : ∃ m, m = A / (2 * B) := ⟨_, rfl⟩
  have hmB : m * B = A / 2 := by rw [hm]; field_simp
  have hm0 : 0 < m := by rw [hm]; positivity
  have hm1 : m ≤ 1 := by rw [hm, div_le_one (by positivity)]; exact hfoot
  obtain ⟨l, hl⟩ : ∃ l, l = m * D / N := ⟨_, rfl⟩
  have hlN : l * N = m * D := by rw [hl]; field_simp
  have hl0 : 0 < l := by rw [hl]; positivity
  -- the determinant of `e` and `n`
  obtain ⟨c, hc⟩ : ∃ c, c = ex * n.y - ey * n.x := ⟨_, rfl⟩
  have hc2 : c * c = A * N := by
    rw [hc, hA, hN]
    linear_combination -(ex * n.x + ey * n.y) * hperp
  have hc0 : c ≠ 0 := by
    intro h0
    rw [h0] at hc2
    have : 0 < A * N := mul_pos he hn0
    linarith
  -- the point on the line is the point on the edge
  have hx : ex / 2 + l * n.x = m * dx := by
    apply mul_right_cancel₀ hc0
    have k1 : (ex / 2 + l * n.x - m * dx) * ex + (ey / 2 + l * n.y - m * dy) * ey = 0 := by
      linear_combination l * hperp - hmB + m * hB - (1 / 2) * hA
    have k2 : (ex / 2 + l * n.x - m * dx) * n.x + (ey / 2 + l * n.y - m * dy) * n.y = 0 := by
      linear_combination (1 / 2) * hperp + hlN + m * hD - l * hN
    rw [hc]
    linear_combination n.y * k1 - ey * k2
  have hy : ey / 2 + l * n.y = m * dy := by
    apply mul_right_cancel₀ hc0
    have k1 : (ex / 2 + l * n.x - m * dx) * ex + (ey / 2 + l * n.y - m * dy) * ey = 0 := by
      linear_combination l * hperp - hmB + m * hB - (1 / 2) * hA
    have k2 : (ex / 2 + l * n.x - m * dx) * n.x + (ey / 2 + l * n.y - m * dy) * n.y = 0 := by
      linear_combination (1 / 2) * hperp + hlN + m * hD - l * hN
    rw [hc]
    linear_combination ex * k2 - n.x * k1
  have hpx : o.x + (1 + l) * n.x = u.x + m * dx := by linear_combination hox + hx
  have hpy : o.y + (1 + l) * n.y = u.y + m * dy := by linear_combination hoy + hy
  have hcross : dx * n.y - dy * n.x ≠ 0 := by
    intro h0
    have : m * (dx * n.y - dy * n.x) = c / 2 := by
      rw [hc]
      linear_combination -n.y * hx + n.x * hy
    rw [h0, mul_zero] at this
    exact hc0 (by linarith)
  have hpar : f.lineParameter o n = some (1 + l) := by
    rw [C102_lineParameter f o n (1 + l) (by linarith)]
    rcases hf with ⟨h0, h1⟩ | ⟨h0, h1⟩
    · rw [h0, h1]
      refine ⟨by rw [← hdx, ← hdy]; exact hcross, m, hm0.le, hm1, ?_, ?_⟩
      · rw [← hdx]; exact hpx
      · rw [← hdy]; exact hpy
    · rw [h0, h1]
      refine ⟨fun h => hcross (by rw [hdx, hdy]; linear_combination -h), 1 - m, by linarith, by linarith, ?_, ?_⟩
      · simp only; rw [hpx, hdx]; ring
      · simp only; rw [hpy, hdy]; ring
  rw [hpar]
  simp [above, hl0]

/-- C106, direction: at an edge that belongs to one triangle whose circumcentre is not near the middle of the edge the chosen
direction points away from the third corner. -/
theorem C106_outward (t : Triangle K) (q : Edge K) (w : Pt K) (hq : q.p0 ≠ q.p1) (hcl : Closed t)
    (h0 : t.contains q.p0 = true) (h1 : t.contains q.p1 = true) (hw : t.contains w = true)
    (hthree : ∀ x, t.contains x = true → x = q.p0 ∨ x = q.p1 ∨ x = w) (hor : orient q.p0 q.p1 w ≠ 0)
    (o : Pt K) (ho : dist2 o q.p0 = dist2 o q.p1)
    (hfar : 1 / 100000000 ≤ dist2 o ⟨(q.p0.x + q.p1.x) / 2, (q.p0.y + q.p1.y) / 2⟩)
    (n : Pt K) (hn : n = if intersectsAgain t q o (bisectorDir q o) then
      ⟨-(bisectorDir q o).x, -(bisectorDir q o).y⟩ else bisectorDir q o) :
    n.x * (w.x - q.p0.x) + n.y * (w.y - q.p0.y) < 0 := by
  have hperp := bisectorDir_perp q hq o
  have hmid := bisectorDir_middle q hq o ho hfar
  obtain ⟨n0, hn0⟩ : ∃ n0, n0 = bisectorDir q o := ⟨_, rfl⟩
  rw [← hn0] at hn hperp hmid
  have hpos : 0 < n0.x * n0.x + n0.y * n0.y := by
    have : dist2 o ⟨(q.p0.x + q.p1.x) / 2, (q.p0.y + q.p1.y) / 2⟩ = n0.x * n0.x + n0.y * n0.y := by
      rw [hmid]; unfold dist2; simp only; ring
    rw [← this]
    exact lt_of_lt_of_le (by positivity) hfar
  have he := edge_pos hq
  -- the third corner is not on the line of the edge
  have hne : n0.x * (w.x - q.p0.x) + n0.y * (w.y - q.p0.y) ≠ 0 := by
    intro hz
    apply hor
    have hc : (q.p1.x - q.p0.x) * n0.y - (q.p1.y - q.p0.y) * n0.x ≠ 0 := by
      intro hc
      have k : ((q.p1.x - q.p0.x) * (q.p1.x - q.p0.x) + (q.p1.y - q.p0.y) * (q.p1.y - q.p0.y)) *
          (n0.x * n0.x + n0.y * n0.y) = 0 := by
        linear_combination ((q.p1.x - q.p0.x) * n0.x + (q.p1.y - q.p0.y) * n0.y) * hperp +
          ((q.p1.x - q.p0.x) * n0.y - (q.p1.y - q.p0.y) * n0.x) * hc
      have := mul_pos he hpos
      linarith
    have hn2 : (n0.x * n0.x + n0.y * n0.y) * orient q.p0 q.p1 w = 0 := by
      unfold orient
      linear_combination (n0.x * (w.y - q.p0.y) - n0.y * (w.x - q.p0.x)) * hperp -
        (n0.x * (q.p1.y - q.p0.y) - n0.y * (q.p1.x - q.p0.x)) * hz
    rcases mul_eq_zero.1 hn2 with h | h
    · exact absurd h hpos.ne'
    · exact h
  have hiff : intersectsAgain t q o n0 = true ↔ 0 < n0.x * (w.x - q.p0.x) + n0.y * (w.y - q.p0.y) := by
    constructor
    · intro h
      by_contra hle
      rw [not_lt] at hle
      rw [intersectsAgain, List.any_eq_true] at h
      obtain ⟨f, hf, h⟩ := h
      rw [Bool.and_eq_true] at h
      obtain ⟨-, h⟩ := h
      cases hl : f.lineParameter o n0 with
      | none => rw [hl] at h; simp [above] at h
      | some x =>
        rw [hl] at h
        simp only [above, decide_eq_true_eq] at h
        obtain ⟨-, s, s0, s1, hx, hy⟩ := (C102_lineParameter f o n0 x (by linarith)).1 hl
        simp only at hx hy
        have hside : ∀ y, t.contains y = true → n0.x * (y.x - q.p0.x) + n0.y * (y.y - q.p0.y) ≤ 0 := by
          intro y hy
          rcases hthree y hy with rfl | rfl | rfl
          · simp
          · linarith
          · exact hle
        have c0 : t.contains f.p0 = true := by
          rw [Triangle.contains, List.any_eq_true]
          exact ⟨f, hf, by simp [Edge.contains]⟩
        have c1 : t.contains f.p1 = true := by
          rw [Triangle.contains, List.any_eq_true]
          exact ⟨f, hf, by simp [Edge.contains]⟩
        have k0 := mul_nonpos_of_nonneg_of_nonpos (sub_nonneg.2 s1) (hside _ c0)
        have k1 := mul_nonpos_of_nonneg_of_nonpos s0 (hside _ c1)
        have k2 : (x - 1) * (n0.x * n0.x + n0.y * n0.y) =
            (1 - s) * (n0.x * (f.p0.x - q.p0.x) + n0.y * (f.p0.y - q.p0.y)) +
              s * (n0.x * (f.p1.x - q.p0.x) + n0.y * (f.p1.y - q.p0.y)) := by
          have m1 : o.x = (q.p0.x + q.p1.x) / 2 - n0.x := by rw [hmid]; simp
          have m2 : o.y = (q.p0.y + q.p1.y) / 2 - n0.y := by rw [hmid]; simp
          rw [m1] at hx
          rw [m2] at hy
          linear_combination n0.x * hx + n0.y * hy - (1 / 2) * hperp
        have k3 := mul_pos (sub_pos.2 h) hpos
        linarith
    · intro h
      have hsym : n0 = ⟨(q.p1.x + q.p0.x) / 2 - o.x, (q.p1.y + q.p0.y) / 2 - o.y⟩ := by
        rw [hmid]; simp only [add_comm]
      have hw0 : w ≠ q.p0 := fun e => hor (by rw [e]; unfold orient; ring)
      have hw1 : w ≠ q.p1 := fun e => hor (by rw [e]; unfold orient; ring)
      rw [intersectsAgain, List.any_eq_true]
      rcases le_total ((q.p1.x - q.p0.x) * (q.p1.x - q.p0.x) + (q.p1.y - q.p0.y) * (q.p1.y - q.p0.y))
        (2 * ((q.p1.x - q.p0.x) * (w.x - q.p0.x) + (q.p1.y - q.p0.y) * (w.y - q.p0.y))) with hfoot | hfoot
      · obtain ⟨f, hf, hff⟩ := hcl q.p0 w h0 hw hw0.symm
        refine ⟨f, hf, ?_⟩
        rw [Bool.and_eq_true]
        refine ⟨?_, leaves he hmid hperp hpos h hfoot f hff⟩
        simp only [Edge.same, Bool.not_eq_true', decide_eq_false_iff_not]
        rintro (⟨a, b⟩ | ⟨a, b⟩) <;> rcases hff with ⟨c, d⟩ | ⟨c, d⟩
        · exact hw1 (by rw [← d, b])
        · exact hw0 (by rw [← c, a])
        · exact hq (by rw [← c, a])
        · exact hw1 (by rw [← c, a])
      · obtain ⟨f, hf, hff⟩ := hcl q.p1 w h1 hw hw1.symm
        refine ⟨f, hf, ?_⟩
        rw [Bool.and_eq_true]
        refine ⟨?_, leaves (u := q.p1) (v := q.p0) (by linarith) hsym (by linarith) hpos (by linarith) (by linarith) f hff⟩
        simp only [Edge.same, Bool.not_eq_true', decide_eq_false_iff_not]
        rintro (⟨a, b⟩ | ⟨a, b⟩) <;> rcases hff with ⟨c, d⟩ | ⟨c, d⟩
        · exact hq (by rw [← a, c])
        · exact hw0 (by rw [← c, a])
        · exact hw0 (by rw [← d, b])
        · exact hw1 (by rw [← c, a])
  by_cases h : intersectsAgain t q o n0 = true
  · rw [if_pos h] at hn
    rw [hn]
    simp only
    have := hiff.1 h
    linarith
  · rw [if_neg h] at hn
    rw [hn]
    have := fun h' => h (hiff.2 h')
    exact lt_of_le_of_ne (not_lt.1 this) hne

/-! ### Points at an edge of one triangle -/

theorem closest_along (b : Polygon K) (p n : Pt K) :
    ∃ l, 0 ≤ l ∧ b.closestIntersection p n = ⟨p.x + n.x * l, p.y + n.y * l⟩ := by
  refine ⟨_, ?_, rfl⟩
  have key : ∀ (es : List (Edge K)) (b0 : K), 0 ≤ b0 → 0 ≤ es.foldl (closestStep p n) b0 := by
    intro es
    induction es with
    | nil => intro b0 h; exact h
    | cons e es ih =>
      intro b0 h
      rw [List.foldl_cons]
      apply ih
      unfold closestStep
      split
      · split_ifs with hl
        · exact le_min h (le_trans (by positivity) hl.le)
        · exact h
      · exact h
  exact key _ _ (by positivity)

/-- The points found at the edge lie on the line from the circumcentre in the chosen direction. -/
theorem pointsOne_along (b : Polygon K) (t : Triangle K) (q : Edge K) (o : Pt K) (n : Pt K)
    (hn : n = if intersectsAgain t q o (bisectorDir q o) then
      ⟨-(bisectorDir q o).x, -(bisectorDir q o).y⟩ else bisectorDir q o) :
    ∀ r ∈ pointsOne b t q o, ∃ l, 0 ≤ l ∧ r = ⟨o.x + n.x * l, o.y + n.y * l⟩ := by
  intro r hr
  unfold pointsOne at hr
  simp only [← hn] at hr
  obtain ⟨l, l0, hl⟩ := closest_along b o n
  split_ifs at hr
  · simp only [List.mem_cons, List.not_mem_nil, or_false] at hr
    rcases hr with rfl | rfl
    · exact ⟨0, le_rfl, by simp⟩
    · exact ⟨l, l0, hl⟩
  · simp at hr
  · simp only [List.mem_cons, List.not_mem_nil, or_false] at hr
    rcases hr with rfl | rfl
    · exact ⟨l, l0, hl⟩
    · obtain ⟨k, k0, hk⟩ := closest_along b (b.closestIntersection o n) n
      refine ⟨l + k, add_nonneg l0 k0, ?_⟩
      rw [hk, hl]
      simp only [Pt.mk.injEq]
      constructor <;> ring

omit [LinearOrder K] [IsStrictOrderedRing K] in
theorem along_dist (o n u s : Pt K) (l : K) :
    dist2 ⟨o.x + n.x * l, o.y + n.y * l⟩ s - dist2 ⟨o.x + n.x * l, o.y + n.y * l⟩ u =
      dist2 o s - dist2 o u - 2 * l * (n.x * (s.x - u.x) + n.y * (s.y - u.y)) := by
  unfold dist2
  simp only
  ring

/-- A direction perpendicular to the edge that points away from `w` points away from all points on the side of `w`. -/
theorem away_side {u v w s n : Pt K} (huv : u ≠ v) (hperp : (v.x - u.x) * n.x + (v.y - u.y) * n.y = 0)
    (hw : n.x * (w.x - u.x) + n.y * (w.y - u.y) < 0) (hs : SameSide u v w s) :
    n.x * (s.x - u.x) + n.y * (s.y - u.y) ≤ 0 := by
  have he := edge_pos huv
  unfold SameSide orient at hs
  obtain ⟨c, hc⟩ : ∃ c, c = (v.x - u.x) * n.y - (v.y - u.y) * n.x := ⟨_, rfl⟩
  obtain ⟨A, hA⟩ : ∃ A, A = (v.x - u.x) * (v.x - u.x) + (v.y - u.y) * (v.y - u.y) := ⟨_, rfl⟩
  rw [← hA] at he
  have key : ∀ y : Pt K, A * (n.x * (y.x - u.x) + n.y * (y.y - u.y)) =
      c * ((v.x - u.x) * (y.y - u.y) - (v.y - u.y) * (y.x - u.x)) := by
    intro y
    rw [hc, hA]
    linear_combination ((v.x - u.x) * (y.x - u.x) + (v.y - u.y) * (y.y - u.y)) * hperp
  by_contra hpos
  rw [not_le] at hpos
  have h1 := mul_pos he hpos
  have h2 := mul_neg_of_pos_of_neg he hw
  rw [key] at h1 h2
  have h3 := mul_neg_of_pos_of_neg h1 h2
  have h4 : c * c * (((v.x - u.x) * (w.y - u.y) - (v.y - u.y) * (w.x - u.x)) *
      ((v.x - u.x) * (s.y - u.y) - (v.y - u.y) * (s.x - u.x))) < 0 := by
    refine lt_of_eq_of_lt ?_ h3
    ring
  have h5 := mul_nonneg (mul_self_nonneg c) hs
  linarith

/-! ### Corners of triangles -/

omit [Field K] [IsStrictOrderedRing K] in
theorem corners_contained {t : Triangle K} {a b c : Pt K} (h : t.uniquePoints = .ok (a, b, c)) :
    t.contains a = true ∧ t.contains b = true ∧ t.contains c = true := by
  unfold Triangle.uniquePoints at h
  simp only at h
  split_ifs at h with h1 h2
  · simp only [Res.ok.injEq, Prod.mk.injEq] at h
    obtain ⟨rfl, rfl, rfl⟩ := h
    simp [Triangle.contains, Triangle.edges, Edge.contains]
  · simp only [Res.ok.injEq, Prod.mk.injEq] at h
    obtain ⟨rfl, rfl, rfl⟩ := h
    simp [Triangle.contains, Triangle.edges, Edge.contains]

omit [LinearOrder K] [IsStrictOrderedRing K] in
theorem orient_perm (a b c : Pt K) : orient b c a = orient a b c ∧ orient c a b = orient a b c ∧ orient b a c = -orient a b c ∧
    orient a c b = -orient a b c ∧ orient c b a = -orient a b c := by
  unfold orient
  refine ⟨?_, ?_, ?_, ?_, ?_⟩ <;> ring

omit [IsStrictOrderedRing K] in
/-- The third corner of a triangle at an edge. -/
theorem third_corner {t : Triangle K} {a b c : Pt K} (ht : Proper t a b c) {q : Edge K} (hq : q.p0 ≠ q.p1)
    (h0 : q.p0 = a ∨ q.p0 = b ∨ q.p0 = c) (h1 : q.p1 = a ∨ q.p1 = b ∨ q.p1 = c) :
    ∃ w, t.contains w = true ∧ (∀ x, t.contains x = true → x = q.p0 ∨ x = q.p1 ∨ x = w) ∧ orient q.p0 q.p1 w ≠ 0 ∧
      t.contains q.p0 = true ∧ t.contains q.p1 = true := by
  obtain ⟨ca, cb, cc⟩ := corners_contained ht.1
  obtain ⟨o1, o2, o3, o4, o5⟩ := orient_perm a b c
  have hall : ∀ x, t.contains x = true → x = a ∨ x = b ∨ x = c := by
    intro x hx
    rw [Triangle.contains, List.any_eq_true] at hx
    obtain ⟨e, he, hx⟩ := hx
    obtain ⟨-, k0, k1⟩ := ht.2.2 e he
    simp only [Edge.contains, decide_eq_true_eq] at hx
    rcases hx with rfl | rfl
    exacts [k0, k1]
  have hor := ht.2.1
  have hor' := neg_ne_zero.2 hor
  rcases h0 with h0 | h0 | h0 <;> rcases h1 with h1 | h1 | h1
  · exact absurd (h0.trans h1.symm) hq
  · exact ⟨c, cc, fun x hx => by rw [h0, h1]; exact hall x hx, by rw [h0, h1]; exact hor, by rw [h0]; exact ca, by rw [h1]; exact cb⟩
  · exact ⟨b, cb, fun x hx => by rw [h0, h1]; have := hall x hx; tauto, by rw [h0, h1, o4]; exact hor', by rw [h0]; exact ca,
      by rw [h1]; exact cc⟩
  · exact ⟨c, cc, fun x hx => by rw [h0, h1]; have := hall x hx; tauto, by rw [h0, h1, o3]; exact hor', by rw [h0]; exact cb,
      by rw [h1]; exact ca⟩
  · exact absurd (h0.trans h1.symm) hq
  · exact ⟨a, ca, fun x hx => by rw [h0, h1]; have := hall x hx; tauto, by rw [h0, h1, o1]; exact hor, by rw [h0]; exact cb,
      by rw [h1]; exact cc⟩
  · exact ⟨b, cb, fun x hx => by rw [h0, h1]; have := hall x hx; tauto, by rw [h0, h1, o2]; exact hor, by rw [h0]; exact cc,
      by rw [h1]; exact ca⟩
  · exact ⟨a, ca, fun x hx => by rw [h0, h1]; have := hall x hx; tauto, by rw [h0, h1, o5]; exact hor', by rw [h0]; exact cc,
      by rw [h1]; exact cb⟩
  · exact absurd (h0.trans h1.symm) hq

/-! ### The cells of all points -/

/-- C106, all cells: let the circumcircles of the triangles contain no points.  If at the edges of `p` that belong to one
triangle all points are on the side of the triangle and its circumcentre is not near the middle of the edge, and at the edges
that belong to two triangles their circumcentres are inside of the boundary, then no point is nearer to a corner of the
cell of `p` than `p`.  (Corners of the boundary can be added to the cell.  Missing: circumcentres on an edge of the hull, see
`C106_right_counterexample`, and circumcentres of neighbours outside of the boundary.) -/
theorem C106_nearest_hull_partial (E : Env K) (h10 : ∀ c p, -10 + 1 / 1000000 < E.angle c p)
    (bp : List (Pt K)) (pts : List (Pt K)) (tris : List (Triangle K)) (ht : ∀ t ∈ tris, ∃ a b c, Proper t a b c)
    (hcl : ∀ t ∈ tris, Closed t)
    (hempty : ∀ t ∈ tris, ∀ o, t.circumcenter = .ok o → ∀ v, t.contains v = true → ∀ s ∈ pts, dist2 o v ≤ dist2 o s)
    (p : Pt K)
    (hone : ∀ e ∈ E.order (edgeKeys tris), e.contains p = true → ∀ t, trianglesOf tris e = [t] →
      (∀ o, t.circumcenter = .ok o → 1 / 100000000 ≤ dist2 o ⟨(e.p0.x + e.p1.x) / 2, (e.p0.y + e.p1.y) / 2⟩) ∧
      ∀ w, t.contains w = true → ∀ s ∈ pts, SameSide e.p0 e.p1 w s)
    (htwo : ∀ e ∈ E.order (edgeKeys tris), e.contains p = true → (trianglesOf tris e).length = 2 →
      ∀ t ∈ trianglesOf tris e, ∀ o, t.circumcenter = .ok o → (Polygon.make E.angle bp).pointIsInside o = true)
    (g : Polygon K) (h : cell E (Polygon.make E.angle bp) tris p = .ok g) :
    ∀ r ∈ g.points, r ∈ bp ∨ ∀ s ∈ pts, dist2 r p ≤ dist2 r s := by
  unfold cell at h
  obtain ⟨l, hl, h⟩ := Res.bind_eq_ok h
  intro r hr
  rcases addIntersection_mem h10 h r hr with hr | hr
  · right
    obtain ⟨q, hq, l', he, hm⟩ := voronoiPoints_mem hl r ((C102_corners E.angle h10 _).1 r hr)
    obtain ⟨hq, hc⟩ := List.mem_filter.1 hq
    have key : ∀ t ∈ trianglesOf tris q, t ∈ tris ∧ t.contains p = true := by
      intro t h
      obtain ⟨m, f, hf, hs⟩ := mem_trianglesOf h
      refine ⟨m, ?_⟩
      rw [Triangle.contains, List.any_eq_true]
      refine ⟨f, hf, ?_⟩
      simp only [Edge.same, decide_eq_true_eq] at hs
      simp only [Edge.contains, decide_eq_true_eq] at hc ⊢
      rcases hs with ⟨a1, a2⟩ | ⟨a1, a2⟩ <;> rw [a1, a2]
      exacts [hc, hc.symm]
    obtain ⟨-, -, hbis⟩ := edgePoints_bisector ht he
    unfold edgePoints at he
    split at he
    · rename_i t e
      obtain ⟨mt, tp⟩ := key t (by rw [e]; simp)
      obtain ⟨_, f, hf, hs⟩ := mem_trianglesOf (show t ∈ trianglesOf tris q by rw [e]; simp)
      obtain ⟨a, b, c, hp⟩ := ht t mt
      obtain ⟨h1, h2, h3⟩ := proper_edge hp hf hs
      obtain ⟨w, w1, w2, w3, w4, w5⟩ := third_corner hp h1 h2 h3
      obtain ⟨o, ho, he⟩ := Res.bind_eq_ok he
      rw [Res.ok.injEq] at he
      have heq := circumcentre_edge hp ho h2 h3
      obtain ⟨far, side⟩ := hone q hq hc t e
      obtain ⟨n, hn⟩ : ∃ n : Pt K, n = if intersectsAgain t q o (bisectorDir q o) then
        ⟨-(bisectorDir q o).x, -(bisectorDir q o).y⟩ else bisectorDir q o := ⟨_, rfl⟩
      have hout := C106_outward t q w h1 (hcl t mt) w4 w5 w1 w2 w3 o heq (far o ho) n hn
      have hperp : (q.p1.x - q.p0.x) * n.x + (q.p1.y - q.p0.y) * n.y = 0 := by
        have := bisectorDir_perp q h1 o
        rw [hn]
        split_ifs
        · simp only; linear_combination -this
        · exact this
      have hrq : dist2 r p = dist2 r q.p0 := by
        simp only [Edge.contains, decide_eq_true_eq] at hc
        rcases hc with rfl | rfl
        · rfl
        · exact (hbis r hm).symm
      rw [← he] at hm
      obtain ⟨k, k0, hk⟩ := pointsOne_along _ t q o n hn r hm
      intro s hs
      have d1 := along_dist o n q.p0 s k
      rw [← hk] at d1
      have d2 := hempty t mt o ho q.p0 w4 s hs
      have d3 := mul_nonpos_of_nonneg_of_nonpos k0 (away_side h1 hperp hout (side w w1 s hs))
      rw [hrq]
      linarith
    · rename_i t u e
      have h2 : (trianglesOf tris q).length = 2 := by rw [e]; rfl
      have hin := htwo q hq hc h2
      rw [e] at key hin
      obtain ⟨t1, t2⟩ := key t (by simp)
      obtain ⟨u1, u2⟩ := key u (by simp)
      obtain ⟨o, ho, he⟩ := Res.bind_eq_ok he
      obtain ⟨o', ho', he⟩ := Res.bind_eq_ok he
      rw [Res.ok.injEq] at he
      rw [← he, pointsTwo, if_pos (hin t (by simp) o ho), pointsTwoEnd, if_pos (hin u (by simp) o' ho')] at hm
      simp only [List.mem_cons, List.not_mem_nil, or_false] at hm
      rcases hm with rfl | rfl
      · exact hempty t t1 r ho p t2
      · exact hempty u u1 r ho' p u2
    · exact absurd he (by simp)
  · exact .inl ((C102_corners E.angle h10 _).1 r hr)

/-! ### Example -/

/-- a triangle with an obtuse angle: its circumcentre `(2, -3 / 2)` is beyond the longest edge -/
def hullTris : List (Triangle ℚ) := [⟨⟨⟨0, 0⟩, ⟨4, 0⟩⟩, ⟨⟨4, 0⟩, ⟨2, 1⟩⟩, ⟨⟨2, 1⟩, ⟨0, 0⟩⟩⟩]

def hullPoints : List (Pt ℚ) := [⟨0, 0⟩, ⟨4, 0⟩, ⟨2, 1⟩]

def hullBoundary : List (Pt ℚ) := [⟨-20, -10⟩, ⟨24, -10⟩, ⟨2, 40⟩]

theorem hull_proper : ∀ t ∈ hullTris, ∃ a b c, Proper t a b c := by
  intro t ht
  simp only [hullTris, List.mem_singleton] at ht
  subst ht
  refine ⟨⟨0, 0⟩, ⟨4, 0⟩, ⟨2, 1⟩, by decide +kernel, by norm_num [orient], ?_⟩
  decide +kernel

theorem hull_closed : ∀ t ∈ hullTris, Closed t := by
  intro t ht x y hx hy hne
  simp only [hullTris, List.mem_singleton] at ht
  subst ht
  simp only [Triangle.contains, Triangle.edges, Edge.contains, List.any_cons, List.any_nil, Bool.or_false, Bool.or_eq_true,
    decide_eq_true_eq] at hx hy
  have hx' : x = ⟨0, 0⟩ ∨ x = ⟨4, 0⟩ ∨ x = ⟨2, 1⟩ := by simp only [eq_comm (a := x)]; tauto
  have hy' : y = ⟨0, 0⟩ ∨ y = ⟨4, 0⟩ ∨ y = ⟨2, 1⟩ := by simp only [eq_comm (a := y)]; tauto
  rcases hx' with rfl | rfl | rfl <;> rcases hy' with rfl | rfl | rfl <;> first
    | exact absurd rfl hne
    | decide +kernel

/-- The hypotheses of `C106_nearest_hull_partial` (and with them those of `C106_outward`) for a corner of the triangle: the
direction at the longest edge is reversed, the cell has four corners, and no point is nearer to those that are not corners
of the boundary. -/
example : ∃ g, cell exEnv (Polygon.make diamondAngle hullBoundary) hullTris ⟨0, 0⟩ = .ok g ∧
    g.points = [⟨-20, -10⟩, ⟨-725 / 94, 1685 / 94⟩, ⟨2, -3 / 2⟩, ⟨2, -10⟩] ∧
    ∀ r ∈ g.points, r ∈ hullBoundary ∨ ∀ s ∈ hullPoints, dist2 r ⟨0, 0⟩ ≤ dist2 r s := by
  have h : outcome ((cell exEnv (Polygon.make diamondAngle hullBoundary) hullTris ⟨0, 0⟩).bind fun g => .ok [g]) =
      .ok [[⟨-20, -10⟩, ⟨-725 / 94, 1685 / 94⟩, ⟨2, -3 / 2⟩, ⟨2, -10⟩]] := by decide +kernel
  cases hc : cell exEnv (Polygon.make diamondAngle hullBoundary) hullTris ⟨0, 0⟩ with
  | throw => rw [hc] at h; simp [outcome] at h
  | ub => rw [hc] at h; simp [outcome] at h
  | ok g =>
    rw [hc] at h
    simp only [outcome, Res.bind_ok', List.map_cons, List.map_nil, Res.ok.injEq, List.cons.injEq, and_true] at h
    refine ⟨g, rfl, h, ?_⟩
    refine C106_nearest_hull_partial exEnv diamondAngle_bound hullBoundary hullPoints hullTris hull_proper hull_closed ?_ ⟨0, 0⟩
      ?_ ?_ g hc
    · have key : ∀ t ∈ hullTris, ∀ o ∈ results t.circumcenter, ∀ e ∈ t.edges, ∀ s ∈ hullPoints,
          dist2 o e.p0 ≤ dist2 o s ∧ dist2 o e.p1 ≤ dist2 o s := by unfold dist2; decide +kernel
      intro t ht o ho v hv s hs
      rw [Triangle.contains, List.any_eq_true] at hv
      obtain ⟨e, he, hv⟩ := hv
      obtain ⟨k1, k2⟩ := key t ht o (by rw [ho]; simp [results]) e he s hs
      simp only [Edge.contains, decide_eq_true_eq] at hv
      rcases hv with rfl | rfl
      exacts [k1, k2]
    · have key : ∀ e ∈ edgeKeys hullTris, ∀ t ∈ trianglesOf hullTris e,
          (∀ o ∈ results t.circumcenter, 1 / 100000000 ≤ dist2 o ⟨(e.p0.x + e.p1.x) / 2, (e.p0.y + e.p1.y) / 2⟩) ∧
          ∀ f ∈ t.edges, ∀ s ∈ hullPoints, 0 ≤ orient e.p0 e.p1 f.p0 * orient e.p0 e.p1 s ∧
            0 ≤ orient e.p0 e.p1 f.p1 * orient e.p0 e.p1 s := by unfold dist2 orient; decide +kernel
      intro e he _ t ht
      obtain ⟨k1, k2⟩ := key e he t (by rw [ht]; simp)
      refine ⟨fun o ho => k1 o (by rw [ho]; simp [results]), fun w hw s hs => ?_⟩
      rw [Triangle.contains, List.any_eq_true] at hw
      obtain ⟨f, hf, hw⟩ := hw
      simp only [Edge.contains, decide_eq_true_eq] at hw
      rcases hw with rfl | rfl
      exacts [(k2 f hf s hs).1, (k2 f hf s hs).2]
    · have key : ∀ e ∈ edgeKeys hullTris, (trianglesOf hullTris e).length ≠ 2 := by decide +kernel
      intro e he _ h2
      exact absurd h2 (key e he)

end NuTo.Delaunay
