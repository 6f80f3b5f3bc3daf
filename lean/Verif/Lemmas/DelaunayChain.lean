import Mathlib.Data.List.Nodup
import Mathlib.Data.List.Perm.Basic
import Mathlib.Algebra.Order.BigOperators.Group.List
import Verif.Lemmas.DelaunayGeometry

/-! One step of the triangulation on counter clockwise triangles, as an oriented chain of edges. -/

namespace NuTo.Delaunay

variable {K : Type} [Field K] [LinearOrder K] [IsStrictOrderedRing K]

/-- A triangle by its corners, counter clockwise -/
abbrev Tri (K : Type) := Pt K × Pt K × Pt K

/-- A directed edge -/
abbrev Dart (K : Type) := Pt K × Pt K

/-- The directed edges of a triangle -/
def darts (t : Tri K) : List (Dart K) := [(t.1, t.2.1), (t.2.1, t.2.2), (t.2.2, t.1)]

/-- The directed edges of all triangles -/
def allDarts (L : List (Tri K)) : List (Dart K) := L.flatMap darts

/-- Sum of a function over directed edges -/
def total (f : Pt K → Pt K → K) (l : List (Dart K)) : K := (l.map fun d => f d.1 d.2).sum

/-- Changes its sign with the direction of the edge -/
def Anti (f : Pt K → Pt K → K) : Prop := ∀ u v, f v u = - f u v

section sums
omit [LinearOrder K] [IsStrictOrderedRing K]

@[simp] theorem total_nil (f : Pt K → Pt K → K) : total f [] = 0 := rfl

@[simp] theorem total_cons (f : Pt K → Pt K → K) (d : Dart K) (l : List (Dart K)) :
    total f (d :: l) = f d.1 d.2 + total f l := by simp [total]

@[simp] theorem total_append (f : Pt K → Pt K → K) (l l' : List (Dart K)) :
    total f (l ++ l') = total f l + total f l' := by simp [total]

theorem total_perm (f : Pt K → Pt K → K) {l l' : List (Dart K)} (h : l.Perm l') : total f l = total f l' :=
  (h.map _).sum_eq

@[simp] theorem allDarts_nil : allDarts ([] : List (Tri K)) = [] := rfl

@[simp] theorem allDarts_cons (t : Tri K) (L : List (Tri K)) : allDarts (t :: L) = darts t ++ allDarts L := by
  simp [allDarts]

@[simp] theorem allDarts_append (L M : List (Tri K)) : allDarts (L ++ M) = allDarts L ++ allDarts M := by
  simp [allDarts]

theorem allDarts_perm {L M : List (Tri K)} (h : L.Perm M) : (allDarts L).Perm (allDarts M) := h.flatMap_right _

theorem mem_allDarts {d : Dart K} {L : List (Tri K)} : d ∈ allDarts L ↔ ∃ t ∈ L, d ∈ darts t := List.mem_flatMap

theorem total_add (f g : Pt K → Pt K → K) (l : List (Dart K)) :
    total (fun u v => f u v + g u v) l = total f l + total g l := by
  induction l with
  | nil => simp
  | cons d l ih => simp only [total_cons, ih]; ring

theorem total_telescope (g : Pt K → K) (L : List (Tri K)) : total (fun u v => g u - g v) (allDarts L) = 0 := by
  induction L with
  | nil => rfl
  | cons t L ih => rw [allDarts_cons, total_append, ih]; simp [darts]

theorem total_swap (f : Pt K → Pt K → K) (hf : Anti f) (l : List (Dart K)) : total f (l.map Prod.swap) = - total f l := by
  induction l with
  | nil => simp
  | cons d l ih =>
    simp only [List.map_cons, total_cons, ih, Prod.fst_swap, Prod.snd_swap, hf d.1 d.2]
    ring

end sums

/-- Edges that occur in both directions cancel. -/
theorem total_closed (f : Pt K → Pt K → K) (hf : Anti f) (l : List (Dart K)) (hn : l.Nodup)
    (hc : ∀ d ∈ l, d.swap ∈ l) : total f l = 0 := by
  have hp : (l.map Prod.swap).Perm l := by
    rw [List.perm_ext_iff_of_nodup (hn.map Prod.swap_injective) hn]
    intro d
    simp only [List.mem_map]
    constructor
    · rintro ⟨e, he, rfl⟩
      exact hc e he
    · intro hd
      exact ⟨d.swap, hc d hd, Prod.swap_swap d⟩
  have := total_perm f hp
  rw [total_swap f hf] at this
  linarith

/-- The edges that occur in one direction only -/
def rim (D : List (Dart K)) : List (Dart K) := D.filter fun d => decide (d.swap ∉ D)

omit [Field K] [IsStrictOrderedRing K] in
theorem mem_rim {D : List (Dart K)} {d : Dart K} : d ∈ rim D ↔ d ∈ D ∧ d.swap ∉ D := by simp [rim]

theorem total_rim (f : Pt K → Pt K → K) (hf : Anti f) (D : List (Dart K)) (hn : D.Nodup) :
    total f (rim D) = total f D := by
  have hp := List.filter_append_perm (fun d : Dart K => decide (d.swap ∉ D)) D
  have := total_perm f hp
  rw [total_append] at this
  have h0 : total f (D.filter fun d => ! decide (d.swap ∉ D)) = 0 := by
    refine total_closed f hf _ (hn.filter _) ?_
    intro d hd
    simp only [List.mem_filter, decide_not, Bool.not_not, decide_eq_true_eq] at hd ⊢
    exact ⟨hd.2, by rw [Prod.swap_swap]; exact hd.1⟩
  rw [h0, add_zero] at this
  exact this

/-- Counts an edge, with its sign -/
def oneDart (e : Dart K) (u v : Pt K) : K := (if (u, v) = e then 1 else 0) - (if (v, u) = e then 1 else 0)

omit [IsStrictOrderedRing K] in
theorem oneDart_anti (e : Dart K) : Anti (oneDart e) := by
  intro u v
  unfold oneDart
  ring

omit [IsStrictOrderedRing K] in
theorem total_oneDart (e : Dart K) (l : List (Dart K)) :
    total (oneDart e) l = (l.count e : K) - (l.count e.swap : K) := by
  induction l with
  | nil => simp
  | cons d l ih =>
    rw [total_cons, ih, List.count_cons, List.count_cons]
    have h2 : ((d.2, d.1) = e) ↔ (d = e.swap) := by
      constructor
      · rintro rfl; rfl
      · rintro rfl; rfl
    unfold oneDart
    rw [if_congr h2 rfl rfl]
    simp only [Prod.mk.eta, beq_iff_eq, Nat.cast_add, Nat.cast_ite, Nat.cast_one, Nat.cast_zero]
    ring

/-- The sides of the box, counter clockwise -/
def quad (lo hi : Pt K) : List (Dart K) :=
  [(lo, ⟨hi.x, lo.y⟩), (⟨hi.x, lo.y⟩, hi), (hi, ⟨lo.x, hi.y⟩), (⟨lo.x, hi.y⟩, lo)]

/-- Strictly inside of the box -/
def InBox (lo hi p : Pt K) : Prop := lo.x < p.x ∧ p.x < hi.x ∧ lo.y < p.y ∧ p.y < hi.y

theorem quad_nonneg {lo hi p : Pt K} (hp : lo.x ≤ p.x ∧ p.x ≤ hi.x ∧ lo.y ≤ p.y ∧ p.y ≤ hi.y)
    (d : Dart K) (hd : d ∈ quad lo hi) : 0 ≤ orient d.1 d.2 p := by
  obtain ⟨h1, h2, h3, h4⟩ := hp
  simp only [quad, List.mem_cons, List.not_mem_nil, or_false] at hd
  rcases hd with rfl | rfl | rfl | rfl <;> simp only [orient]
  · nlinarith [mul_nonneg (by linarith : 0 ≤ hi.x - lo.x) (sub_nonneg.2 h3)]
  · nlinarith [mul_nonneg (by linarith : 0 ≤ hi.y - lo.y) (sub_nonneg.2 h2)]
  · nlinarith [mul_nonneg (by linarith : 0 ≤ hi.x - lo.x) (sub_nonneg.2 h4)]
  · nlinarith [mul_nonneg (by linarith : 0 ≤ hi.y - lo.y) (sub_nonneg.2 h1)]

theorem quad_pos {lo hi p : Pt K} (hp : InBox lo hi p) (d : Dart K) (hd : d ∈ quad lo hi) : 0 < orient d.1 d.2 p := by
  obtain ⟨h1, h2, h3, h4⟩ := hp
  simp only [quad, List.mem_cons, List.not_mem_nil, or_false] at hd
  rcases hd with rfl | rfl | rfl | rfl <;> simp only [orient]
  · nlinarith [mul_pos (by linarith : 0 < hi.x - lo.x) (sub_pos.2 h3)]
  · nlinarith [mul_pos (by linarith : 0 < hi.y - lo.y) (sub_pos.2 h2)]
  · nlinarith [mul_pos (by linarith : 0 < hi.x - lo.x) (sub_pos.2 h4)]
  · nlinarith [mul_pos (by linarith : 0 < hi.y - lo.y) (sub_pos.2 h1)]

theorem four_signs {a b c d : K} (hs : a + c = b + d) (h1 : ¬ (a < 0 ∧ b < 0 ∧ c < 0 ∧ d < 0))
    (h2 : ¬ (0 ≤ a ∧ 0 ≤ b ∧ 0 ≤ c ∧ 0 ≤ d)) :
    (if a < 0 ∧ 0 ≤ b then (1 : K) else 0) + ((if b < 0 ∧ 0 ≤ c then 1 else 0) + ((if c < 0 ∧ 0 ≤ d then 1 else 0) +
      ((if d < 0 ∧ 0 ≤ a then 1 else 0) + 0))) = 1 := by
  simp only [← not_lt] at *
  by_cases ha : a < 0 <;> by_cases hb : b < 0 <;> by_cases hc : c < 0 <;> by_cases hd : d < 0 <;>
    simp only [ha, hb, hc, hd, not_true_eq_false, not_false_eq_true, and_self, and_true, and_false, true_and, false_and,
      if_true, if_false, add_zero, zero_add] at h1 h2 ⊢ <;>
    (exfalso; rw [not_lt] at *; linarith)

/-- The boundary of the box is crossed once from inside. -/
theorem quad_crossing {lo hi p d : Pt K} (hd : d.x ≠ 0 ∨ d.y ≠ 0) (hp : InBox lo hi p) :
    total (crossing p d) (quad lo hi) = 1 := by
  have hq := quad_pos hp
  have e : ∀ u v : Pt K, 0 < orient u v p → crossing p d u v = if side p d u < 0 ∧ 0 ≤ side p d v then 1 else 0 := by
    intro u v h
    unfold crossing
    have h2 : ¬ (0 < orient v u p) := by rw [orient_swap]; linarith
    simp [h, h2]
  obtain ⟨h1, h2, h3, h4⟩ := hp
  have q1 := e _ _ (hq (lo, ⟨hi.x, lo.y⟩) (by simp [quad]))
  have q2 := e _ _ (hq (⟨hi.x, lo.y⟩, hi) (by simp [quad]))
  have q3 := e _ _ (hq (hi, ⟨lo.x, hi.y⟩) (by simp [quad]))
  have q4 := e _ _ (hq (⟨lo.x, hi.y⟩, lo) (by simp [quad]))
  simp only [quad, total_cons, total_nil, q1, q2, q3, q4]
  obtain ⟨dx, dy⟩ := d
  obtain ⟨px, py⟩ := p
  obtain ⟨lx, ly⟩ := lo
  obtain ⟨ux, uy⟩ := hi
  clear hq e q1 q2 q3 q4
  refine four_signs (by simp only [side]; ring) ?_ ?_
  all_goals
    simp only [side] at *
    have a0 : lx - px < 0 := by linarith
    have b0 : 0 < ux - px := by linarith
    have c0 : ly - py < 0 := by linarith
    have f0 : 0 < uy - py := by linarith
    generalize lx - px = a at *
    generalize ux - px = b at *
    generalize ly - py = c at *
    generalize uy - py = f at *
    rintro ⟨g1, g2, g3, g4⟩
    rcases lt_trichotomy dx 0 with hx | hx | hx
    · rcases lt_trichotomy dy 0 with hy | hy | hy
      · nlinarith [mul_pos (neg_pos.2 hx) (neg_pos.2 c0), mul_pos (neg_pos.2 hx) f0, mul_pos (neg_pos.2 hy) (neg_pos.2 a0),
          mul_pos (neg_pos.2 hy) b0]
      · subst hy
        nlinarith [mul_pos (neg_pos.2 hx) (neg_pos.2 c0), mul_pos (neg_pos.2 hx) f0]
      · nlinarith [mul_pos (neg_pos.2 hx) (neg_pos.2 c0), mul_pos (neg_pos.2 hx) f0, mul_pos hy (neg_pos.2 a0),
          mul_pos hy b0]
    · subst hx
      rcases lt_trichotomy dy 0 with hy | hy | hy
      · nlinarith [mul_pos (neg_pos.2 hy) (neg_pos.2 a0), mul_pos (neg_pos.2 hy) b0]
      · simp [hy] at hd
      · nlinarith [mul_pos hy (neg_pos.2 a0), mul_pos hy b0]
    · rcases lt_trichotomy dy 0 with hy | hy | hy
      · nlinarith [mul_pos hx (neg_pos.2 c0), mul_pos hx f0, mul_pos (neg_pos.2 hy) (neg_pos.2 a0),
          mul_pos (neg_pos.2 hy) b0]
      · subst hy
        nlinarith [mul_pos hx (neg_pos.2 c0), mul_pos hx f0]
      · nlinarith [mul_pos hx (neg_pos.2 c0), mul_pos hx f0, mul_pos hy (neg_pos.2 a0), mul_pos hy b0]

/-- Every edge of a triangle, seen from that edge -/
theorem dart_triangle {t : Tri K} {d : Dart K} (hd : d ∈ darts t) :
    ∃ w : Pt K, (w = t.1 ∨ w = t.2.1 ∨ w = t.2.2) ∧ orient d.1 d.2 w = orient t.1 t.2.1 t.2.2 ∧
      ∀ x, determinant d.1 d.2 w x = determinant t.1 t.2.1 t.2.2 x := by
  obtain ⟨a, b, c⟩ := t
  simp only [darts, List.mem_cons, List.not_mem_nil, or_false] at hd
  rcases hd with rfl | rfl | rfl
  · exact ⟨c, by simp, rfl, fun _ => rfl⟩
  · exact ⟨a, by simp, orient_rot a b c, fun x => det_rot a b c x⟩
  · exact ⟨b, by simp, (orient_rot b c a).trans (orient_rot a b c), fun x => (det_rot b c a x).trans (det_rot a b c x)⟩

/-- What holds of the triangles `L` after the points `V` (with the corners of the box) were inserted -/
structure Inv (lo hi : Pt K) (V : List (Pt K)) (L : List (Tri K)) : Prop where
  ccw : ∀ t ∈ L, 0 < orient t.1 t.2.1 t.2.2
  corners : ∀ t ∈ L, t.1 ∈ V ∧ t.2.1 ∈ V ∧ t.2.2 ∈ V
  empty : ∀ t ∈ L, ∀ v ∈ V, determinant t.1 t.2.1 t.2.2 v ≤ 0
  nodup : (allDarts L).Nodup
  chain : ∀ f, Anti f → total f (allDarts L) = total f (quad lo hi)
  used : ∀ v ∈ V, ∃ t ∈ L, v = t.1 ∨ v = t.2.1 ∨ v = t.2.2
  inBox : ∀ v ∈ V, lo.x ≤ v.x ∧ v.x ≤ hi.x ∧ lo.y ≤ v.y ∧ v.y ≤ hi.y

theorem Inv.perm {lo hi : Pt K} {V : List (Pt K)} {L M : List (Tri K)} (h : Inv lo hi V L) (hp : L.Perm M) :
    Inv lo hi V M where
  ccw t ht := h.ccw t (hp.mem_iff.2 ht)
  corners t ht := h.corners t (hp.mem_iff.2 ht)
  empty t ht := h.empty t (hp.mem_iff.2 ht)
  nodup := (allDarts_perm hp).nodup_iff.1 h.nodup
  chain f hf := by rw [← total_perm f (allDarts_perm hp)]; exact h.chain f hf
  used v hv := by
    obtain ⟨t, ht, h'⟩ := h.used v hv
    exact ⟨t, hp.mem_iff.1 ht, h'⟩
  inBox := h.inBox

variable {lo hi : Pt K} {V : List (Pt K)} {L : List (Tri K)}

/-- Every edge has a triangle on the other side or is a side of the box. -/
theorem Inv.neighbour (h : Inv lo hi V L) {d : Dart K} (hd : d ∈ allDarts L) (hs : d.swap ∉ allDarts L) :
    d ∈ quad lo hi := by
  have := h.chain _ (oneDart_anti d)
  rw [total_oneDart, total_oneDart, List.count_eq_zero.2 hs] at this
  have h1 : 0 < (allDarts L).count d := List.count_pos_iff.2 hd
  by_contra hn
  rw [List.count_eq_zero.2 hn] at this
  have h2 : (0 : K) < ((allDarts L).count d : K) := by exact_mod_cast h1
  have h3 : (0 : K) ≤ ((quad lo hi).count d.swap : K) := by exact_mod_cast Nat.zero_le _
  push_cast at this
  linarith

omit [LinearOrder K] [IsStrictOrderedRing K] in
theorem dart_corners {t : Tri K} {d : Dart K} (hd : d ∈ darts t) :
    (d.1 = t.1 ∨ d.1 = t.2.1 ∨ d.1 = t.2.2) ∧ (d.2 = t.1 ∨ d.2 = t.2.1 ∨ d.2 = t.2.2) := by
  simp only [darts, List.mem_cons, List.not_mem_nil, or_false] at hd
  rcases hd with rfl | rfl | rfl <;> simp

theorem Inv.mem_of_corner (h : Inv lo hi V L) {t : Tri K} (ht : t ∈ L) {v : Pt K}
    (hv : v = t.1 ∨ v = t.2.1 ∨ v = t.2.2) : v ∈ V := by
  obtain ⟨h1, h2, h3⟩ := h.corners t ht
  rcases hv with rfl | rfl | rfl <;> assumption

/-- The triangles whose circle contains `p` -/
def badOf (p : Pt K) (L : List (Tri K)) : List (Tri K) := L.filter fun t => decide (0 < determinant t.1 t.2.1 t.2.2 p)

/-- The other triangles -/
def goodOf (p : Pt K) (L : List (Tri K)) : List (Tri K) := L.filter fun t => ! decide (0 < determinant t.1 t.2.1 t.2.2 p)

/-- The boundary of the hole -/
def hole (p : Pt K) (L : List (Tri K)) : List (Dart K) := rim (allDarts (badOf p L))

omit [IsStrictOrderedRing K] in
theorem mem_badOf {p : Pt K} {t : Tri K} : t ∈ badOf p L ↔ t ∈ L ∧ 0 < determinant t.1 t.2.1 t.2.2 p := by simp [badOf]

omit [IsStrictOrderedRing K] in
theorem mem_goodOf {p : Pt K} {t : Tri K} : t ∈ goodOf p L ↔ t ∈ L ∧ determinant t.1 t.2.1 t.2.2 p ≤ 0 := by simp [goodOf]

omit [IsStrictOrderedRing K] in
theorem bad_good_perm (p : Pt K) (L : List (Tri K)) : (badOf p L ++ goodOf p L).Perm L := List.filter_append_perm _ _

/-- The triangles on both sides of an edge of the hole -/
theorem Inv.hole_cases (h : Inv lo hi V L) {p : Pt K} {d : Dart K} (hd : d ∈ hole p L) :
    ∃ w ∈ V, 0 < orient d.1 d.2 w ∧ 0 < determinant d.1 d.2 w p ∧ (∀ v ∈ V, determinant d.1 d.2 w v ≤ 0) ∧
      (d ∈ quad lo hi ∨ ∃ z ∈ V, orient d.1 d.2 z < 0 ∧ determinant d.2 d.1 z p ≤ 0 ∧
        ∀ v ∈ V, determinant d.2 d.1 z v ≤ 0) := by
  obtain ⟨h1, h2⟩ := mem_rim.1 hd
  obtain ⟨t, ht, hdt⟩ := mem_allDarts.1 h1
  obtain ⟨htL, hbad⟩ := mem_badOf.1 ht
  obtain ⟨w, hw, ow, dw⟩ := dart_triangle hdt
  refine ⟨w, h.mem_of_corner htL hw, by rw [ow]; exact h.ccw t htL, by rw [dw]; exact hbad,
    fun v hv => by rw [dw]; exact h.empty t htL v hv, ?_⟩
  by_cases hs : d.swap ∈ allDarts L
  · right
    obtain ⟨s, hsL, hds⟩ := mem_allDarts.1 hs
    obtain ⟨z, hz, oz, dz⟩ := dart_triangle hds
    simp only [Prod.fst_swap, Prod.snd_swap] at oz dz
    refine ⟨z, h.mem_of_corner hsL hz, ?_, ?_, fun v hv => by rw [dz]; exact h.empty s hsL v hv⟩
    · have := h.ccw s hsL
      rw [← oz, orient_swap] at this
      linarith
    · rw [dz]
      by_contra hn
      push Not at hn
      exact h2 (mem_allDarts.2 ⟨s, mem_badOf.2 ⟨hsL, hn⟩, hds⟩)
  · left
    exact h.neighbour (mem_allDarts.2 ⟨t, htL, hdt⟩) hs

/-- The hole is seen from the new point. -/
theorem Inv.hole_star (h : Inv lo hi V L) {p : Pt K} (hp : InBox lo hi p) {d : Dart K} (hd : d ∈ hole p L) :
    0 < orient d.1 d.2 p := by
  obtain ⟨w, hw, ow, bad, ew, hq | ⟨z, hz, oz, gz, ez⟩⟩ := h.hole_cases hd
  · exact quad_pos hp d hq
  · exact star_inner ow oz bad gz (ew z hz)

/-- The circles of the new triangles are empty. -/
theorem Inv.hole_empty (h : Inv lo hi V L) {p : Pt K} (hp : InBox lo hi p) {d : Dart K} (hd : d ∈ hole p L) {v : Pt K}
    (hv : v ∈ V) : determinant d.1 d.2 p v ≤ 0 := by
  have hs := h.hole_star hp hd
  obtain ⟨w, hw, ow, bad, ew, hq | ⟨z, hz, oz, gz, ez⟩⟩ := h.hole_cases hd
  · exact empty_left ow hs (quad_nonneg (h.inBox v hv) d hq) bad (ew v hv)
  · rcases le_total 0 (orient d.1 d.2 v) with hv0 | hv0
    · exact empty_left ow hs hv0 bad (ew v hv)
    · exact empty_right oz hs hv0 gz (ez v hv)

theorem crossing_anti (x d : Pt K) : Anti (crossing x d) := fun u v => crossing_swap x d u v

/-- The boundary of a triangle that does not contain `p` is crossed as often up as down. -/
theorem Inv.good_crossing (h : Inv lo hi V L) {p d : Pt K} (hd : d.x ≠ 0 ∨ d.y ≠ 0) (hpV : p ∉ V) :
    total (crossing p d) (allDarts (goodOf p L)) = 0 := by
  have key : ∀ t ∈ goodOf p L, total (crossing p d) (darts t) = 0 := by
    intro t ht
    obtain ⟨htL, hdet⟩ := mem_goodOf.1 ht
    obtain ⟨c1, c2, c3⟩ := h.corners t htL
    have hT := h.ccw t htL
    obtain ⟨a, b, c⟩ := t
    simp only at *
    have na : p ≠ a := fun e => hpV (e ▸ c1)
    have nb : p ≠ b := fun e => hpV (e ▸ c2)
    have nc : p ≠ c := fun e => hpV (e ▸ c3)
    have r1 : orient b c a = orient a b c := orient_rot a b c
    have r2 : orient c a b = orient a b c := (orient_rot b c a).trans r1
    have := (triangle_crossing (x := p) hd hT
      (fun hs => absurd (det_pos_of_onSegment hT hs na nb) (not_lt.2 hdet))
      (fun hs => absurd (det_pos_of_onSegment (r1 ▸ hT) hs nb nc) (not_lt.2 (by rw [det_rot]; exact hdet)))
      (fun hs => absurd (det_pos_of_onSegment (r2 ▸ hT) hs nc na)
        (not_lt.2 (by rw [det_rot, det_rot]; exact hdet)))).2
      (fun hI => absurd (det_pos_of_mem hT hI.1.le hI.2.1.le hI.2.2.le na nb nc) (not_lt.2 hdet))
    simp only [darts, total_cons, total_nil]
    linarith
  generalize goodOf p L = l at key ⊢
  induction l with
  | nil => rfl
  | cons t l ih =>
    rw [allDarts_cons, total_append, key t List.mem_cons_self, ih fun s hs => key s (List.mem_cons_of_mem _ hs), add_zero]

/-- The boundary of the hole winds once around the new point. -/
theorem Inv.hole_crossing (h : Inv lo hi V L) {p d : Pt K} (hd : d.x ≠ 0 ∨ d.y ≠ 0) (hp : InBox lo hi p) (hpV : p ∉ V) :
    total (crossing p d) (hole p L) = 1 := by
  have hperm := allDarts_perm (bad_good_perm p L)
  have hn : (allDarts (badOf p L)).Nodup := by
    have := hperm.nodup_iff.2 h.nodup
    rw [allDarts_append] at this
    exact (List.nodup_append.1 this).1
  rw [hole, total_rim _ (crossing_anti p d) _ hn]
  have e := total_perm (crossing p d) hperm
  rw [allDarts_append, total_append, h.good_crossing hd hpV, h.chain _ (crossing_anti p d), quad_crossing hd hp] at e
  linarith

theorem two_le_sum {α : Type} {l : List α} (g : α → K) (hg : ∀ a ∈ l, 0 ≤ g a) {a b : α} (ha : a ∈ l) (hb : b ∈ l)
    (hab : a ≠ b) (h1 : g a = 1) (h2 : g b = 1) : 2 ≤ (l.map g).sum := by
  classical
  have p1 := List.perm_cons_erase ha
  have hb' : b ∈ l.erase a := (List.mem_erase_of_ne hab.symm).2 hb
  have p2 := List.perm_cons_erase hb'
  have hsum : (l.map g).sum = g a + (g b + (((l.erase a).erase b).map g).sum) := by
    rw [(p1.map g).sum_eq, List.map_cons, List.sum_cons, (p2.map g).sum_eq, List.map_cons, List.sum_cons]
  have hnn : 0 ≤ (((l.erase a).erase b).map g).sum := by
    refine List.sum_nonneg ?_
    intro x hx
    obtain ⟨c, hc, rfl⟩ := List.mem_map.1 hx
    exact hg c (List.mem_of_mem_erase (List.mem_of_mem_erase hc))
  rw [hsum, h1, h2]
  linarith

/-- At most one edge of the hole ends in a point. -/
theorem Inv.hole_in (h : Inv lo hi V L) {p : Pt K} (hp : InBox lo hi p) (hpV : p ∉ V) {d e : Dart K}
    (hd : d ∈ hole p L) (he : e ∈ hole p L) (hde : d.2 = e.2) : d = e := by
  by_contra hne
  have hv : d.2 ∈ V := by
    obtain ⟨t, ht, hdt⟩ := mem_allDarts.1 (mem_rim.1 hd).1
    exact h.mem_of_corner (mem_badOf.1 ht).1 (dart_corners hdt).2
  have hnp : d.2 ≠ p := fun e => hpV (e ▸ hv)
  set r : Pt K := ⟨d.2.x - p.x, d.2.y - p.y⟩ with hr
  have hr0 : r.x ≠ 0 ∨ r.y ≠ 0 := by
    by_contra hn
    push Not at hn
    refine hnp ?_
    have e1 := sub_eq_zero.1 hn.1
    have e2 := sub_eq_zero.1 hn.2
    rcases hd2 : d.2 with ⟨vx, vy⟩
    rcases p with ⟨px, py⟩
    rw [hd2] at e1 e2
    simp only at e1 e2
    rw [e1, e2]
  have hsum := h.hole_crossing hr0 hp hpV
  have hone : ∀ f ∈ hole p L, f.2 = d.2 → crossing p r f.1 f.2 = 1 := by
    intro f hf hf2
    have hst := h.hole_star hp hf
    unfold crossing
    rw [if_pos]
    refine ⟨?_, ?_, hst⟩
    · rw [hf2] at hst
      have : side p r f.1 = - orient f.1 d.2 p := by simp only [side, orient, hr]; ring
      rw [this]; linarith
    · rw [hf2]
      have : side p r d.2 = 0 := by simp only [side, hr]; ring
      rw [this]
  have hnn : ∀ f ∈ hole p L, 0 ≤ crossing p r f.1 f.2 := by
    intro f hf
    have hst := h.hole_star hp hf
    unfold crossing
    have h2 : ¬ (0 < orient f.2 f.1 p) := by rw [orient_swap]; linarith
    split_ifs
    · exact zero_le_one
    · tauto
    · exact le_rfl
  have := two_le_sum (fun f : Dart K => crossing p r f.1 f.2) hnn hd he hne (hone d hd rfl) (hone e he hde.symm)
  unfold total at hsum
  rw [hsum] at this
  linarith

theorem sum_le_one {α : Type} {l : List α} (hn : l.Nodup) (P : α → Prop) [DecidablePred P]
    (hu : ∀ a ∈ l, ∀ b ∈ l, P a → P b → a = b) : (l.map fun a => if P a then (1 : K) else 0).sum ≤ 1 := by
  induction l with
  | nil => simp
  | cons a l ih =>
    rw [List.map_cons, List.sum_cons]
    obtain ⟨h1, h2⟩ := List.nodup_cons.1 hn
    by_cases ha : P a
    · have hz : (l.map fun a => if P a then (1 : K) else 0).sum = 0 := by
        have : ∀ b ∈ l, ¬ P b := fun b hb hPb => h1 ((hu a (by simp) b (by simp [hb]) ha hPb) ▸ hb)
        clear ih hn hu h1 h2
        induction l with
        | nil => rfl
        | cons b l ih =>
          rw [List.map_cons, List.sum_cons, if_neg (this b (by simp)), zero_add]
          exact ih fun c hc => this c (by simp [hc])
      rw [if_pos ha, hz, add_zero]
    · rw [if_neg ha, zero_add]
      exact ih h2 fun a ha b hb => hu a (by simp [ha]) b (by simp [hb])

theorem Inv.bad_nodup (h : Inv lo hi V L) (p : Pt K) : (allDarts (badOf p L)).Nodup := by
  have := (allDarts_perm (bad_good_perm p L)).nodup_iff.2 h.nodup
  rw [allDarts_append] at this
  exact (List.nodup_append.1 this).1

theorem Inv.hole_nodup (h : Inv lo hi V L) (p : Pt K) : (hole p L).Nodup := (h.bad_nodup p).filter _

theorem Inv.hole_telescope (h : Inv lo hi V L) (p : Pt K) (g : Pt K → K) :
    total (fun u v => g u - g v) (hole p L) = 0 := by
  rw [hole, total_rim _ (fun u v => by ring) _ (h.bad_nodup p), total_telescope]

/-- At most one edge of the hole starts in a point. -/
theorem Inv.hole_out (h : Inv lo hi V L) {p : Pt K} (hp : InBox lo hi p) (hpV : p ∉ V) {d e : Dart K}
    (hd : d ∈ hole p L) (he : e ∈ hole p L) (hde : d.1 = e.1) : d = e := by
  by_contra hne
  have h0 := h.hole_telescope p (fun v => if v = d.1 then (1 : K) else 0)
  have h1 : total (fun u v => (if u = d.1 then (1 : K) else 0) - (if v = d.1 then 1 else 0)) (hole p L) =
      ((hole p L).map fun f => if f.1 = d.1 then (1 : K) else 0).sum -
        ((hole p L).map fun f => if f.2 = d.1 then (1 : K) else 0).sum := by
    generalize hole p L = l
    induction l with
    | nil => simp
    | cons a l ih => rw [total_cons, ih]; simp only [List.map_cons, List.sum_cons]; ring
  have h2 := sum_le_one (K := K) (h.hole_nodup p) (fun f : Dart K => f.2 = d.1)
    (fun a ha b hb h1 h2 => h.hole_in hp hpV ha hb (h1.trans h2.symm))
  have h3 := two_le_sum (fun f : Dart K => if f.1 = d.1 then (1 : K) else 0)
    (fun f _ => by split_ifs <;> simp) hd he hne (by simp) (by simp [hde])
  rw [h1] at h0
  linarith

/-- The triangles after the point `p` was inserted -/
def stepTri (p : Pt K) (L : List (Tri K)) : List (Tri K) := goodOf p L ++ (hole p L).map fun d => (d.1, d.2, p)

theorem Inv.hole_mem (h : Inv lo hi V L) {p : Pt K} {d : Dart K} (hd : d ∈ hole p L) : d.1 ∈ V ∧ d.2 ∈ V := by
  obtain ⟨t, ht, hdt⟩ := mem_allDarts.1 (mem_rim.1 hd).1
  obtain ⟨h1, h2⟩ := dart_corners hdt
  exact ⟨h.mem_of_corner (mem_badOf.1 ht).1 h1, h.mem_of_corner (mem_badOf.1 ht).1 h2⟩

theorem Inv.step_nodup (h : Inv lo hi V L) {p : Pt K} (hp : InBox lo hi p) (hpV : p ∉ V) :
    (allDarts (stepTri p L)).Nodup := by
  rw [stepTri, allDarts_append]
  have hall := (allDarts_perm (bad_good_perm p L)).nodup_iff.2 h.nodup
  rw [allDarts_append] at hall
  obtain ⟨n1, n2, n3⟩ := List.nodup_append'.1 hall
  have e : allDarts ((hole p L).map fun d => (d.1, d.2, p)) =
      (hole p L).flatMap fun d => [d, (d.2, p), (p, d.1)] := by
    rw [allDarts, List.flatMap_map]
    rfl
  rw [e]
  refine List.nodup_append'.2 ⟨n2, ?_, ?_⟩
  · refine List.nodup_flatMap.2 ⟨?_, ?_⟩
    · intro d hd
      obtain ⟨m1, m2⟩ := h.hole_mem hd
      have a1 : d.1 ≠ p := fun e => hpV (e ▸ m1)
      have a2 : d.2 ≠ p := fun e => hpV (e ▸ m2)
      obtain ⟨u, v⟩ := d
      simp only at a1 a2
      simp [a1, a2, a1.symm, a2.symm]
    · refine (h.hole_nodup p).imp_of_mem ?_
      intro d f hd hf hne x hx hx'
      obtain ⟨m1, m2⟩ := h.hole_mem hd
      obtain ⟨m3, m4⟩ := h.hole_mem hf
      have a1 : d.1 ≠ p := fun e => hpV (e ▸ m1)
      have a2 : d.2 ≠ p := fun e => hpV (e ▸ m2)
      have a3 : f.1 ≠ p := fun e => hpV (e ▸ m3)
      have a4 : f.2 ≠ p := fun e => hpV (e ▸ m4)
      simp only [List.mem_cons, List.not_mem_nil, or_false] at hx hx'
      rcases hx with rfl | rfl | rfl <;> rcases hx' with hx' | hx' | hx'
      · exact hne hx'
      · exact a2 (by rw [hx'])
      · exact a1 (by rw [hx'])
      · exact a4 (by rw [← hx'])
      · exact hne (h.hole_in hp hpV hd hf (Prod.mk.inj hx').1)
      · exact a2 (Prod.mk.inj hx').1
      · exact a3 (by rw [← hx'])
      · exact a4 (Prod.mk.inj hx').1.symm
      · exact hne (h.hole_out hp hpV hd hf (Prod.mk.inj hx').2)
  · intro x hx hx'
    obtain ⟨d, hd, hxd⟩ := List.mem_flatMap.1 hx'
    obtain ⟨t, ht, hxt⟩ := mem_allDarts.1 hx
    obtain ⟨c1, c2⟩ := dart_corners hxt
    have v1 := h.mem_of_corner (mem_goodOf.1 ht).1 c1
    have v2 := h.mem_of_corner (mem_goodOf.1 ht).1 c2
    simp only [List.mem_cons, List.not_mem_nil, or_false] at hxd
    rcases hxd with rfl | rfl | rfl
    · exact n3 (mem_rim.1 hd).1 hx
    · exact hpV v2
    · exact hpV v1

theorem Inv.step_chain (h : Inv lo hi V L) (p : Pt K) (f : Pt K → Pt K → K) (hf : Anti f) :
    total f (allDarts (stepTri p L)) = total f (quad lo hi) := by
  have e : total f (allDarts ((hole p L).map fun d => (d.1, d.2, p))) =
      total f (hole p L) + total (fun u v => f p u - f p v) (hole p L) := by
    generalize hole p L = l
    induction l with
    | nil => simp
    | cons d l ih =>
      rw [List.map_cons, allDarts_cons, total_append, ih, total_cons, total_cons]
      simp only [darts, total_cons, total_nil, hf p d.2]
      ring
  rw [stepTri, allDarts_append, total_append, e, h.hole_telescope p (f p), add_zero, ← h.chain f hf,
    ← total_perm f (allDarts_perm (bad_good_perm p L)), allDarts_append, total_append, hole,
    total_rim f hf _ (h.bad_nodup p)]
  ring

theorem sum_neg_of {α : Type} {l : List α} (g : α → K) (hg : ∀ a ∈ l, g a ≤ 0) {a : α} (ha : a ∈ l) (h : g a < 0) :
    (l.map g).sum < 0 := by
  induction l with
  | nil => cases ha
  | cons b l ih =>
    rw [List.map_cons, List.sum_cons]
    have hs : (l.map g).sum ≤ 0 := by
      have hg' : ∀ c ∈ l, g c ≤ 0 := fun c hc => hg c (by simp [hc])
      clear ih ha hg
      induction l with
      | nil => simp
      | cons c l ih =>
        rw [List.map_cons, List.sum_cons]
        have h1 := hg' c (by simp)
        have h2 := ih fun e he => hg' e (by simp [he])
        linarith
    rcases List.mem_cons.1 ha with rfl | ha
    · linarith
    · have := ih (fun c hc => hg c (by simp [hc])) ha
      have := hg b (by simp)
      linarith

omit [LinearOrder K] [IsStrictOrderedRing K] in
theorem total_allDarts (f : Pt K → Pt K → K) (L : List (Tri K)) :
    total f (allDarts L) = (L.map fun t => f t.1 t.2.1 + f t.2.1 t.2.2 + f t.2.2 t.1).sum := by
  induction L with
  | nil => rfl
  | cons t L ih =>
    rw [allDarts_cons, total_append, ih, List.map_cons, List.sum_cons]
    simp only [darts, total_cons, total_nil]
    ring

/-- Around a point that is not a corner of the box, a triangle is not bad. -/
theorem Inv.corner_good (h : Inv lo hi V L) (p : Pt K) {v : Pt K} (hv : v ∈ V)
    (hq : ∀ d ∈ quad lo hi, d.1 ≠ v ∧ d.2 ≠ v) : ∃ t ∈ goodOf p L, v = t.1 ∨ v = t.2.1 ∨ v = t.2.2 := by
  by_contra hn
  push Not at hn
  set g : Pt K → K := fun w => (p.x - v.x) * ((w.y - v.y) / dist2 w v) - (p.y - v.y) * ((w.x - v.x) / dist2 w v) with hg
  set f : Pt K → Pt K → K := fun u w => (if u = v then g w else 0) - (if w = v then g u else 0) with hf
  have hfa : Anti f := fun u w => by simp only [hf]; ring
  have hbad : ∀ t ∈ L, (v = t.1 ∨ v = t.2.1 ∨ v = t.2.2) → 0 < determinant t.1 t.2.1 t.2.2 p := by
    intro t ht hc
    by_contra hneg
    have := hn t (mem_goodOf.2 ⟨ht, not_lt.1 hneg⟩)
    tauto
  have hz : total f (quad lo hi) = 0 := by
    have : ∀ l : List (Dart K), (∀ d ∈ l, d.1 ≠ v ∧ d.2 ≠ v) → total f l = 0 := by
      intro l hl
      induction l with
      | nil => rfl
      | cons d l ih =>
        rw [total_cons, ih fun e he => hl e (by simp [he])]
        obtain ⟨a1, a2⟩ := hl d (by simp)
        simp [hf, a1, a2]
    exact this _ hq
  -- a triangle `v a b` with `p` in its circle
  have hcorner : ∀ a b : Pt K, 0 < orient v a b → 0 < determinant v a b p → f v a + f a b + f b v < 0 := by
    intro a b ho hd
    obtain ⟨n1, n2, n3⟩ := corners_ne ho
    have e : f v a + f a b + f b v = g a - g b := by
      simp only [hf, if_neg n1.symm, if_neg n3, if_true]
      ring
    have hs := corner_split (p := p) ho
    have d1 := dist2_pos n1.symm
    have d2 := dist2_pos n3
    have q1 := div_pos hd (mul_pos d1 d2)
    have q2 := mul_nonneg (dist2_nonneg p v) (div_pos ho (mul_pos d1 d2)).le
    rw [e]
    simp only [hg]
    rw [hs] at q1
    nlinarith
  have hle : ∀ t ∈ L, (v = t.1 ∨ v = t.2.1 ∨ v = t.2.2) → f t.1 t.2.1 + f t.2.1 t.2.2 + f t.2.2 t.1 < 0 := by
    intro t ht hc
    have ho := h.ccw t ht
    have hd := hbad t ht hc
    obtain ⟨a, b, c⟩ := t
    simp only at *
    rcases hc with rfl | rfl | rfl
    · exact hcorner b c ho hd
    · have := hcorner c a (by rw [orient_rot]; exact ho) (by rw [det_rot]; exact hd)
      linarith
    · have := hcorner a b (by rw [orient_rot, orient_rot]; exact ho) (by rw [det_rot, det_rot]; exact hd)
      linarith
  obtain ⟨t, ht, hc⟩ := h.used v hv
  have hsum := h.chain f hfa
  rw [hz, total_allDarts] at hsum
  have := sum_neg_of (fun t : Tri K => f t.1 t.2.1 + f t.2.1 t.2.2 + f t.2.2 t.1) (l := L) (fun t ht => by
    by_cases hc : v = t.1 ∨ v = t.2.1 ∨ v = t.2.2
    · exact (hle t ht hc).le
    · push Not at hc
      obtain ⟨a1, a2, a3⟩ := hc
      simp only [hf, if_neg a1.symm, if_neg a2.symm, if_neg a3.symm]
      simp) ht (hle t ht hc)
  rw [hsum] at this
  exact lt_irrefl _ this

/-- A side of the box belongs to a triangle, and nothing is on its other side. -/
theorem Inv.side_mem (h : Inv lo hi V L) (hbox : lo.x < hi.x ∧ lo.y < hi.y) {d : Dart K} (hd : d ∈ quad lo hi) :
    d ∈ allDarts L ∧ d.swap ∉ allDarts L := by
  have hq : (quad lo hi).count d = 1 ∧ (quad lo hi).count d.swap = 0 := by
    obtain ⟨hx, hy⟩ := hbox
    have n : (quad lo hi).Nodup ∧ d.swap ∉ quad lo hi := by
      obtain ⟨lx, ly⟩ := lo
      obtain ⟨ux, uy⟩ := hi
      simp only at hx hy
      simp only [quad, List.mem_cons, List.not_mem_nil, or_false] at hd
      constructor
      · simp [quad, hx.ne, hx.ne', hy.ne, hy.ne']
      · rcases hd with rfl | rfl | rfl | rfl <;> simp [quad, hx.ne, hx.ne', hy.ne, hy.ne']
    exact ⟨List.count_eq_one_of_mem n.1 hd, List.count_eq_zero.2 n.2⟩
  have hc := h.chain _ (oneDart_anti d)
  rw [total_oneDart, total_oneDart, hq.1, hq.2] at hc
  have c1 := List.nodup_iff_count_le_one.1 h.nodup d
  push_cast at hc
  rw [sub_zero, sub_eq_iff_eq_add] at hc
  have hc' : (allDarts L).count d = 1 + (allDarts L).count d.swap := by exact_mod_cast hc
  exact ⟨List.count_pos_iff.1 (by omega), List.count_eq_zero.1 (by omega)⟩

/-- Inserting a point of the box keeps a triangulation with empty circles. -/
theorem Inv.step (h : Inv lo hi V L) (hbox : lo.x < hi.x ∧ lo.y < hi.y) {p : Pt K} (hp : InBox lo hi p) :
    Inv lo hi (p :: V) (stepTri p L) := by
  by_cases hpV : p ∈ V
  · -- nothing happens
    have hb : badOf p L = [] := by
      rw [badOf, List.filter_eq_nil_iff]
      intro t ht
      simpa using h.empty t ht p hpV
    have hg : goodOf p L = L := by
      rw [goodOf, List.filter_eq_self]
      intro t ht
      simpa using h.empty t ht p hpV
    have hs : stepTri p L = L := by
      rw [stepTri, hg, hole, hb]
      simp [rim]
    rw [hs]
    exact {
      ccw := h.ccw
      corners := fun t ht => by
        obtain ⟨a, b, c⟩ := h.corners t ht
        simp [a, b, c]
      empty := fun t ht v hv => by
        rcases List.mem_cons.1 hv with rfl | hv
        · exact h.empty t ht v hpV
        · exact h.empty t ht v hv
      nodup := h.nodup
      chain := h.chain
      used := fun v hv => by
        rcases List.mem_cons.1 hv with rfl | hv
        · exact h.used v hpV
        · exact h.used v hv
      inBox := fun v hv => by
        rcases List.mem_cons.1 hv with rfl | hv
        · exact ⟨hp.1.le, hp.2.1.le, hp.2.2.1.le, hp.2.2.2.le⟩
        · exact h.inBox v hv }
  · refine { ccw := ?_, corners := ?_, empty := ?_, nodup := h.step_nodup hp hpV, chain := h.step_chain p, used := ?_,
             inBox := ?_ }
    · intro t ht
      rcases List.mem_append.1 ht with ht | ht
      · exact h.ccw t (mem_goodOf.1 ht).1
      · obtain ⟨d, hd, rfl⟩ := List.mem_map.1 ht
        exact h.hole_star hp hd
    · intro t ht
      rcases List.mem_append.1 ht with ht | ht
      · obtain ⟨a, b, c⟩ := h.corners t (mem_goodOf.1 ht).1
        simp [a, b, c]
      · obtain ⟨d, hd, rfl⟩ := List.mem_map.1 ht
        obtain ⟨a, b⟩ := h.hole_mem hd
        simp [a, b]
    · intro t ht v hv
      rcases List.mem_append.1 ht with ht | ht
      · rcases List.mem_cons.1 hv with rfl | hv
        · exact (mem_goodOf.1 ht).2
        · exact h.empty t (mem_goodOf.1 ht).1 v hv
      · obtain ⟨d, hd, rfl⟩ := List.mem_map.1 ht
        rcases List.mem_cons.1 hv with rfl | hv
        · have : determinant d.1 d.2 v v = 0 := by unfold determinant; ring
          exact this.le
        · exact h.hole_empty hp hd hv
    · intro v hv
      rcases List.mem_cons.1 hv with rfl | hv
      · have hc := h.hole_crossing (d := ⟨1, 0⟩) (by simp) hp hpV
        rcases hl : hole v L with _ | ⟨d, l⟩
        · rw [hl] at hc; simp at hc
        · exact ⟨(d.1, d.2, v), by simp [stepTri, hl], by simp⟩
      · by_cases hq : ∀ d ∈ quad lo hi, d.1 ≠ v ∧ d.2 ≠ v
        · obtain ⟨t, ht, hc⟩ := h.corner_good p hv hq
          exact ⟨t, List.mem_append_left _ ht, hc⟩
        · push Not at hq
          obtain ⟨d, hd, hdv⟩ := hq
          obtain ⟨m1, m2⟩ := h.side_mem hbox hd
          obtain ⟨t, ht, hdt⟩ := mem_allDarts.1 m1
          have hv' : d.1 = v ∨ d.2 = v := by tauto
          by_cases hb : 0 < determinant t.1 t.2.1 t.2.2 p
          · have hh : d ∈ hole p L := mem_rim.2 ⟨mem_allDarts.2 ⟨t, mem_badOf.2 ⟨ht, hb⟩, hdt⟩, fun hs => m2 (by
              obtain ⟨s, hs, hds⟩ := mem_allDarts.1 hs
              exact mem_allDarts.2 ⟨s, (mem_badOf.1 hs).1, hds⟩)⟩
            refine ⟨(d.1, d.2, p), List.mem_append_right _ (List.mem_map.2 ⟨d, hh, rfl⟩), ?_⟩
            rcases hv' with rfl | rfl <;> simp
          · refine ⟨t, List.mem_append_left _ (mem_goodOf.2 ⟨ht, not_lt.1 hb⟩), ?_⟩
            obtain ⟨a, b⟩ := dart_corners hdt
            rcases hv' with rfl | rfl <;> assumption
    · intro v hv
      rcases List.mem_cons.1 hv with rfl | hv
      · exact ⟨hp.1.le, hp.2.1.le, hp.2.2.1.le, hp.2.2.2.le⟩
      · exact h.inBox v hv

/-- The two super triangles -/
theorem Inv.start (hbox : lo.x < hi.x ∧ lo.y < hi.y) :
    Inv lo hi [lo, ⟨hi.x, lo.y⟩, hi, ⟨lo.x, hi.y⟩] [(lo, ⟨hi.x, lo.y⟩, hi), (lo, hi, ⟨lo.x, hi.y⟩)] := by
  obtain ⟨lx, ly⟩ := lo
  obtain ⟨ux, uy⟩ := hi
  obtain ⟨hx, hy⟩ := hbox
  simp only at hx hy
  have hpos := mul_pos (sub_pos.2 hx) (sub_pos.2 hy)
  constructor
  · intro t ht
    simp only [List.mem_cons, List.not_mem_nil, or_false] at ht
    rcases ht with rfl | rfl <;> simp only [orient] <;> nlinarith
  · intro t ht
    simp only [List.mem_cons, List.not_mem_nil, or_false] at ht
    rcases ht with rfl | rfl <;> simp
  · intro t ht v hv
    simp only [List.mem_cons, List.not_mem_nil, or_false] at ht hv
    rcases ht with rfl | rfl <;> rcases hv with rfl | rfl | rfl | rfl <;> refine le_of_eq ?_ <;>
      simp only [determinant] <;> ring
  · simp [allDarts, darts, hx.ne, hx.ne', hy.ne, hy.ne']
  · intro f hf
    simp only [allDarts, darts, quad, List.flatMap_cons, List.flatMap_nil, List.cons_append, List.nil_append, total_cons,
      total_nil]
    rw [hf ⟨lx, ly⟩ ⟨ux, uy⟩]
    ring
  · intro v hv
    simp only [List.mem_cons, List.not_mem_nil, or_false] at hv
    rcases hv with rfl | rfl | rfl | rfl
    · exact ⟨_, List.mem_cons_self, by simp⟩
    · exact ⟨_, List.mem_cons_self, by simp⟩
    · exact ⟨_, List.mem_cons_self, by simp⟩
    · exact ⟨_, List.mem_cons_of_mem _ List.mem_cons_self, by simp⟩
  · intro v hv
    simp only [List.mem_cons, List.not_mem_nil, or_false] at hv
    rcases hv with rfl | rfl | rfl | rfl <;> simp [hx.le, hy.le]

end NuTo.Delaunay
