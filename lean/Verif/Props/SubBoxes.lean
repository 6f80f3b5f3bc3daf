import Verif.Model.SubBoxes
import Verif.Lemmas.OMap
import Mathlib.Algebra.Order.Floor.Ring
import Mathlib.Data.Rat.Floor
import Mathlib.Algebra.Order.Field.Basic
import Mathlib.Algebra.Field.Rat
import Mathlib.Algebra.Order.Ring.Rat
import Mathlib.Tactic.Linarith
import Mathlib.Tactic.NormNum
import Mathlib.Tactic.Positivity
import Mathlib.Tactic.Ring
import Mathlib.Tactic.FieldSimp

/-! C22: search of nodes through sub boxes. -/
set_option linter.unusedSectionVars false
namespace NuTo
open SubBoxes
variable {K : Type _} [Field K] [LinearOrder K] [IsStrictOrderedRing K] [FloorRing K]

/-- a domain of positive extent with at least one box per direction -/
structure SubBoxDomain.Proper (d : SubBoxDomain K) : Prop where
  x : d.start.x < d.stop.x ∧ 0 < d.subs.x
  y : d.start.y < d.stop.y ∧ 0 < d.subs.y
  z : d.start.z < d.stop.z ∧ 0 < d.subs.z

/-- the point is in the half open domain -/
def SubBoxDomain.Inside (d : SubBoxDomain K) (p : V3 K) : Prop :=
  (d.start.x ≤ p.x ∧ p.x < d.stop.x) ∧ (d.start.y ≤ p.y ∧ p.y < d.stop.y) ∧ (d.start.z ≤ p.z ∧ p.z < d.stop.z)

namespace SubBoxes

/-- one direction: the box number of a point in the domain is valid -/
theorem cell1 {s e p : K} {n : Nat} (hn : 0 < n) (h1 : s ≤ p) (h2 : p < e) :
    0 ≤ trunc ((p - s) / ((e - s) / n)) ∧ trunc ((p - s) / ((e - s) / n)) < (n : Int) := by
  have hn' : (0 : K) < n := by exact_mod_cast hn
  have hd : 0 < (e - s) / (n : K) := div_pos (by linarith) hn'
  have h0 : 0 ≤ (p - s) / ((e - s) / n) := div_nonneg (by linarith) hd.le
  unfold trunc
  rw [if_pos h0]
  refine ⟨Int.floor_nonneg.mpr h0, ?_⟩
  rw [Int.floor_lt, div_lt_iff₀ hd, Int.cast_natCast, mul_div_cancel₀ _ hn'.ne']
  linarith

/-- one direction: the box numbers of two points closer than one box differ by at most one -/
theorem near1 {δ u v : K} (hδ : 0 < δ) (hv : 0 ≤ v) (h : (v - u) * (v - u) < δ * δ) :
    trunc (v / δ) = trunc (u / δ) ∨ trunc (v / δ) = trunc (u / δ) - 1 ∨ trunc (v / δ) = trunc (u / δ) + 1 := by
  have ha : v - u < δ := by nlinarith
  have hb : u - v < δ := by nlinarith
  have h1 : v / δ < u / δ + 1 := by
    rw [div_add_one hδ.ne', div_lt_div_iff_of_pos_right hδ]; linarith
  have h2 : u / δ < v / δ + 1 := by
    rw [div_add_one hδ.ne', div_lt_div_iff_of_pos_right hδ]; linarith
  have hv0 : 0 ≤ v / δ := div_nonneg hv hδ.le
  unfold trunc
  rw [if_pos hv0]
  by_cases hu : 0 ≤ u / δ
  · rw [if_pos hu]
    have a1 := Int.floor_le (v / δ); have a2 := Int.lt_floor_add_one (v / δ)
    have b1 := Int.floor_le (u / δ); have b2 := Int.lt_floor_add_one (u / δ)
    have c1 : ((⌊v / δ⌋ : Int) : K) < ((⌊u / δ⌋ + 2 : Int) : K) := by push_cast; linarith
    have c2 : ((⌊u / δ⌋ : Int) : K) < ((⌊v / δ⌋ + 2 : Int) : K) := by push_cast; linarith
    have c1' := Int.cast_lt.mp c1
    have c2' := Int.cast_lt.mp c2
    omega
  · rw [if_neg hu]
    push Not at hu
    have e1 : ⌊v / δ⌋ = 0 := by
      rw [Int.floor_eq_iff]; push_cast; constructor <;> linarith
    have e2 : ⌊-(u / δ)⌋ = 0 := by
      rw [Int.floor_eq_iff]; push_cast; constructor <;> linarith
    rw [e1, e2]; simp

variable {d : SubBoxDomain K}

theorem Proper.delta_pos (hd : d.Proper) : 0 < (delta d).x ∧ 0 < (delta d).y ∧ 0 < (delta d).z := by
  obtain ⟨⟨a1, a2⟩, ⟨b1, b2⟩, ⟨c1, c2⟩⟩ := hd
  have a2' : (0 : K) < d.subs.x := by exact_mod_cast a2
  have b2' : (0 : K) < d.subs.y := by exact_mod_cast b2
  have c2' : (0 : K) < d.subs.z := by exact_mod_cast c2
  exact ⟨div_pos (by linarith) a2', div_pos (by linarith) b2', div_pos (by linarith) c2'⟩

theorem valid_cell (hd : d.Proper) {p : V3 K} (hp : d.Inside p) : valid d (cell d p) = true := by
  obtain ⟨hx, hy, hz⟩ := hp
  have h1 := cell1 hd.x.2 hx.1 hx.2
  have h2 := cell1 hd.y.2 hy.1 hy.2
  have h3 := cell1 hd.z.2 hz.1 hz.2
  simp only [valid, decide_eq_true_eq]
  exact ⟨h1.1, h1.2, h2.1, h2.2, h3.1, h3.2⟩

theorem index_range {c : V3 Int} (h : valid d c = true) : 0 ≤ index d c ∧ index d c < numBoxes d := by
  simp only [valid, decide_eq_true_eq] at h
  obtain ⟨h1, h2, h3, h4, h5, h6⟩ := h
  unfold index numBoxes
  push_cast
  generalize (d.subs.x : Int) = a at *
  generalize (d.subs.y : Int) = b at *
  generalize (d.subs.z : Int) = e at *
  have hb : 0 < b := by omega
  have ha : 0 < a := by omega
  have k1 : 0 ≤ c.y * a := by positivity
  have k2 : 0 ≤ c.z * b * a := by positivity
  refine ⟨by omega, ?_⟩
  have k3 : c.y * a ≤ (b - 1) * a := Int.mul_le_mul_of_nonneg_right (by omega) ha.le
  have k4 : c.z * (b * a) ≤ (e - 1) * (b * a) := Int.mul_le_mul_of_nonneg_right (by omega) (by positivity)
  nlinarith

theorem minDelta_sq (hd : d.Proper) :
    minDelta d * minDelta d ≤ (delta d).x * (delta d).x ∧ minDelta d * minDelta d ≤ (delta d).y * (delta d).y ∧
      minDelta d * minDelta d ≤ (delta d).z * (delta d).z := by
  obtain ⟨h1, h2, h3⟩ := Proper.delta_pos hd
  have h0 : 0 < minDelta d := lt_min h1 (lt_min h2 h3)
  have a : minDelta d ≤ (delta d).x := min_le_left _ _
  have b : minDelta d ≤ (delta d).y := (min_le_right _ _).trans (min_le_left _ _)
  have c : minDelta d ≤ (delta d).z := (min_le_right _ _).trans (min_le_right _ _)
  exact ⟨mul_le_mul a a h0.le h1.le, mul_le_mul b b h0.le h2.le, mul_le_mul c c h0.le h3.le⟩

theorem mem_neighbours (hd : d.Proper) (hr : ¬ d.r2 > minDelta d * minDelta d) {p q : V3 K} (hp : d.Inside p)
    (h : dist2 p q < d.r2) : cell d p ∈ neighbours (cell d q) := by
  obtain ⟨h1, h2, h3⟩ := Proper.delta_pos hd
  obtain ⟨m1, m2, m3⟩ := minDelta_sq hd
  push Not at hr
  obtain ⟨hx, hy, hz⟩ := hp
  unfold dist2 at h
  have sx := mul_self_nonneg (p.x - q.x)
  have sy := mul_self_nonneg (p.y - q.y)
  have sz := mul_self_nonneg (p.z - q.z)
  have nx := near1 (u := q.x - d.start.x) (v := p.x - d.start.x) h1 (by linarith) (by
    rw [show p.x - d.start.x - (q.x - d.start.x) = p.x - q.x by ring]; linarith)
  have ny := near1 (u := q.y - d.start.y) (v := p.y - d.start.y) h2 (by linarith) (by
    rw [show p.y - d.start.y - (q.y - d.start.y) = p.y - q.y by ring]; linarith)
  have nz := near1 (u := q.z - d.start.z) (v := p.z - d.start.z) h3 (by linarith) (by
    rw [show p.z - d.start.z - (q.z - d.start.z) = p.z - q.z by ring]; linarith)
  unfold neighbours
  simp only [List.mem_flatMap, List.mem_map, List.mem_cons, List.not_mem_nil, or_false]
  exact ⟨_, nz, _, ny, _, nx, rfl⟩

/-- the content of the boxes after a number of insertions -/
def Holds (b : SubBoxes K) (d : SubBoxDomain K) (ps : List (NodePoint K)) : Prop :=
  b.dom = d ∧ (∀ n, b.data n = ps.filter fun p => index d (cell d p.pos) = n)

theorem add_ok (hd : d.Proper) {b : SubBoxes K} {ps : List (NodePoint K)} (hb : Holds b d ps) {p : NodePoint K}
    (hp : d.Inside p.pos) : ∃ b', b.add p = .ok b' ∧ Holds b' d (ps ++ [p]) := by
  obtain ⟨rfl, h2⟩ := hb
  have hi := index_range (valid_cell hd hp)
  refine ⟨⟨b.dom, fun m => if m = index b.dom (cell b.dom p.pos) then b.data (index b.dom (cell b.dom p.pos)) ++ [p]
    else b.data m⟩, by unfold add; rw [if_pos hi], rfl, ?_⟩
  intro n
  simp only [List.filter_append, List.filter_cons, List.filter_nil]
  by_cases hn : n = index b.dom (cell b.dom p.pos)
  · subst hn; simp [h2]
  · have hn' : ¬ index b.dom (cell b.dom p.pos) = n := fun h => hn h.symm
    simp [hn, hn', h2]

theorem adds_ok (hd : d.Proper) (ps : List (NodePoint K)) (hps : ∀ p ∈ ps, d.Inside p.pos) :
    ∀ (b : SubBoxes K) (old : List (NodePoint K)), Holds b d old →
      ∃ b', Res.foldlM add b ps = .ok b' ∧ Holds b' d (old ++ ps) := by
  induction ps with
  | nil => intro b old hb; exact ⟨b, rfl, by simpa using hb⟩
  | cons p ps ih =>
    intro b old hb
    obtain ⟨b1, e1, h1⟩ := add_ok hd hb (hps p (by simp))
    obtain ⟨b2, e2, h2⟩ := ih (fun q hq => hps q (by simp [hq])) b1 _ h1
    refine ⟨b2, ?_, by simpa using h2⟩
    rw [Res.foldlM_cons, e1]; exact e2

theorem findAt_some {b : SubBoxes K} {ps : List (NodePoint K)} (hb : Holds b d ps) {q : V3 K} {p : NodePoint K}
    (h : b.findAt q = some p) : p ∈ ps ∧ dist2 p.pos q < d.r2 := by
  obtain ⟨rfl, h2⟩ := hb
  obtain ⟨c, -, hc⟩ := List.exists_of_findSome?_eq_some h
  have h3 := List.find?_some hc
  have h4 := List.mem_of_find?_eq_some hc
  rw [h2] at h4
  exact ⟨(List.mem_filter.mp h4).1, by simpa using h3⟩

theorem findAt_none {b : SubBoxes K} (hd : d.Proper) (hr : ¬ d.r2 > minDelta d * minDelta d) {ps : List (NodePoint K)}
    (hps : ∀ p ∈ ps, d.Inside p.pos) (hb : Holds b d ps) {q : V3 K} (h : b.findAt q = none) {p : NodePoint K} (hp : p ∈ ps) :
    ¬ dist2 p.pos q < d.r2 := by
  obtain ⟨rfl, h2⟩ := hb
  intro hlt
  have hin := hps p hp
  unfold findAt at h
  rw [List.findSome?_eq_none_iff] at h
  have h3 := h (cell b.dom p.pos) (List.mem_filter.mpr ⟨mem_neighbours hd hr hin hlt, valid_cell hd hin⟩)
  rw [List.find?_eq_none] at h3
  exact h3 p (by rw [h2]; exact List.mem_filter.mpr ⟨hp, by simp⟩) (by simpa using hlt)

end SubBoxes

/-- C22.  If the constructor accepts the domain (start below end, at least one box per direction), every sequence of points of
the domain can be added, and then a query at any position `q` (inside or outside the domain) returns nothing exactly if no
added point is closer than the search radius, and otherwise returns an added point closer than the search radius. -/
theorem C22_findAt (d : SubBoxDomain K) (hd : d.Proper) (b0 : SubBoxes K) (h0 : create d = .ok b0)
    (ps : List (NodePoint K)) (hps : ∀ p ∈ ps, d.Inside p.pos) :
    ∃ b, Res.foldlM add b0 ps = .ok b ∧
      (∀ q, b.findAt q = none ↔ ∀ p ∈ ps,
        ¬ (p.pos.x - q.x) ^ 2 + (p.pos.y - q.y) ^ 2 + (p.pos.z - q.z) ^ 2 < d.r2) ∧
      (∀ q p, b.findAt q = some p → p ∈ ps ∧
        (p.pos.x - q.x) ^ 2 + (p.pos.y - q.y) ^ 2 + (p.pos.z - q.z) ^ 2 < d.r2) := by
  unfold create at h0
  split at h0
  · cases h0
  · rename_i hr
    injection h0 with h0
    have hb0 : Holds b0 d [] := by subst h0; exact ⟨rfl, fun n => rfl⟩
    obtain ⟨b, e, hb⟩ := adds_ok hd ps hps b0 [] hb0
    rw [List.nil_append] at hb
    have hdist : ∀ p q : V3 K, (p.x - q.x) ^ 2 + (p.y - q.y) ^ 2 + (p.z - q.z) ^ 2 = dist2 p q := by
      intro p q; unfold dist2; ring
    simp only [hdist]
    refine ⟨b, e, fun q => ⟨fun h p hp => findAt_none hd hr hps hb h hp, fun h => ?_⟩, fun q p h => findAt_some hb h⟩
    cases hf : b.findAt q with
    | none => rfl
    | some p => obtain ⟨h1, h2⟩ := findAt_some hb hf; exact absurd h2 (h p h1)

/-- two points next to a box face, one query in the neighbouring box -/
example : ∃ (d : SubBoxDomain ℚ) (b0 : SubBoxes ℚ) (ps : List (NodePoint ℚ)), d.Proper ∧ create d = .ok b0 ∧
    (∀ p ∈ ps, d.Inside p.pos) ∧ ps.length = 2 := by
  refine ⟨⟨⟨0, 0, 0⟩, ⟨1, 1, 1⟩, ⟨10, 10, 1⟩, 1/200⟩, ⟨⟨⟨0, 0, 0⟩, ⟨1, 1, 1⟩, ⟨10, 10, 1⟩, 1/200⟩, fun _ => []⟩, [⟨⟨99/1000, 1/2, 0⟩, 0⟩, ⟨⟨1/2, 2/10, 1/2⟩, 1⟩],
    ⟨by norm_num, by norm_num, by norm_num⟩, ?_, ?_, rfl⟩
  · unfold create
    rw [if_neg]
    have : minDelta (⟨⟨0, 0, 0⟩, ⟨1, 1, 1⟩, ⟨10, 10, 1⟩, 1/200⟩ : SubBoxDomain ℚ) = 1/10 := by
      unfold minDelta delta; norm_num
    rw [this]; norm_num
  · intro p hp
    simp only [List.mem_cons, List.not_mem_nil, or_false] at hp
    rcases hp with rfl | rfl <;> (unfold SubBoxDomain.Inside; norm_num)

end NuTo
