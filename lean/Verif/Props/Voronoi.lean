import Verif.Model.Voronoi
import Verif.Lemmas.Loops
import Verif.Props.QuadraturePoints
import Mathlib.Data.List.GetD
import Mathlib.Algebra.Order.Field.Basic
import Mathlib.Tactic.Ring
import Mathlib.Tactic.Linarith
import Mathlib.Tactic.FieldSimp
import Mathlib.Tactic.NormNum
import Mathlib.Tactic.IntervalCases

/-!
# C72: sub cells for integration point values

The geometries for lines, quadrilaterals and bricks tile the reference element, and with the spacing that
belongs to the integration type cell number `q` is the set of all points that are nearest to integration
point number `q`.
-/

namespace NuTo

namespace Voronoi

set_option linter.unusedSectionVars false

variable {K : Type} [Field K]

/-! ## The corners of the cells -/

/-- coordinates of the corners of cell `q` (`none`: no such point) -/
def corners (G : Geometry K) (q : Nat) : Option (List (Option (List K))) :=
  (G.cells[q]?).map fun c => c.map fun id => G.points[id]?

theorem eq_map_range (l : List K) (n : Nat) (h : l.length = n) :
    l = (List.range n).map fun (i : Nat) => l.getD i 0 := by
  apply List.ext_getElem
  · simp [h]
  · intro i h1 h2
    simp [h1]

/-- **C72** Cell `i` of a line joins grid points `i` and `i + 1`. -/
theorem C72_line (g : List K) (n : Nat) (hg : g.length = n + 1) :
    (lineHelper g).cells.length = n ∧
    ∀ i < n, corners (lineHelper g) i = some [some [g.getD i 0], some [g.getD (i + 1) 0]] := by
  refine ⟨by simp [lineHelper, hg], fun i hi => ?_⟩
  have h1 : (lineHelper g).cells[i]? = some [i, i + 1] := by
    simp [lineHelper, hg, hi]
  have h2 : ∀ j < n + 1, (lineHelper g).points[j]? = some [g.getD j 0] := by
    intro j hj
    simp [lineHelper, hg, hj]
  simp [corners, h1, h2 i (by omega), h2 (i + 1) (by omega)]

theorem quad_point (g : List K) (n : Nat) (hg : g.length = n) (i j : Nat) (hi : i < n) (hj : j < n) :
    (quadHelper g).points[j * n + i]? = some [g.getD i 0, g.getD j 0] := by
  have e : (quadHelper g).points = (List.range n).flatMap fun j => (List.range n).map fun i =>
      [g.getD i 0, g.getD j 0] := by
    conv_lhs => rw [eq_map_range g n hg]
    simp only [quadHelper, List.flatMap_map, List.map_map]
    rfl
  rw [e, getElem?_tensor (fun i j => [g.getD i 0, g.getD j 0]) n n]
  have h1 : (j * n + i) % n = i := by rw [Nat.mul_comm, Nat.mul_add_mod]; exact Nat.mod_eq_of_lt hi
  have h2 : (j * n + i) / n = j := by
    rw [Nat.mul_comm, Nat.mul_add_div (by omega), Nat.div_eq_of_lt hi, Nat.add_zero]
  rw [if_pos (by nlinarith [Nat.mul_le_mul_right n (show j + 1 ≤ n from hj)]), h1, h2]

/-- **C72** Cell `i + n j` of a quadrilateral is the rectangle between grid points `i`, `i + 1` in the first
and `j`, `j + 1` in the second direction, with its corners counterclockwise. -/
theorem C72_quad (g : List K) (n : Nat) (hg : g.length = n + 1) :
    (quadHelper g).cells.length = n ^ 2 ∧
    ∀ i < n, ∀ j < n, corners (quadHelper g) (i + n * j) = some [
      some [g.getD i 0, g.getD j 0], some [g.getD (i + 1) 0, g.getD j 0],
      some [g.getD (i + 1) 0, g.getD (j + 1) 0], some [g.getD i 0, g.getD (j + 1) 0]] := by
  refine ⟨by simp [quadHelper, hg, pow_two], fun i hi j hj => ?_⟩
  have h1 : (quadHelper g).cells[i + n * j]? = some [j * (n + 1) + i, j * (n + 1) + i + 1,
      j * (n + 1) + i + n + 2, j * (n + 1) + i + n + 1] := by
    simp only [quadHelper, hg, Nat.add_sub_cancel]
    rw [getElem?_tensor (fun i j => [j * (n + 1) + i, j * (n + 1) + i + 1,
      j * (n + 1) + i + n + 2, j * (n + 1) + i + n + 1]) n n]
    have e1 : (i + n * j) % n = i := by rw [Nat.add_mul_mod_self_left]; exact Nat.mod_eq_of_lt hi
    have e2 : (i + n * j) / n = j := by
      rw [Nat.add_mul_div_left _ _ (by omega), Nat.div_eq_of_lt hi, Nat.zero_add]
    rw [if_pos (by nlinarith [Nat.mul_le_mul_left n (show j + 1 ≤ n from hj)]), e1, e2]
  have h2 := quad_point g (n + 1) hg
  have p1 := h2 i j (by omega) (by omega)
  have p2 := h2 (i + 1) j (by omega) (by omega)
  have p3 := h2 (i + 1) (j + 1) (by omega) (by omega)
  have p4 := h2 i (j + 1) (by omega) (by omega)
  rw [show (j + 1) * (n + 1) + (i + 1) = j * (n + 1) + i + n + 2 by ring] at p3
  rw [show (j + 1) * (n + 1) + i = j * (n + 1) + i + n + 1 by ring] at p4
  simp only [corners, h1, Option.map_some, List.map_cons, List.map_nil, p1, ← Nat.add_assoc, p3, p4] at p2 ⊢
  rw [p2]

theorem brick_point (g : List K) (n : Nat) (hg : g.length = n) (i j k : Nat) (hi : i < n) (hj : j < n)
    (hk : k < n) :
    (brickHelper g).points[j * n + i + k * (n * n)]? = some [g.getD i 0, g.getD j 0, g.getD k 0] := by
  have e : (brickHelper g).points = (List.range n).flatMap fun k => (List.range n).flatMap fun j =>
      (List.range n).map fun i => [g.getD i 0, g.getD j 0, g.getD k 0] := by
    conv_lhs => rw [eq_map_range g n hg]
    simp only [brickHelper, List.flatMap_map, List.map_map]
    rfl
  have hlt : j * n + i < n * n := by nlinarith [Nat.mul_le_mul_right n (show j + 1 ≤ n from hj)]
  rw [e, getElem?_flatMap_uniform _ (n * n) (fun k => by simp)]
  have h1 : (j * n + i + k * (n * n)) % (n * n) = j * n + i := by
    rw [Nat.add_mul_mod_self_right]; exact Nat.mod_eq_of_lt hlt
  have h2 : (j * n + i + k * (n * n)) / (n * n) = k := by
    rw [Nat.add_mul_div_right _ _ (by omega), Nat.div_eq_of_lt hlt, Nat.zero_add]
  rw [if_pos (by nlinarith [Nat.mul_le_mul_right (n * n) (show k + 1 ≤ n from hk)]), h1, h2,
    getElem?_tensor (fun i j => [g.getD i 0, g.getD j 0, g.getD k 0]) n n, if_pos hlt]
  have h1 : (j * n + i) % n = i := by rw [Nat.mul_comm, Nat.mul_add_mod]; exact Nat.mod_eq_of_lt hi
  have h2 : (j * n + i) / n = j := by
    rw [Nat.mul_comm, Nat.mul_add_div (by omega), Nat.div_eq_of_lt hi, Nat.add_zero]
  rw [h1, h2]

/-- **C72** Cell `i + n j + n² k` of a brick is the box between grid points `i`, `i + 1` in the first, `j`,
`j + 1` in the second and `k`, `k + 1` in the third direction; its corners are listed as the bottom face and the
face above. -/
theorem C72_brick (g : List K) (n : Nat) (hg : g.length = n + 1) :
    (brickHelper g).cells.length = n ^ 3 ∧
    ∀ i < n, ∀ j < n, ∀ k < n, corners (brickHelper g) (i + n * j + n * n * k) = some [
      some [g.getD i 0, g.getD j 0, g.getD k 0], some [g.getD (i + 1) 0, g.getD j 0, g.getD k 0],
      some [g.getD (i + 1) 0, g.getD (j + 1) 0, g.getD k 0], some [g.getD i 0, g.getD (j + 1) 0, g.getD k 0],
      some [g.getD i 0, g.getD j 0, g.getD (k + 1) 0], some [g.getD (i + 1) 0, g.getD j 0, g.getD (k + 1) 0],
      some [g.getD (i + 1) 0, g.getD (j + 1) 0, g.getD (k + 1) 0],
      some [g.getD i 0, g.getD (j + 1) 0, g.getD (k + 1) 0]] := by
  refine ⟨by simp [brickHelper, hg, pow_succ, Nat.mul_assoc], fun i hi j hj k hk => ?_⟩
  have hlt : i + n * j < n * n := by nlinarith [Nat.mul_le_mul_left n (show j + 1 ≤ n from hj)]
  have h1 : (brickHelper g).cells[i + n * j + n * n * k]? = some [
      j * (n + 1) + i + k * ((n + 1) * (n + 1)), j * (n + 1) + i + k * ((n + 1) * (n + 1)) + 1,
      j * (n + 1) + i + k * ((n + 1) * (n + 1)) + n + 2, j * (n + 1) + i + k * ((n + 1) * (n + 1)) + n + 1,
      j * (n + 1) + i + (k + 1) * ((n + 1) * (n + 1)), j * (n + 1) + i + (k + 1) * ((n + 1) * (n + 1)) + 1,
      j * (n + 1) + i + (k + 1) * ((n + 1) * (n + 1)) + n + 2,
      j * (n + 1) + i + (k + 1) * ((n + 1) * (n + 1)) + n + 1] := by
    simp only [brickHelper, hg, Nat.add_sub_cancel]
    rw [getElem?_flatMap_uniform _ (n * n) (fun k => by simp)]
    have e1 : (i + n * j + n * n * k) % (n * n) = i + n * j := by
      rw [Nat.add_mul_mod_self_left]; exact Nat.mod_eq_of_lt hlt
    have e2 : (i + n * j + n * n * k) / (n * n) = k := by
      rw [Nat.add_mul_div_left _ _ (by omega), Nat.div_eq_of_lt hlt, Nat.zero_add]
    rw [if_pos (by nlinarith [Nat.mul_le_mul_left (n * n) (show k + 1 ≤ n from hk)]), e1, e2]
    rw [getElem?_tensor (fun i j => [
      j * (n + 1) + i + k * ((n + 1) * (n + 1)), j * (n + 1) + i + k * ((n + 1) * (n + 1)) + 1,
      j * (n + 1) + i + k * ((n + 1) * (n + 1)) + n + 2, j * (n + 1) + i + k * ((n + 1) * (n + 1)) + n + 1,
      j * (n + 1) + i + (k + 1) * ((n + 1) * (n + 1)), j * (n + 1) + i + (k + 1) * ((n + 1) * (n + 1)) + 1,
      j * (n + 1) + i + (k + 1) * ((n + 1) * (n + 1)) + n + 2,
      j * (n + 1) + i + (k + 1) * ((n + 1) * (n + 1)) + n + 1]) n n, if_pos hlt]
    have e1 : (i + n * j) % n = i := by rw [Nat.add_mul_mod_self_left]; exact Nat.mod_eq_of_lt hi
    have e2 : (i + n * j) / n = j := by
      rw [Nat.add_mul_div_left _ _ (by omega), Nat.div_eq_of_lt hi, Nat.zero_add]
    rw [e1, e2]
  have h2 := brick_point g (n + 1) hg
  have key : ∀ K' < n + 1, ∀ s, s = j * (n + 1) + i + K' * ((n + 1) * (n + 1)) →
      (brickHelper g).points[s]? = some [g.getD i 0, g.getD j 0, g.getD K' 0] ∧
      (brickHelper g).points[s + 1]? = some [g.getD (i + 1) 0, g.getD j 0, g.getD K' 0] ∧
      (brickHelper g).points[s + n + 2]? = some [g.getD (i + 1) 0, g.getD (j + 1) 0, g.getD K' 0] ∧
      (brickHelper g).points[s + n + 1]? = some [g.getD i 0, g.getD (j + 1) 0, g.getD K' 0] := by
    intro K' hK s hs
    have p1 := h2 i j K' (by omega) (by omega) hK
    have p2 := h2 (i + 1) j K' (by omega) (by omega) hK
    have p3 := h2 (i + 1) (j + 1) K' (by omega) (by omega) hK
    have p4 := h2 i (j + 1) K' (by omega) (by omega) hK
    rw [show j * (n + 1) + i + K' * ((n + 1) * (n + 1)) = s from hs.symm] at p1
    rw [show j * (n + 1) + (i + 1) + K' * ((n + 1) * (n + 1)) = s + 1 by rw [hs]; ring] at p2
    rw [show (j + 1) * (n + 1) + (i + 1) + K' * ((n + 1) * (n + 1)) = s + n + 2 by rw [hs]; ring] at p3
    rw [show (j + 1) * (n + 1) + i + K' * ((n + 1) * (n + 1)) = s + n + 1 by rw [hs]; ring] at p4
    exact ⟨p1, p2, p3, p4⟩
  obtain ⟨p1, p2, p3, p4⟩ := key k (by omega) _ rfl
  obtain ⟨q1, q2, q3, q4⟩ := key (k + 1) (by omega) _ rfl
  simp only [corners, h1, Option.map_some, List.map_cons, List.map_nil, p1, p2, p3, p4, q1, q2, q3, q4]

/-! ## Where a point belongs -/

variable [LinearOrder K] [IsStrictOrderedRing K]

/-- `x` lies between the corners of cell `q`, in each of the `d` directions. -/
def Inside (G : Geometry K) (d q : Nat) (x : List K) : Prop :=
  ∃ cs, corners G q = some cs ∧ ∀ e < d,
    (∃ p, some p ∈ cs ∧ p.getD e 0 ≤ x.getD e 0) ∧ (∃ p, some p ∈ cs ∧ x.getD e 0 ≤ p.getD e 0)

/-- the same without the boundary -/
def Interior (G : Geometry K) (d q : Nat) (x : List K) : Prop :=
  ∃ cs, corners G q = some cs ∧ ∀ e < d,
    (∃ p, some p ∈ cs ∧ p.getD e 0 < x.getD e 0) ∧ (∃ p, some p ∈ cs ∧ x.getD e 0 < p.getD e 0)

/-- square of the Euclidean distance -/
def distSq (d : Nat) (x y : List K) : K := ((List.range d).map fun e => (x.getD e 0 - y.getD e 0) ^ 2).sum

/-- no point of the list is nearer to `x` than point `q` -/
def Nearest (ips : List (List K)) (d q : Nat) (x : List K) : Prop :=
  ∃ c, ips[q]? = some c ∧ ∀ c' ∈ ips, distSq d x c ≤ distSq d x c'

theorem exists_between {cs : List (Option (List K))} {e : Nat} {a b : K} (hab : a ≤ b)
    (hall : ∀ p, some p ∈ cs → p.getD e 0 = a ∨ p.getD e 0 = b)
    (ha : ∃ p, some p ∈ cs ∧ p.getD e 0 = a) (hb : ∃ p, some p ∈ cs ∧ p.getD e 0 = b) (x : K) :
    (((∃ p, some p ∈ cs ∧ p.getD e 0 ≤ x) ∧ (∃ p, some p ∈ cs ∧ x ≤ p.getD e 0)) ↔ a ≤ x ∧ x ≤ b) ∧
    (((∃ p, some p ∈ cs ∧ p.getD e 0 < x) ∧ (∃ p, some p ∈ cs ∧ x < p.getD e 0)) ↔ a < x ∧ x < b) := by
  obtain ⟨pa, ha1, ha2⟩ := ha
  obtain ⟨pb, hb1, hb2⟩ := hb
  refine ⟨⟨?_, ?_⟩, ⟨?_, ?_⟩⟩
  · rintro ⟨⟨p, hp, h1⟩, ⟨q, hq, h2⟩⟩
    constructor
    · rcases hall p hp with h | h <;> rw [h] at h1
      · exact h1
      · exact hab.trans h1
    · rcases hall q hq with h | h <;> rw [h] at h2
      · exact h2.trans hab
      · exact h2
  · rintro ⟨h1, h2⟩
    exact ⟨⟨pa, ha1, ha2.le.trans h1⟩, ⟨pb, hb1, h2.trans hb2.ge⟩⟩
  · rintro ⟨⟨p, hp, h1⟩, ⟨q, hq, h2⟩⟩
    constructor
    · rcases hall p hp with h | h <;> rw [h] at h1
      · exact h1
      · exact hab.trans_lt h1
    · rcases hall q hq with h | h <;> rw [h] at h2
      · exact h2.trans_le hab
      · exact h2
  · rintro ⟨h1, h2⟩
    exact ⟨⟨pa, ha1, ha2.le.trans_lt h1⟩, ⟨pb, hb1, h2.trans_le hb2.ge⟩⟩

/-- `t` lies between grid points `i` and `i + 1`. -/
def In (g : List K) (i : Nat) (t : K) : Prop := g.getD i 0 ≤ t ∧ t ≤ g.getD (i + 1) 0

/-- the same without the ends -/
def InO (g : List K) (i : Nat) (t : K) : Prop := g.getD i 0 < t ∧ t < g.getD (i + 1) 0

theorem inside_iff {G : Geometry K} {d q : Nat} {x : List K} {cs : List (Option (List K))}
    (hc : corners G q = some cs) (a b : Nat → K)
    (h : ∀ e < d, a e ≤ b e ∧ (∀ p, some p ∈ cs → p.getD e 0 = a e ∨ p.getD e 0 = b e) ∧
      (∃ p, some p ∈ cs ∧ p.getD e 0 = a e) ∧ (∃ p, some p ∈ cs ∧ p.getD e 0 = b e)) :
    (Inside G d q x ↔ ∀ e < d, a e ≤ x.getD e 0 ∧ x.getD e 0 ≤ b e) ∧
    (Interior G d q x ↔ ∀ e < d, a e < x.getD e 0 ∧ x.getD e 0 < b e) := by
  simp only [Inside, Interior, hc, Option.some.injEq, exists_eq_left']
  constructor
  · refine forall_congr' fun e => forall_congr' fun he => ?_
    obtain ⟨h1, h2, h3, h4⟩ := h e he
    exact (exists_between h1 h2 h3 h4 _).1
  · refine forall_congr' fun e => forall_congr' fun he => ?_
    obtain ⟨h1, h2, h3, h4⟩ := h e he
    exact (exists_between h1 h2 h3 h4 _).2

/-- the direction-wise numbers of cell `q` -/
def digit (n q e : Nat) : Nat := q / n ^ e % n

/-- the three helpers by dimension -/
def helper : Nat → List K → Geometry K
  | 1, g => lineHelper g
  | 2, g => quadHelper g
  | 3, g => brickHelper g
  | _, _ => ⟨[], []⟩

theorem digit_lt {n q e : Nat} (hn : 0 < n) : digit n q e < n := Nat.mod_lt _ hn

theorem eq_digits2 {n q : Nat} (hq : q < n ^ 2) : q = digit n q 0 + n * digit n q 1 := by
  have h : q / n < n := by
    apply Nat.div_lt_of_lt_mul
    rw [← pow_two]; exact hq
  simp only [digit, pow_zero, Nat.div_one, pow_one]
  rw [Nat.mod_eq_of_lt h, Nat.mod_add_div]

theorem eq_digits3 {n q : Nat} (hq : q < n ^ 3) :
    q = digit n q 0 + n * digit n q 1 + n * n * digit n q 2 := by
  have h : q / n ^ 2 < n := by
    apply Nat.div_lt_of_lt_mul
    rw [← pow_succ]; exact hq
  simp only [digit, pow_zero, Nat.div_one, pow_one]
  rw [Nat.mod_eq_of_lt h, pow_two, ← Nat.div_div_eq_div_mul]
  have h1 := Nat.mod_add_div q n
  have h2 := Nat.mod_add_div (q / n) n
  nlinarith

theorem helper_inside (d : Nat) (hd : 1 ≤ d ∧ d ≤ 3) (g : List K) (n : Nat) (hg : g.length = n + 1)
    (hinc : ∀ i < n, g.getD i 0 ≤ g.getD (i + 1) 0) (q : Nat) (hq : q < n ^ d) (x : List K) :
    (Inside (helper d g) d q x ↔ ∀ e < d, In g (digit n q e) (x.getD e 0)) ∧
    (Interior (helper d g) d q x ↔ ∀ e < d, InO g (digit n q e) (x.getD e 0)) := by
  have hn : 0 < n := by
    rcases Nat.eq_zero_or_pos n with h | h
    · rw [h, Nat.zero_pow (by omega)] at hq; omega
    · exact h
  obtain ⟨d1, d3⟩ := hd
  interval_cases d
  · have hc := (C72_line g n hg).2 (digit n q 0) (digit_lt hn)
    have e : digit n q 0 = q := by
      simp only [digit, pow_zero, Nat.div_one]; exact Nat.mod_eq_of_lt (by simpa using hq)
    conv at hc => lhs; rw [e]
    refine inside_iff (G := helper 1 g) hc (fun e => g.getD (digit n q e) 0) (fun e => g.getD (digit n q e + 1) 0)
      fun e he => ⟨hinc _ (digit_lt hn), ?_⟩
    interval_cases e <;> simp
  · have hc := (C72_quad g n hg).2 (digit n q 0) (digit_lt hn) (digit n q 1) (digit_lt hn)
    conv at hc => lhs; rw [← eq_digits2 hq]
    refine inside_iff (G := helper 2 g) hc (fun e => g.getD (digit n q e) 0) (fun e => g.getD (digit n q e + 1) 0)
      fun e he => ⟨hinc _ (digit_lt hn), ?_⟩
    interval_cases e <;> simp
  · have hc := (C72_brick g n hg).2 (digit n q 0) (digit_lt hn) (digit n q 1) (digit_lt hn) (digit n q 2)
      (digit_lt hn)
    conv at hc => lhs; rw [← eq_digits3 hq]
    refine inside_iff (G := helper 3 g) hc (fun e => g.getD (digit n q e) 0) (fun e => g.getD (digit n q e + 1) 0)
      fun e he => ⟨hinc _ (digit_lt hn), ?_⟩
    interval_cases e <;> simp

/-! ## Tiling -/

theorem mono_of_step (g : Nat → K) (n : Nat) (h : ∀ i < n, g i < g (i + 1)) (i j : Nat) (hij : i ≤ j) (hj : j ≤ n) :
    g i ≤ g j := by
  induction j with
  | zero => rw [Nat.le_zero.mp hij]
  | succ j ih =>
    rcases Nat.lt_or_ge i (j + 1) with h1 | h1
    · exact (ih (by omega) (by omega)).trans (h j (by omega)).le
    · rw [show i = j + 1 by omega]

theorem locate (g : Nat → K) (n : Nat) (hn : 0 < n) (t : K) (h0 : g 0 ≤ t) (h1 : t ≤ g n) :
    ∃ i < n, g i ≤ t ∧ t ≤ g (i + 1) := by
  induction n with
  | zero => omega
  | succ n ih =>
    rcases le_total t (g n) with h | h
    · rcases Nat.eq_zero_or_pos n with rfl | hp
      · exact ⟨0, by omega, h0, h1⟩
      · obtain ⟨i, hi, q⟩ := ih hp h
        exact ⟨i, by omega, q⟩
    · exact ⟨n, by omega, h, h1⟩

theorem exists_digits (n d : Nat) (f : Nat → Nat) (hf : ∀ e < d, f e < n) :
    ∃ q < n ^ d, ∀ e < d, digit n q e = f e := by
  have : (List.range d).map f ∈ tuples n d := by
    rw [mem_tuples]
    refine ⟨by simp, fun i hi => ?_⟩
    simp only [List.mem_map, List.mem_range] at hi
    obtain ⟨e, he, rfl⟩ := hi
    exact hf e he
  rw [tuples_eq] at this
  simp only [List.mem_map, List.mem_range, digits] at this
  obtain ⟨q, hq, h⟩ := this
  refine ⟨q, hq, fun e he => ?_⟩
  have := congrArg (fun l => l[e]?) h
  simpa [he, digit] using this

theorem eq_of_digits (n d q r : Nat) (hq : q < n ^ d) (hr : r < n ^ d) (h : ∀ e < d, digit n q e = digit n r e) :
    q = r := by
  have hnd := nodup_tuples n d
  rw [tuples_eq] at hnd
  refine List.inj_on_of_nodup_map hnd (List.mem_range.mpr hq) (List.mem_range.mpr hr) ?_
  exact List.map_congr_left fun e he => h e (List.mem_range.mp he)

/-- **C72** The cells tile the reference element: they cover it, and no cell reaches into another one. -/
theorem C72_tiling (d : Nat) (hd : 1 ≤ d ∧ d ≤ 3) (g : List K) (n : Nat) (hn : 0 < n) (hg : g.length = n + 1)
    (hinc : ∀ i < n, g.getD i 0 < g.getD (i + 1) 0) :
    (helper d g).cells.length = n ^ d ∧
    (∀ x : List K, (∀ e < d, g.getD 0 0 ≤ x.getD e 0 ∧ x.getD e 0 ≤ g.getD n 0) →
      ∃ q < n ^ d, Inside (helper d g) d q x) ∧
    (∀ q < n ^ d, ∀ r < n ^ d, ∀ x : List K, Interior (helper d g) d q x → Inside (helper d g) d r x → q = r) := by
  have hin := fun q (hq : q < n ^ d) x => helper_inside d hd g n hg (fun i hi => (hinc i hi).le) q hq x
  refine ⟨?_, fun x hx => ?_, fun q hq r hr x h1 h2 => ?_⟩
  · obtain ⟨d1, d3⟩ := hd
    interval_cases d
    · simpa [helper] using (C72_line g n hg).1
    · exact (C72_quad g n hg).1
    · exact (C72_brick g n hg).1
  · have : ∀ e, ∃ i, e < d → i < n ∧ In g i (x.getD e 0) := by
      intro e
      by_cases he : e < d
      · obtain ⟨i, hi, h⟩ := locate (fun i => g.getD i 0) n hn (x.getD e 0) (hx e he).1 (hx e he).2
        exact ⟨i, fun _ => ⟨hi, h⟩⟩
      · exact ⟨0, fun h => absurd h he⟩
    choose f hf using this
    obtain ⟨q, hq, h⟩ := exists_digits n d f fun e he => (hf e he).1
    refine ⟨q, hq, ((hin q hq x).1).mpr fun e he => ?_⟩
    rw [h e he]; exact (hf e he).2
  · rw [(hin q hq x).2] at h1
    rw [(hin r hr x).1] at h2
    refine eq_of_digits n d q r hq hr fun e he => ?_
    have a := h1 e he
    have b := h2 e he
    have m := mono_of_step (fun i => g.getD i 0) n hinc
    rcases Nat.lt_trichotomy (digit n q e) (digit n r e) with h | h | h
    · have := m (digit n q e + 1) (digit n r e) h (digit_lt hn).le
      exact absurd (a.2.trans_le (this.trans b.1)) (lt_irrefl _)
    · exact h
    · have := m (digit n r e + 1) (digit n q e) h (digit_lt hn).le
      exact absurd (a.1.trans_le (b.2.trans this)) (lt_irrefl _)

/-! ## Nearest integration points -/

theorem centered_spec (pts : List K) (n : Nat) (hn : 0 < n) (hp : pts.length = n) :
    ∃ g, centered pts = .ok g ∧ g.length = n + 1 ∧ g.getD 0 0 = -1 ∧ g.getD n 0 = 1 ∧
      ∀ i, i + 1 < n → g.getD (i + 1) 0 = (pts.getD i 0 + pts.getD (i + 1) 0) / 2 := by
  rw [centered, if_neg (by omega)]
  refine ⟨_, rfl, by simp [hp]; omega, rfl, ?_, fun i hi => ?_⟩
  · obtain ⟨m, rfl⟩ : ∃ m, n = m + 1 := ⟨n - 1, by omega⟩
    rw [List.cons_append, List.getD_cons_succ, List.getD_append_right _ _ _ _ (by simp [hp])]
    simp [hp]
  · rw [List.cons_append, List.getD_cons_succ, List.getD_append _ _ _ _ (by simp [hp]; omega)]
    rw [List.getD_eq_getElem _ _ (by simp [hp]; omega)]
    simp

/-- the assumption on the integration points: increasing, in the interval -/
structure Increasing (pts : List K) (n : Nat) : Prop where
  length : pts.length = n
  pos : 0 < n
  inc : ∀ i j, i < j → j < n → pts.getD i 0 < pts.getD j 0
  low : ∀ i < n, -1 ≤ pts.getD i 0
  up : ∀ i < n, pts.getD i 0 ≤ 1

theorem nearest_one (pts : List K) (n : Nat) (h : Increasing pts n) (g : List K) (hg : centered pts = .ok g)
    (t : K) (h1 : -1 ≤ t) (h2 : t ≤ 1) (j : Nat) (hj : j < n) :
    In g j t ↔ ∀ i < n, (t - pts.getD j 0) ^ 2 ≤ (t - pts.getD i 0) ^ 2 := by
  obtain ⟨g', e1, -, e3, e4, e5⟩ := centered_spec pts n h.pos h.length
  obtain rfl : g' = g := by rw [e1] at hg; injection hg
  have mono : ∀ i j, i ≤ j → j < n → pts.getD i 0 ≤ pts.getD j 0 := by
    intro i j hij hjn
    rcases Nat.lt_or_ge i j with h3 | h3
    · exact (h.inc i j h3 hjn).le
    · rw [show i = j by omega]
  constructor
  · rintro ⟨a, b⟩ i hi
    rcases Nat.lt_trichotomy i j with hij | hij | hij
    · obtain ⟨m, rfl⟩ : ∃ m, j = m + 1 := ⟨j - 1, by omega⟩
      rw [e5 m hj] at a
      have m1 := mono i m (by omega) (by omega)
      have m2 := h.inc i (m + 1) hij hj
      nlinarith
    · rw [hij]
    · rw [e5 j (by omega)] at b
      have m1 := mono (j + 1) i (by omega) hi
      have m2 := h.inc j i hij hi
      nlinarith
  · intro hall
    constructor
    · rcases Nat.eq_zero_or_pos j with rfl | hp
      · rw [e3]; exact h1
      · obtain ⟨m, rfl⟩ : ∃ m, j = m + 1 := ⟨j - 1, by omega⟩
        rw [e5 m hj]
        have := hall m (by omega)
        have m2 := h.inc m (m + 1) (by omega) hj
        by_contra hc
        push Not at hc
        nlinarith
    · rcases Nat.lt_or_ge (j + 1) n with hp | hp
      · rw [e5 j hp]
        have := hall (j + 1) hp
        have m2 := h.inc j (j + 1) (by omega) hp
        by_contra hc
        push Not at hc
        nlinarith
      · rw [show j + 1 = n by omega, e4]; exact h2

theorem centered_inc (pts : List K) (n : Nat) (h : Increasing pts n)
    (g : List K) (hg : centered pts = .ok g) : ∀ i < n, g.getD i 0 < g.getD (i + 1) 0 := by
  obtain ⟨g', e1, -, e3, e4, e5⟩ := centered_spec pts n h.pos h.length
  obtain rfl : g' = g := by rw [e1] at hg; injection hg
  intro i hi
  rcases Nat.eq_zero_or_pos i with rfl | hp
  · rw [e3]
    rcases Nat.lt_or_ge 1 n with h1 | h1
    · rw [e5 0 h1]
      have := h.low 0 hi
      have := h.inc 0 1 (by omega) h1
      linarith
    · rw [show 0 + 1 = n by omega, e4]; norm_num
  · obtain ⟨m, rfl⟩ : ∃ m, i = m + 1 := ⟨i - 1, by omega⟩
    rw [e5 m hi]
    have a := h.inc m (m + 1) (by omega) hi
    rcases Nat.lt_or_ge (m + 2) n with h1 | h1
    · rw [e5 (m + 1) h1]
      have := h.inc (m + 1) (m + 2) (by omega) h1
      linarith
    · rw [show m + 1 + 1 = n by omega, e4]
      have := h.up (m + 1) hi
      linarith

/-- the coordinates of the integration points of a tensor product rule -/
def coords (rule : List (K × List K)) : List (List K) := rule.map Prod.snd

theorem coords_get (d n : Nat) (w p : List K) (q : Nat) (hq : q < n ^ d) :
    (coords (Quadrature.tensor d n w p))[q]? =
      some ((List.range d).map fun e => p.getD (digit n q e) 0) := by
  simp only [coords, Quadrature.tensor, List.getElem?_map, List.getElem?_range hq, Option.map_some,
    fold_tensorStep, digits, List.map_map]
  rfl

theorem distSq_eq (d n : Nat) (p : List K) (q : Nat) (x : List K) :
    distSq d x ((List.range d).map fun e => p.getD (digit n q e) 0) =
      ((List.range d).map fun e => (x.getD e 0 - p.getD (digit n q e) 0) ^ 2).sum := by
  rw [distSq]
  congr 1
  refine List.map_congr_left fun e he => ?_
  have he' := List.mem_range.mp he
  have : ((List.range d).map fun e => p.getD (digit n q e) 0).getD e 0 = p.getD (digit n q e) 0 := by
    rw [List.getD_eq_getElem _ _ (by simpa using he')]
    simp
  rw [this]

theorem mem_coords (d n : Nat) (w p : List K) (c : List K) :
    c ∈ coords (Quadrature.tensor d n w p) ↔ ∃ q < n ^ d, c = (List.range d).map fun e => p.getD (digit n q e) 0 := by
  have hl : (coords (Quadrature.tensor d n w p)).length = n ^ d := by simp [coords, Quadrature.tensor]
  rw [List.mem_iff_getElem?]
  constructor
  · rintro ⟨q, hq⟩
    have hlt : q < n ^ d := by rw [← hl]; exact (List.getElem?_eq_some_iff.mp hq).1
    rw [coords_get d n w p q hlt] at hq
    exact ⟨q, hlt, by injection hq with hq; exact hq.symm⟩
  · rintro ⟨q, hq, rfl⟩
    exact ⟨q, coords_get d n w p q hq⟩

/-- Nearest in the product is nearest in every direction. -/
theorem nearest_tensor (d n : Nat) (w p : List K) (q : Nat) (hq : q < n ^ d) (hn : 0 < n) (x : List K) :
    Nearest (coords (Quadrature.tensor d n w p)) d q x ↔
      ∀ e < d, ∀ i < n, (x.getD e 0 - p.getD (digit n q e) 0) ^ 2 ≤ (x.getD e 0 - p.getD i 0) ^ 2 := by
  simp only [Nearest, coords_get d n w p q hq, Option.some.injEq, exists_eq_left', mem_coords]
  constructor
  · intro h e he i hi
    obtain ⟨r, hr, hd⟩ := exists_digits n d (fun e' => if e' = e then i else digit n q e') fun e' _ => by
      split
      · exact hi
      · exact digit_lt hn
    have := h _ ⟨r, hr, rfl⟩
    rw [distSq_eq, distSq_eq] at this
    by_contra hc
    push Not at hc
    refine absurd this (not_le.mpr (List.sum_lt_sum _ _ ?_ ⟨e, List.mem_range.mpr he, ?_⟩))
    · intro e' he'
      rw [hd e' (List.mem_range.mp he')]
      split
      · rename_i h'; rw [h']; exact hc.le
      · exact le_rfl
    · rw [hd e he, if_pos rfl]; exact hc
  · rintro h c ⟨r, hr, rfl⟩
    rw [distSq_eq, distSq_eq]
    exact List.sum_le_sum fun e he => h e (List.mem_range.mp he) _ (digit_lt hn)

/-- **C72** With grid points between the integration points of the one-dimensional rule, cell `q` consists of the
points of the reference element that are nearest to integration point `q` of the tensor product rule. -/
theorem C72_voronoi (d : Nat) (hd : 1 ≤ d ∧ d ≤ 3) (pts w : List K) (n : Nat) (h : Increasing pts n) (g : List K)
    (hg : centered pts = .ok g) (q : Nat) (hq : q < n ^ d) (x : List K) (hx : ∀ e < d, -1 ≤ x.getD e 0 ∧ x.getD e 0 ≤ 1) :
    Inside (helper d g) d q x ↔ Nearest (coords (Quadrature.tensor d n w pts)) d q x := by
  have hinc := centered_inc pts n h g hg
  obtain ⟨g', e1, e2, -⟩ := centered_spec pts n h.pos h.length
  obtain rfl : g' = g := by rw [e1] at hg; injection hg
  rw [(helper_inside d hd g' n e2 (fun i hi => (hinc i hi).le) q hq x).1, nearest_tensor d n w pts q hq h.pos x]
  refine forall_congr' fun e => forall_congr' fun he => ?_
  exact nearest_one pts n h g' e1 _ (hx e he).1 (hx e he).2 _ (digit_lt h.pos)

/-! ## The functions of the interface -/

/-- `VoronoiGeometryLine`, `VoronoiGeometryQuad`, `VoronoiGeometryBrick` by dimension -/
def geometry (d : Nat) (num : Int) (s : Spacing) (roots : List K) : Res (Geometry K) :=
  match d with
  | 1 => line num s roots
  | 2 => quad num s roots
  | 3 => brick num s roots
  | _ => .throw

theorem geometry_eq (d : Nat) (hd : 1 ≤ d ∧ d ≤ 3) (num : Int) (s : Spacing) (roots g : List K)
    (h : grid num s roots = .ok g) : geometry d num s roots = .ok (helper d g) := by
  obtain ⟨d1, d3⟩ := hd
  interval_cases d
  · simp only [geometry, line, h]; rfl
  · simp only [geometry, quad, h]; rfl
  · simp only [geometry, brick, h]; rfl

/-- what a user expects of a geometry with `n` cells in each of the `d` directions -/
structure Tiling (G : Geometry K) (d n : Nat) : Prop where
  number : G.cells.length = n ^ d
  covers : ∀ x : List K, (∀ e < d, -1 ≤ x.getD e 0 ∧ x.getD e 0 ≤ 1) → ∃ q < n ^ d, Inside G d q x
  apart : ∀ q < n ^ d, ∀ r < n ^ d, ∀ x : List K, Interior G d q x → Inside G d r x → q = r

theorem centered_result (d : Nat) (hd : 1 ≤ d ∧ d ≤ 3) (pts w : List K) (n : Nat) (h : Increasing pts n)
    (num : Int) (s : Spacing) (roots : List K) (hgrid : grid num s roots = centered pts) :
    ∃ G, geometry d num s roots = .ok G ∧ Tiling G d n ∧
      ∀ q < n ^ d, ∀ x : List K, (∀ e < d, -1 ≤ x.getD e 0 ∧ x.getD e 0 ≤ 1) →
        (Inside G d q x ↔ Nearest (coords (Quadrature.tensor d n w pts)) d q x) := by
  obtain ⟨g, e1, e2, e3, e4, -⟩ := centered_spec pts n h.pos h.length
  have hinc := centered_inc pts n h g e1
  obtain ⟨t1, t2, t3⟩ := C72_tiling d hd g n h.pos e2 hinc
  refine ⟨helper d g, geometry_eq d hd num s roots g (hgrid.trans e1), ⟨t1, fun x hx => t2 x ?_, t3⟩, ?_⟩
  · rw [e3, e4]; exact hx
  · exact fun q hq x hx => C72_voronoi d hd pts w n h g e1 q hq x hx

/-- **C72** Gauss spacing: with the sorted roots of the Legendre polynomial, sub cell `q` is the set of the points that
are nearest to integration point `q` of the Gauss rule of the same number of points, and the sub cells tile the reference
element. -/
theorem C72_gauss (d : Nat) (hd : 1 ≤ d ∧ d ≤ 3) (n : Nat) (hn : 0 < n) (roots : List ℝ) (hlen : roots.length = n)
    (hsort : roots.Pairwise (· < ·)) (hroot : ∀ x ∈ roots, (LegendrePoly.P ℝ n).eval x = 0) :
    ∃ G w, geometry d n .gauss roots = .ok G ∧ Quadrature.gauss n roots = .ok (w, roots) ∧ Tiling G d n ∧
      ∀ q < n ^ d, ∀ x : List ℝ, (∀ e < d, -1 ≤ x.getD e 0 ∧ x.getD e 0 ≤ 1) →
        (Inside G d q x ↔ Nearest (coords (Quadrature.tensor d n w roots)) d q x) := by
  have hnd : roots.Nodup := hsort.imp fun h => ne_of_lt h
  obtain ⟨w, hr, -⟩ := C60_gauss n roots hn hlen hnd hroot
  have hin := (C60_gauss_inside n roots hn hlen hnd hroot w hr).1
  have hI : Increasing roots n := by
    refine ⟨hlen, hn, fun i j hij hj => ?_, fun i hi => ?_, fun i hi => ?_⟩
    · rw [List.getD_eq_getElem _ _ (by omega), List.getD_eq_getElem _ _ (by omega)]
      exact List.pairwise_iff_getElem.mp hsort i j (by omega) (by omega) hij
    · rw [List.getD_eq_getElem _ _ (by omega)]; exact (hin _ (List.getElem_mem _)).1.le
    · rw [List.getD_eq_getElem _ _ (by omega)]; exact (hin _ (List.getElem_mem _)).2.le
  obtain ⟨G, h1, h2, h3⟩ := centered_result d hd roots w n hI n .gauss roots (by
    simp only [grid, gaussSpaced, hr]; rfl)
  exact ⟨G, w, h1, hr, h2, h3⟩

/-- **C72** Lobatto spacing, with the sorted roots of the derivative of the Legendre polynomial. -/
theorem C72_lobatto (d : Nat) (hd : 1 ≤ d ∧ d ≤ 3) (m : Nat) (hm : 0 < m) (roots : List ℝ) (hlen : roots.length = m - 1)
    (hsort : roots.Pairwise (· < ·))
    (hroot : ∀ x ∈ roots, (Polynomial.derivative (LegendrePoly.P ℝ m)).eval x = 0) :
    ∃ G w, geometry d ((m : Int) + 1) .lobatto roots = .ok G ∧
      Quadrature.lobatto ((m : Int) + 1) roots = .ok (w, -1 :: (roots ++ [1])) ∧ Tiling G d (m + 1) ∧
      ∀ q < (m + 1) ^ d, ∀ x : List ℝ, (∀ e < d, -1 ≤ x.getD e 0 ∧ x.getD e 0 ≤ 1) →
        (Inside G d q x ↔ Nearest (coords (Quadrature.tensor d (m + 1) w (-1 :: (roots ++ [1])))) d q x) := by
  have hnd : roots.Nodup := hsort.imp fun h => ne_of_lt h
  obtain ⟨w, hr, -⟩ := C60_lobatto m roots hm hlen hnd hroot
  have hin := (C60_lobatto_inside m roots hm hlen hnd hroot w hr).1
  set pts : List ℝ := -1 :: (roots ++ [1]) with hpts
  have hl : pts.length = m + 1 := by simp [hpts, hlen]; omega
  have hs : pts.Pairwise (· < ·) := by
    rw [hpts, List.pairwise_cons, List.pairwise_append]
    refine ⟨fun a ha => ?_, hsort, List.pairwise_singleton _ _, fun a ha b hb => ?_⟩
    · rw [List.mem_append, List.mem_singleton] at ha
      rcases ha with ha | ha
      · exact (hin a ha).1
      · rw [ha]; norm_num
    · rw [List.mem_singleton.mp hb]; exact (hin a ha).2
  have hb : ∀ x ∈ pts, -1 ≤ x ∧ x ≤ 1 := by
    intro x hx
    rw [hpts, List.mem_cons, List.mem_append, List.mem_singleton] at hx
    rcases hx with rfl | hx | rfl
    · norm_num
    · exact ⟨(hin x hx).1.le, (hin x hx).2.le⟩
    · norm_num
  have hI : Increasing pts (m + 1) := by
    refine ⟨hl, by omega, fun i j hij hj => ?_, fun i hi => ?_, fun i hi => ?_⟩
    · rw [List.getD_eq_getElem _ _ (by omega), List.getD_eq_getElem _ _ (by omega)]
      exact List.pairwise_iff_getElem.mp hs i j (by omega) (by omega) hij
    · rw [List.getD_eq_getElem _ _ (by omega)]; exact (hb _ (List.getElem_mem _)).1
    · rw [List.getD_eq_getElem _ _ (by omega)]; exact (hb _ (List.getElem_mem _)).2
  obtain ⟨G, h1, h2, h3⟩ := centered_result d hd pts w (m + 1) hI ((m : Int) + 1) .lobatto roots (by
    simp only [grid, lobattoSpaced, hr]; rfl)
  exact ⟨G, w, h1, hr, h2, h3⟩

/-- **C72** Equidistant spacing: `n` cells in each direction, which tile the reference element; grid point `i` is
`-1 + 2 i / n`. -/
theorem C72_equidistant (d : Nat) (hd : 1 ≤ d ∧ d ≤ 3) (n : Nat) (hn : 0 < n) (roots : List K) :
    ∃ G g, geometry d (n : Int) .equidistant roots = .ok G ∧ Tiling G d n ∧ G = helper d g ∧ g.length = n + 1 ∧
      ∀ i ≤ n, g.getD i 0 = -1 + 2 * (i : K) / n := by
  have hn' : (0 : K) < n := by exact_mod_cast hn
  set g : List K := (List.range (n + 1)).map fun (i : Nat) => -1 + (1 - -1) * (i : K) / (((n + 1 : Nat) : K) - 1) with hgd
  have hgrid : grid (n : Int) .equidistant roots = .ok g := by
    simp only [grid]
    rw [if_neg (by omega), show ((n : Int) + 1).toNat = n + 1 by omega, linspace, if_neg (by omega)]
  have hget : ∀ i ≤ n, g.getD i 0 = -1 + 2 * (i : K) / n := by
    intro i hi
    rw [hgd, List.getD_eq_getElem _ _ (by simp; omega)]
    simp only [List.getElem_map, List.getElem_range]
    push_cast
    rw [add_sub_cancel_right]
    norm_num
  have hl : g.length = n + 1 := by simp [hgd]
  have hinc : ∀ i < n, g.getD i 0 < g.getD (i + 1) 0 := by
    intro i hi
    rw [hget i (by omega), hget (i + 1) (by omega)]
    push_cast
    have : (2 * (i : K) / n) < 2 * ((i : K) + 1) / n := by
      apply div_lt_div_of_pos_right _ hn'; linarith
    linarith
  obtain ⟨t1, t2, t3⟩ := C72_tiling d hd g n hn hl hinc
  refine ⟨_, g, geometry_eq d hd _ _ roots g hgrid, ⟨t1, fun x hx => t2 x ?_, t3⟩, rfl, hl, hget⟩
  rw [hget 0 (by omega), hget n (by omega)]
  have e0 : -1 + 2 * ((0 : Nat) : K) / n = -1 := by simp
  have e1 : -1 + 2 * (n : K) / n = 1 := by field_simp; norm_num
  rw [e0, e1]; exact hx

/-- **C72** Numbers of cells for which there is no rule throw; a single equidistant grid point has no coordinate, and no
equidistant grid point gives no cells. -/
theorem C72_errors (d : Nat) (hd : 1 ≤ d ∧ d ≤ 3) (num : Int) (roots : List K) :
    (num ≤ 0 → geometry d num .gauss roots = .throw) ∧ (num ≤ 1 → geometry d num .lobatto roots = .throw) ∧
    geometry d num .unknown roots = .throw ∧ geometry d 0 .equidistant roots = .ub ∧
    (num < -1 → geometry d num .equidistant roots = .throw) ∧
    geometry d (-1) .equidistant roots = .ok { points := [], cells := [] } := by
  have key : ∀ s r, (grid num s roots = .throw → geometry d num s roots = .throw) ∧
      (grid r s roots = .ub → geometry d r s roots = .ub) := by
    intro s r
    obtain ⟨d1, d3⟩ := hd
    constructor <;> intro h <;> interval_cases d <;> simp only [geometry, line, quad, brick, h] <;> rfl
  refine ⟨fun h => (key _ 0).1 ?_, fun h => (key _ 0).1 ?_, (key _ 0).1 rfl, (key _ 0).2 ?_, fun h => (key _ 0).1 ?_, ?_⟩
  · simp only [grid, gaussSpaced, Quadrature.gauss, if_pos h]; rfl
  · simp only [grid, lobattoSpaced, Quadrature.lobatto, if_pos h]; rfl
  · simp [grid, linspace]
  · simp only [grid]; rw [if_pos (by omega)]
  · have h : grid (-1) .equidistant roots = .ok [] := by simp [grid, linspace]
    obtain ⟨d1, d3⟩ := hd
    interval_cases d <;> simp only [geometry, line, quad, brick, h] <;> rfl

/-- Two equidistant cells per direction. -/
example : quad (K := ℚ) 2 .equidistant [] = .ok
    ⟨[[-1, -1], [0, -1], [1, -1], [-1, 0], [0, 0], [1, 0], [-1, 1], [0, 1], [1, 1]],
      [[0, 1, 4, 3], [1, 2, 5, 4], [3, 4, 7, 6], [4, 5, 8, 7]]⟩ := by
  decide +kernel

/-- Three Lobatto points: the inner root is zero. -/
example : line (K := ℚ) 3 .lobatto [0] = .ok ⟨[[-1], [-1 / 2], [1 / 2], [1]], [[0, 1], [1, 2], [2, 3]]⟩ := by
  decide +kernel

/-- The hypotheses of the Gauss theorem hold for one point, those of the Lobatto theorem for two and three. -/
example : [(0 : ℝ)].length = 1 ∧ [(0 : ℝ)].Pairwise (· < ·) ∧ ∀ x ∈ [(0 : ℝ)], (LegendrePoly.P ℝ 1).eval x = 0 := by
  refine ⟨rfl, List.pairwise_singleton _ _, fun x hx => ?_⟩
  rw [List.mem_singleton.mp hx, LegendrePoly.P_one']
  simp

end Voronoi

end NuTo
