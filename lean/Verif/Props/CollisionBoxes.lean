import Verif.Model.CollisionBoxes
import Mathlib.Tactic.Linarith
import Mathlib.Tactic.Ring
import Mathlib.Tactic.LinearCombination
import Mathlib.Algebra.Order.BigOperators.Group.Finset
import Mathlib.Tactic.FieldSimp
import Mathlib.Tactic.FinCases
import Mathlib.Tactic.NormNum
import Mathlib.Algebra.Order.Floor.Ring
import Mathlib.Data.List.Nodup
import Mathlib.Data.Rat.Floor

/-!
C79: sub boxes of the collision simulation.
-/

set_option linter.unusedSectionVars false

namespace NuTo.Collision

variable {K : Type} [Field K] [LinearOrder K] [IsStrictOrderedRing K] [FloorRing K]

/-- A proper specimen, divided at least once in every direction -/
structure Grid.Valid (g : Grid K) : Prop where
  divisions : ∀ i, 1 ≤ g.divisions i
  extent : ∀ i, g.lower i < g.upper i

/-- A triple of numbers of a sub box -/
def Grid.Mem (g : Grid K) (c : Fin 3 → ℤ) : Prop := ∀ i, 0 ≤ c i ∧ c i < g.divisions i

/-- The lower end of slab `k` in direction `i`: the specimen is cut into pieces of equal length. -/
def Grid.plane (g : Grid K) (i : Fin 3) (k : ℤ) : K :=
  g.lower i + (k : K) * ((g.upper i - g.lower i) / (g.divisions i : K))

/-! ### Numbers of sub boxes -/

theorem clamp_of_mem {n x : ℤ} (h : 0 ≤ x ∧ x < n) : clampIndex n x = x := by
  unfold clampIndex; omega

theorem getBoxIndex_of_mem {g : Grid K} {c : Fin 3 → ℤ} (hc : g.Mem c) : g.getBoxIndex c = g.linearIndex c := by
  unfold Grid.getBoxIndex
  congr 1
  funext i
  exact clamp_of_mem (hc i)

theorem linearIndex_inj {g : Grid K} {c d : Fin 3 → ℤ} (hc : g.Mem c) (hd : g.Mem d)
    (h : g.linearIndex c = g.linearIndex d) : c = d := by
  unfold Grid.linearIndex at h
  obtain ⟨h20, h21⟩ := hc 2
  obtain ⟨h30, h31⟩ := hd 2
  obtain ⟨h40, h41⟩ := hc 1
  obtain ⟨h50, h51⟩ := hd 1
  have e1 : g.divisions 2 * (g.divisions 1 * c 0 + c 1) + c 2 = g.divisions 2 * (g.divisions 1 * d 0 + d 1) + d 2 := by
    linear_combination h
  have u : ∀ (n a b r s : ℤ), 0 ≤ r → r < n → 0 ≤ s → s < n → n * a + r = n * b + s → a = b ∧ r = s := by
    intro n a b r s hr hrn hs hsn he
    have hn : n ≠ 0 := by omega
    have : a = b := by
      have h1 : (n * a + r) / n = a := by
        rw [Int.add_comm, Int.add_mul_ediv_left _ _ hn, Int.ediv_eq_zero_of_lt hr hrn, zero_add]
      have h2 : (n * b + s) / n = b := by
        rw [Int.add_comm, Int.add_mul_ediv_left _ _ hn, Int.ediv_eq_zero_of_lt hs hsn, zero_add]
      rw [← h1, he, h2]
    subst this
    exact ⟨rfl, by omega⟩
  obtain ⟨e2, e3⟩ := u _ _ _ _ _ h20 h21 h30 h31 e1
  obtain ⟨e4, e5⟩ := u _ _ _ _ _ h40 h41 h50 h51 e2
  funext i
  fin_cases i
  · exact e4
  · exact e5
  · exact e3

theorem linearIndex_range {g : Grid K} {c : Fin 3 → ℤ} (hc : g.Mem c) :
    0 ≤ g.linearIndex c ∧ g.linearIndex c < g.size := by
  unfold Grid.linearIndex Grid.size
  obtain ⟨h00, h01⟩ := hc 0
  obtain ⟨h10, h11⟩ := hc 1
  obtain ⟨h20, h21⟩ := hc 2
  generalize g.divisions 0 = l at *
  generalize g.divisions 1 = m at *
  generalize g.divisions 2 = n at *
  have hn : 0 < n := by omega
  have hm : 0 < m := by omega
  have h1 : 0 ≤ m * n * c 0 := by positivity
  have h2 : 0 ≤ n * c 1 := by positivity
  have h3 : n * c 1 + n ≤ m * n := by nlinarith
  have h4 : m * n * c 0 + m * n ≤ l * m * n := by
    have : (m * n) * (c 0 + 1) ≤ (m * n) * l := mul_le_mul_of_nonneg_left (by omega) (by positivity)
    nlinarith
  constructor <;> omega

theorem getBoxIndex_inj {g : Grid K} {c d : Fin 3 → ℤ} (hc : g.Mem c) (hd : g.Mem d)
    (h : g.getBoxIndex c = g.getBoxIndex d) : c = d := by
  rw [getBoxIndex_of_mem hc, getBoxIndex_of_mem hd] at h
  exact linearIndex_inj hc hd h

/-- Clamped numbers are numbers of a sub box. -/
def Grid.clamp (g : Grid K) (c : Fin 3 → ℤ) : Fin 3 → ℤ := fun i => clampIndex (g.divisions i) (c i)

theorem clamp_mem {g : Grid K} (hg : g.Valid) (c : Fin 3 → ℤ) : g.Mem (g.clamp c) := by
  intro i
  have := hg.divisions i
  unfold Grid.clamp clampIndex
  omega

theorem getBoxIndex_clamp {g : Grid K} (hg : g.Valid) (c : Fin 3 → ℤ) :
    g.getBoxIndex c = g.getBoxIndex (g.clamp c) := by
  rw [getBoxIndex_of_mem (clamp_mem hg c)]; rfl

theorem mem_intSpan {lo hi x : ℤ} : x ∈ intSpan lo hi ↔ lo ≤ x ∧ x ≤ hi := by
  unfold intSpan
  simp only [List.mem_map, List.mem_range]
  constructor
  · rintro ⟨k, hk, rfl⟩; omega
  · intro h
    exact ⟨(x - lo).toNat, by omega, by omega⟩

theorem nodup_intSpan (lo hi : ℤ) : (intSpan lo hi).Nodup := by
  unfold intSpan
  refine List.Nodup.map ?_ List.nodup_range
  intro a b h
  simp only at h
  omega

theorem mem_cellSpan {lo hi c : Fin 3 → ℤ} : c ∈ cellSpan lo hi ↔ ∀ i, lo i ≤ c i ∧ c i ≤ hi i := by
  unfold cellSpan
  simp only [List.mem_flatMap, List.mem_map, mem_intSpan]
  constructor
  · rintro ⟨x, hx, y, hy, z, hz, rfl⟩ i
    fin_cases i
    · exact hx
    · exact hy
    · exact hz
  · intro h
    refine ⟨c 0, h 0, c 1, h 1, c 2, h 2, ?_⟩
    funext i
    fin_cases i <;> rfl

theorem nodup_cellSpan (lo hi : Fin 3 → ℤ) : (cellSpan lo hi).Nodup := by
  unfold cellSpan
  rw [List.nodup_flatMap]
  refine ⟨fun x _ => ?_, ?_⟩
  · rw [List.nodup_flatMap]
    refine ⟨fun y _ => ?_, ?_⟩
    · refine List.Nodup.map ?_ (nodup_intSpan _ _)
      intro a b h
      exact congrFun h 2
    · refine (nodup_intSpan _ _).imp ?_
      intro a b hab c hc1 hc2
      simp only [List.mem_map] at hc1 hc2
      obtain ⟨z, -, rfl⟩ := hc1
      obtain ⟨z', -, h⟩ := hc2
      exact hab (congrFun h 1).symm
  · refine (nodup_intSpan _ _).imp ?_
    intro a b hab c hc1 hc2
    simp only [List.mem_flatMap, List.mem_map] at hc1 hc2
    obtain ⟨y, -, z, -, rfl⟩ := hc1
    obtain ⟨y', -, z', -, h⟩ := hc2
    exact hab (congrFun h 0).symm

/-! ### The walls -/

theorem foldl_update {α : Type} (f : (Fin 3 → ℤ) → ℤ) (v : (Fin 3 → ℤ) → α) (l : List (Fin 3 → ℤ)) (b : ℤ → α)
    (c : Fin 3 → ℤ) (hinj : ∀ d ∈ l, f d = f c → d = c) :
    (c ∈ l → l.foldl (fun b c => Function.update b (f c) (v c)) b (f c) = v c) ∧
    (c ∉ l → l.foldl (fun b c => Function.update b (f c) (v c)) b (f c) = b (f c)) := by
  induction l generalizing b with
  | nil => simp
  | cons d l ih =>
    have ih' := ih (Function.update b (f d) (v d)) fun e he => hinj e (List.mem_cons_of_mem _ he)
    rw [List.foldl_cons]
    by_cases hl : c ∈ l
    · exact ⟨fun _ => ih'.1 hl, fun h => absurd (List.mem_cons_of_mem _ hl) h⟩
    · by_cases hd : d = c
      · subst hd
        refine ⟨fun _ => ?_, fun h => absurd List.mem_cons_self h⟩
        rw [ih'.2 hl, Function.update_self]
      · refine ⟨fun h => absurd h ?_, fun _ => ?_⟩
        · simp only [List.mem_cons, not_or]
          exact ⟨Ne.symm hd, hl⟩
        · rw [ih'.2 hl, Function.update_of_ne]
          intro he
          exact hd (hinj d List.mem_cons_self he.symm)

theorem buildSubBoxes_eq {g : Grid K} {c : Fin 3 → ℤ} (hc : g.Mem c) :
    g.buildSubBoxes (g.getBoxIndex c) = wallRows.map (g.wall c) := by
  refine (foldl_update g.getBoxIndex (fun c => wallRows.map (g.wall c)) _ _ c ?_).1 ?_
  · intro d hd h
    rw [mem_cellSpan] at hd
    exact getBoxIndex_inj (fun i => ⟨(hd i).1, by have := (hd i).2; omega⟩) hc h
  · rw [mem_cellSpan]
    intro i
    exact ⟨(hc i).1, by have := (hc i).2; omega⟩

/-- The wall of box `c` in direction `a`, at its lower (`up = false`) or upper end -/
def Grid.face (g : Grid K) (c : Fin 3 → ℤ) (a : Fin 3) (up : Bool) : BoxWall K :=
  g.wall c (fun i => if i = a then (if up then 1 else -1) else 0,
    fun i => if i = a then (if up then 1 else 0) else 1 / 2)

theorem mem_walls {g : Grid K} {c : Fin 3 → ℤ} (hc : g.Mem c) (w : BoxWall K) :
    w ∈ g.buildSubBoxes (g.getBoxIndex c) ↔ ∃ a up, w = g.face c a up := by
  rw [buildSubBoxes_eq hc]
  have e : ∀ (a : Fin 3) (up : Bool), g.face c a up ∈ (wallRows.map (g.wall c)) ∧ True := by
    intro a up
    refine ⟨?_, trivial⟩
    refine List.mem_map.2 ⟨_, ?_, rfl⟩
    have hv : ∀ (f : Fin 3 → ℤ), f = ![f 0, f 1, f 2] := fun f => by funext i; fin_cases i <;> rfl
    have hk : ∀ (f : Fin 3 → K), f = ![f 0, f 1, f 2] := fun f => by funext i; fin_cases i <;> rfl
    rw [hv (fun i => if i = a then _ else _), hk (fun i => if i = a then _ else _)]
    fin_cases a <;> cases up <;> simp [wallRows]
  constructor
  · intro h
    obtain ⟨r, hr, rfl⟩ := List.mem_map.1 h
    have hv : ∀ (f : Fin 3 → ℤ), f = ![f 0, f 1, f 2] := fun f => by funext i; fin_cases i <;> rfl
    have hk : ∀ (f : Fin 3 → K), f = ![f 0, f 1, f 2] := fun f => by funext i; fin_cases i <;> rfl
    have key : ∃ (a : Fin 3) (up : Bool), r = (fun i => if i = a then (if up then 1 else -1) else 0,
        fun i => if i = a then (if up then 1 else 0) else 1 / 2) := by
      simp only [wallRows, List.mem_cons, List.not_mem_nil, or_false] at hr
      rcases hr with rfl | rfl | rfl | rfl | rfl | rfl
      · exact ⟨0, false, by rw [Prod.mk.injEq]; constructor <;> funext i <;> fin_cases i <;> simp⟩
      · exact ⟨0, true, by rw [Prod.mk.injEq]; constructor <;> funext i <;> fin_cases i <;> simp⟩
      · exact ⟨1, false, by rw [Prod.mk.injEq]; constructor <;> funext i <;> fin_cases i <;> simp⟩
      · exact ⟨1, true, by rw [Prod.mk.injEq]; constructor <;> funext i <;> fin_cases i <;> simp⟩
      · exact ⟨2, false, by rw [Prod.mk.injEq]; constructor <;> funext i <;> fin_cases i <;> simp⟩
      · exact ⟨2, true, by rw [Prod.mk.injEq]; constructor <;> funext i <;> fin_cases i <;> simp⟩
    obtain ⟨a, up, rfl⟩ := key
    exact ⟨a, up, rfl⟩
  · rintro ⟨a, up, rfl⟩
    exact (e a up).1

theorem face_position (g : Grid K) (c : Fin 3 → ℤ) (a : Fin 3) (up : Bool) :
    (g.face c a up).position a = g.plane a (if up then c a + 1 else c a) := by
  simp only [Grid.face, Grid.wall, if_true, Grid.plane, Grid.subLength]
  cases up
  · simp; ring
  · simp; ring

theorem face_direction (g : Grid K) (c : Fin 3 → ℤ) (a : Fin 3) (up : Bool) (i : Fin 3) :
    (g.face c a up).direction i = if i = a then (if up then -1 else 1) else 0 := by
  simp only [Grid.face, Grid.wall]
  split_ifs <;> simp

theorem subLength_pos {g : Grid K} (hg : g.Valid) (i : Fin 3) : 0 < (g.upper i - g.lower i) / (g.divisions i : K) := by
  have h1 := hg.extent i
  have h2 : (0 : K) < (g.divisions i : K) := by
    have := hg.divisions i
    exact_mod_cast (by omega : 0 < g.divisions i)
  exact div_pos (by linarith) h2

theorem plane_zero (g : Grid K) (i : Fin 3) : g.plane i 0 = g.lower i := by simp [Grid.plane]

theorem plane_last {g : Grid K} (hg : g.Valid) (i : Fin 3) : g.plane i (g.divisions i) = g.upper i := by
  have h2 : (0 : K) < (g.divisions i : K) := by
    have := hg.divisions i
    exact_mod_cast (by omega : 0 < g.divisions i)
  have : (g.divisions i : K) ≠ 0 := h2.ne'
  unfold Grid.plane
  field_simp
  ring

theorem plane_lt {g : Grid K} (hg : g.Valid) (i : Fin 3) {k l : ℤ} : g.plane i k < g.plane i l ↔ k < l := by
  unfold Grid.plane
  rw [add_lt_add_iff_left, mul_lt_mul_iff_left₀ (subLength_pos hg i), Int.cast_lt]

theorem plane_le {g : Grid K} (hg : g.Valid) (i : Fin 3) {k l : ℤ} : g.plane i k ≤ g.plane i l ↔ k ≤ l := by
  rw [← not_lt, plane_lt hg, not_lt]

theorem plane_inj {g : Grid K} (hg : g.Valid) (i : Fin 3) {k l : ℤ} (h : g.plane i k = g.plane i l) : k = l :=
  le_antisymm ((plane_le hg i).1 h.le) ((plane_le hg i).1 h.ge)

/-- The numbers of the neighbour across a wall -/
def neighbour (c : Fin 3 → ℤ) (a : Fin 3) (up : Bool) : Fin 3 → ℤ :=
  fun i => c i + if i = a then (if up then 1 else -1) else 0

theorem face_outside (g : Grid K) (c : Fin 3 → ℤ) (a : Fin 3) (up : Bool) :
    (g.face c a up).outside = g.getBoxIndex (neighbour c a up) := rfl

theorem face_inside (g : Grid K) (c : Fin 3 → ℤ) (a : Fin 3) (up : Bool) :
    (g.face c a up).inside = g.getBoxIndex c := rfl

theorem neighbour_mem {g : Grid K} {c : Fin 3 → ℤ} (hc : g.Mem c) (a : Fin 3) (up : Bool) :
    g.Mem (neighbour c a up) ↔ (if up then c a + 1 < g.divisions a else 0 < c a) := by
  have ha := hc a
  constructor
  · intro h
    have := h a
    simp only [neighbour, if_true] at this
    cases up <;> simp at this ⊢ <;> omega
  · intro h i
    have hi := hc i
    simp only [neighbour]
    by_cases e : i = a
    · subst e
      cases up <;> simp at h ⊢ <;> omega
    · simp only [e, if_false, add_zero]; exact hi

theorem face_physical {g : Grid K} (hg : g.Valid) {c : Fin 3 → ℤ} (hc : g.Mem c) (a : Fin 3) (up : Bool) :
    (g.face c a up).physical = true ↔ ¬ g.Mem (neighbour c a up) := by
  have hdef : ((g.face c a up).physical = true) ↔ g.getBoxIndex c = g.getBoxIndex (neighbour c a up) := by
    change decide (_ = _) = true ↔ _
    rw [decide_eq_true_eq]
    rfl
  rw [hdef]
  constructor
  · intro h hm
    have := congrFun (getBoxIndex_inj hc hm h) a
    simp only [neighbour, if_true] at this
    cases up <;> simp at this
  · intro h
    rw [getBoxIndex_clamp hg (neighbour c a up)]
    congr 1
    funext i
    rw [neighbour_mem hc] at h
    have ha := hc i
    by_cases e : i = a
    · subst e
      cases up <;> simp [Grid.clamp, neighbour, clampIndex] at h ⊢ <;> omega
    · simp only [Grid.clamp, neighbour, e, if_false, add_zero, clampIndex]; omega

/-- The walls of a sub box enclose exactly its part of the specimen. -/
theorem C79_walls_enclose (g : Grid K) (c : Fin 3 → ℤ) (hc : g.Mem c) (x : Fin 3 → K) :
    (∀ w ∈ g.buildSubBoxes (g.getBoxIndex c), 0 ≤ ∑ i, (w.direction i : K) * (x i - w.position i)) ↔
      ∀ i, g.plane i (c i) ≤ x i ∧ x i ≤ g.plane i (c i + 1) := by
  have hsum : ∀ a up, ∑ i, ((g.face c a up).direction i : K) * (x i - (g.face c a up).position i) =
      (if up then -1 else 1) * (x a - g.plane a (if up then c a + 1 else c a)) := by
    intro a up
    rw [Finset.sum_eq_single a, face_direction, if_pos rfl, face_position]
    · cases up <;> simp
    · intro i _ hi
      rw [face_direction, if_neg hi]; simp
    · intro h; exact absurd (Finset.mem_univ a) h
  constructor
  · intro h i
    have h1 := h _ ((mem_walls hc _).2 ⟨i, false, rfl⟩)
    have h2 := h _ ((mem_walls hc _).2 ⟨i, true, rfl⟩)
    rw [hsum] at h1 h2
    simp at h1 h2
    exact ⟨h1, h2⟩
  · intro h w hw
    obtain ⟨a, up, rfl⟩ := (mem_walls hc w).1 hw
    rw [hsum]
    have := h a
    cases up <;> simp <;> linarith

/-- A wall can be passed unless it lies on the surface of the specimen. -/
theorem C79_physical (g : Grid K) (hg : g.Valid) (c : Fin 3 → ℤ) (hc : g.Mem c) (w : BoxWall K)
    (hw : w ∈ g.buildSubBoxes (g.getBoxIndex c)) :
    w.physical = true ↔ ∃ i, (w.direction i = 1 ∧ w.position i = g.lower i) ∨
      (w.direction i = -1 ∧ w.position i = g.upper i) := by
  obtain ⟨a, up, rfl⟩ := (mem_walls hc w).1 hw
  rw [face_physical hg hc, neighbour_mem hc]
  have hca := hc a
  constructor
  · intro h
    refine ⟨a, ?_⟩
    rw [face_direction, if_pos rfl, face_position]
    cases up
    · left
      have : c a = 0 := by simp at h; omega
      simp [this, plane_zero]
    · right
      have : c a + 1 = g.divisions a := by simp at h; omega
      simp only [if_true, true_and]
      rw [this, plane_last hg]
  · rintro ⟨i, h⟩
    rw [face_direction] at h
    by_cases e : i = a
    · subst e
      rw [if_pos rfl, face_position] at h
      cases up
      · simp at h ⊢
        rw [← plane_zero] at h
        have := plane_inj hg i h; omega
      · simp at h ⊢
        rw [← plane_last hg] at h
        have := plane_inj hg i h; omega
    · rw [if_neg e] at h
      simp at h

/-- A wall inside the specimen leads to the neighbour, which has the same wall with opposite direction. -/
theorem C79_neighbours (g : Grid K) (hg : g.Valid) (c : Fin 3 → ℤ) (hc : g.Mem c) (w : BoxWall K)
    (hw : w ∈ g.buildSubBoxes (g.getBoxIndex c)) (hv : w.physical = false) :
    w.inside = g.getBoxIndex c ∧ ∃ d, g.Mem d ∧ d ≠ c ∧ w.outside = g.getBoxIndex d ∧
      ∃ w' ∈ g.buildSubBoxes (g.getBoxIndex d), w'.physical = false ∧ w'.position = w.position ∧
        (∀ i, w'.direction i = -w.direction i) ∧ w'.outside = g.getBoxIndex c := by
  obtain ⟨a, up, rfl⟩ := (mem_walls hc w).1 hw
  have hm : g.Mem (neighbour c a up) := by
    by_contra h
    rw [(face_physical hg hc a up).2 h] at hv
    exact Bool.noConfusion hv
  have hback : neighbour (neighbour c a up) a (!up) = c := by
    funext i
    simp only [neighbour]
    by_cases e : i = a
    · cases up <;> simp [e]
    · simp [e]
  refine ⟨rfl, neighbour c a up, hm, ?_, rfl, g.face (neighbour c a up) a (!up), (mem_walls hm _).2 ⟨_, _, rfl⟩,
    ?_, ?_, ?_, ?_⟩
  · intro h
    have := congrFun h a
    simp only [neighbour, if_true] at this
    cases up <;> simp at this
  · rw [← Bool.not_eq_true, face_physical hg hm, hback]
    exact not_not.2 hc
  · funext i
    simp only [Grid.face, Grid.wall, neighbour]
    by_cases e : i = a
    · cases up
      · simp [e]
      · simp [e, add_comm]
    · simp [e]
  · intro i
    rw [face_direction, face_direction]
    by_cases e : i = a
    · cases up <;> simp [e]
    · simp [e]
  · rw [face_outside, hback]

/-- Different sub boxes are different elements of the vector, all of them inside it. -/
theorem C79_numbers (g : Grid K) (c d : Fin 3 → ℤ) (hc : g.Mem c) (hd : g.Mem d) :
    0 ≤ g.getBoxIndex c ∧ g.getBoxIndex c < g.size ∧ (g.getBoxIndex c = g.getBoxIndex d → c = d) := by
  have := linearIndex_range hc
  rw [← getBoxIndex_of_mem hc] at this
  exact ⟨this.1, this.2, getBoxIndex_inj hc hd⟩

/-! ### Registration of the particles -/

/-- A particle lies inside the specimen, without touching its upper sides. -/
def Grid.Holds (g : Grid K) (p : Ball K) : Prop :=
  0 ≤ p.radius ∧ ∀ i, g.lower i ≤ p.position i - p.radius ∧ p.position i + p.radius < g.upper i

/-- The cube around a particle and sub box `c` (without its upper sides) have a point in common. -/
def Grid.Meets (g : Grid K) (p : Ball K) (c : Fin 3 → ℤ) : Prop :=
  ∃ x : Fin 3 → K, ∀ i, |x i - p.position i| ≤ p.radius ∧ g.plane i (c i) ≤ x i ∧ x i < g.plane i (c i + 1)

theorem le_floor_plane {g : Grid K} (hg : g.Valid) (i : Fin 3) (k : ℤ) (x : K) :
    k ≤ ⌊(x - g.lower i) / g.subLength i⌋ ↔ g.plane i k ≤ x := by
  have := subLength_pos hg i
  rw [Int.le_floor, Grid.subLength, le_div_iff₀ this, Grid.plane, le_sub_iff_add_le, add_comm]

theorem floor_plane_le {g : Grid K} (hg : g.Valid) (i : Fin 3) (k : ℤ) (x : K) :
    ⌊(x - g.lower i) / g.subLength i⌋ ≤ k ↔ x < g.plane i (k + 1) := by
  rw [← Int.lt_add_one_iff, ← not_le, le_floor_plane hg, not_le]

theorem first_eq {g : Grid K} (hg : g.Valid) {p : Ball K} (hp : g.Holds p) (i : Fin 3) :
    g.first p i = ⌊(p.position i - p.radius - g.lower i) / g.subLength i⌋ := by
  have hr := hp.1
  have hl : 0 < g.subLength i := subLength_pos hg i
  have hmono : ⌊(p.position i - p.radius - g.lower i) / g.subLength i⌋ ≤
      ⌊(p.position i + p.radius - g.lower i) / g.subLength i⌋ :=
    Int.floor_le_floor ((div_le_div_iff_of_pos_right hl).2 (by linarith))
  have hlt : ⌊(p.position i - p.radius - g.lower i) / g.subLength i⌋ ≤ g.divisions i := by
    rw [floor_plane_le hg]
    have h1 := (hp.2 i).2
    have h2 : g.plane i (g.divisions i) < g.plane i (g.divisions i + 1) := (plane_lt hg i).2 (by omega)
    rw [plane_last hg] at h2
    linarith
  have e : ∀ s : ℤ, p.position i + (s : K) * p.radius = p.position i + (s : K) * p.radius := fun _ => rfl
  unfold Grid.first Grid.cornerIndex
  have e1 : p.position i + -1 * p.radius = p.position i - p.radius := by ring
  have e2 : p.position i + 1 * p.radius = p.position i + p.radius := by ring
  fin_cases i <;>
    simp only [Ball.corners, List.flatMap_cons, List.flatMap_nil, List.map_cons, List.map_nil, List.append_nil,
      List.cons_append, List.nil_append, List.foldl_cons, List.foldl_nil, Matrix.cons_val_zero, Matrix.cons_val_one,
      Matrix.cons_val, Int.cast_neg, Int.cast_one, Fin.zero_eta, Fin.mk_one, Fin.reduceFinMk] at e1 e2 hmono hlt ⊢ <;>
    rw [e1, e2] <;> omega

theorem last_eq {g : Grid K} (hg : g.Valid) {p : Ball K} (hp : g.Holds p) (i : Fin 3) :
    g.last p i = ⌊(p.position i + p.radius - g.lower i) / g.subLength i⌋ := by
  have hr := hp.1
  have hl : 0 < g.subLength i := subLength_pos hg i
  have hmono : ⌊(p.position i - p.radius - g.lower i) / g.subLength i⌋ ≤
      ⌊(p.position i + p.radius - g.lower i) / g.subLength i⌋ :=
    Int.floor_le_floor ((div_le_div_iff_of_pos_right hl).2 (by linarith))
  have hlt : 0 ≤ ⌊(p.position i - p.radius - g.lower i) / g.subLength i⌋ := by
    rw [le_floor_plane hg, plane_zero]
    exact (hp.2 i).1
  unfold Grid.last Grid.cornerIndex
  have e1 : p.position i + -1 * p.radius = p.position i - p.radius := by ring
  have e2 : p.position i + 1 * p.radius = p.position i + p.radius := by ring
  fin_cases i <;>
    simp only [Ball.corners, List.flatMap_cons, List.flatMap_nil, List.map_cons, List.map_nil, List.append_nil,
      List.cons_append, List.nil_append, List.foldl_cons, List.foldl_nil, Matrix.cons_val_zero, Matrix.cons_val_one,
      Matrix.cons_val, Int.cast_neg, Int.cast_one, Fin.zero_eta, Fin.mk_one, Fin.reduceFinMk] at e1 e2 hmono hlt ⊢ <;>
    rw [e1, e2] <;> omega

theorem mem_cells {g : Grid K} (hg : g.Valid) {p : Ball K} (hp : g.Holds p) (c : Fin 3 → ℤ) :
    c ∈ cellSpan (g.first p) (g.last p) ↔ g.Meets p c := by
  rw [mem_cellSpan]
  have hr := hp.1
  constructor
  · intro h
    refine ⟨fun i => max (g.plane i (c i)) (p.position i - p.radius), fun i => ?_⟩
    have hi := h i
    rw [first_eq hg hp, last_eq hg hp, floor_plane_le hg, le_floor_plane hg] at hi
    refine ⟨?_, le_max_left _ _, max_lt ((plane_lt hg i).2 (by omega)) hi.1⟩
    rw [abs_le]
    constructor
    · have := le_max_right (g.plane i (c i)) (p.position i - p.radius); linarith
    · have : max (g.plane i (c i)) (p.position i - p.radius) ≤ p.position i + p.radius := max_le hi.2 (by linarith)
      linarith
  · rintro ⟨x, hx⟩ i
    obtain ⟨h1, h2, h3⟩ := hx i
    rw [abs_le] at h1
    rw [first_eq hg hp, last_eq hg hp, floor_plane_le hg, le_floor_plane hg]
    constructor <;> linarith

theorem meets_mem {g : Grid K} (hg : g.Valid) {p : Ball K} (hp : g.Holds p) {c : Fin 3 → ℤ} (h : g.Meets p c) :
    g.Mem c := by
  obtain ⟨x, hx⟩ := h
  intro i
  obtain ⟨h1, h2, h3⟩ := hx i
  rw [abs_le] at h1
  have h4 := hp.2 i
  constructor
  · have : g.plane i 0 < g.plane i (c i + 1) := by rw [plane_zero]; linarith
    have := (plane_lt hg i).1 this
    omega
  · rw [← plane_lt hg i, plane_last hg]; linarith

theorem add_all (g : Grid K) (k : ℕ) (l : List (Fin 3 → ℤ)) (hl : l.Nodup) (hm : ∀ c ∈ l, g.Mem c)
    (R : Registration) (hR : ∀ c ∈ l, k ∉ R.spheres (g.linearIndex c)) :
    ∃ R', Res.foldlM (g.addToBox k) R l = .ok R' ∧
      (∀ b, R'.spheres b = R.spheres b ++ if b ∈ l.map g.linearIndex then [k] else []) ∧
      R'.boxes k = R.boxes k ++ l.map g.linearIndex ∧ ∀ j, j ≠ k → R'.boxes j = R.boxes j := by
  induction l generalizing R with
  | nil => exact ⟨R, rfl, by simp, by simp, by simp⟩
  | cons c l ih =>
    obtain ⟨hcl, hl⟩ := List.nodup_cons.1 hl
    have hr := linearIndex_range (hm c List.mem_cons_self)
    have hstep : g.addToBox k R c = .ok (R.add (g.linearIndex c) k) := by
      unfold Grid.addToBox
      rw [if_neg, if_neg (by omega), if_neg]
      · intro h
        exact hR c List.mem_cons_self (List.mem_of_getLast? h)
      · rw [abs_of_nonneg hr.1]; omega
    obtain ⟨R', h1, h2, h3, h4⟩ := ih hl (fun d hd => hm d (List.mem_cons_of_mem _ hd)) (R.add (g.linearIndex c) k) (by
      intro d hd
      have hne : g.linearIndex d ≠ g.linearIndex c := by
        intro he
        have := linearIndex_inj (hm d (List.mem_cons_of_mem _ hd)) (hm c List.mem_cons_self) he
        subst this
        exact hcl hd
      simp only [Registration.add]
      rw [Function.update_of_ne hne]
      exact hR d (List.mem_cons_of_mem _ hd))
    refine ⟨R', ?_, ?_, ?_, ?_⟩
    · rw [Res.foldlM_cons, hstep]; exact h1
    · intro b
      rw [h2 b]
      by_cases hb : b = g.linearIndex c
      · subst hb
        have hn : g.linearIndex c ∉ l.map g.linearIndex := by
          intro h
          obtain ⟨d, hd, he⟩ := List.mem_map.1 h
          have := linearIndex_inj (hm d (List.mem_cons_of_mem _ hd)) (hm c List.mem_cons_self) he
          subst this
          exact hcl hd
        rw [if_neg hn]
        simp [Registration.add]
      · simp only [Registration.add]
        rw [Function.update_of_ne hb]
        simp [hb]
    · rw [h3]
      simp [Registration.add]
    · intro j hj
      rw [h4 j hj]
      simp only [Registration.add]
      rw [Function.update_of_ne hj]

theorem spheres_all {g : Grid K} (hg : g.Valid) (ps : List (Ball K)) (hp : ∀ p ∈ ps, g.Holds p) (n : ℕ)
    (R : Registration) (hRs : ∀ b, ∀ k ∈ R.spheres b, k < n) :
    ∃ R', Res.foldlM g.addSphereToBoxes R (ps.zipIdx n) = .ok R' ∧
      (∀ b, R'.spheres b = R.spheres b ++
        ((ps.zipIdx n).filter fun x => decide (b ∈ (cellSpan (g.first x.1) (g.last x.1)).map g.linearIndex)).map Prod.snd) ∧
      (∀ j, j < n → R'.boxes j = R.boxes j) ∧
      (∀ j, (h : j < ps.length) → R'.boxes (n + j) = R.boxes (n + j) ++
        (cellSpan (g.first ps[j]) (g.last ps[j])).map g.linearIndex) ∧
      (∀ j, n + ps.length ≤ j → R'.boxes j = R.boxes j) := by
  induction ps generalizing n R with
  | nil => exact ⟨R, rfl, by simp, by simp, by simp, by simp⟩
  | cons p ps ih =>
    have hcells := mem_cells hg (hp p List.mem_cons_self)
    obtain ⟨R1, a1, a2, a3, a4⟩ := add_all g n (cellSpan (g.first p) (g.last p)) (nodup_cellSpan _ _)
      (fun c hc => meets_mem hg (hp p List.mem_cons_self) ((hcells c).1 hc)) R
      (fun c _ h => absurd (hRs _ _ h) (lt_irrefl n))
    obtain ⟨R', b1, b2, b3, b4, b5⟩ := ih (fun q hq => hp q (List.mem_cons_of_mem _ hq)) (n + 1) R1 (by
      intro b k hk
      rw [a2] at hk
      rcases List.mem_append.1 hk with h | h
      · have := hRs b k h; omega
      · split_ifs at h with hb
        · simp at h; omega
        · simp at h)
    refine ⟨R', ?_, ?_, ?_, ?_, ?_⟩
    · rw [List.zipIdx_cons, Res.foldlM_cons]
      have : g.addSphereToBoxes R (p, n) = .ok R1 := a1
      rw [this]
      exact b1
    · intro b
      rw [b2, a2, List.zipIdx_cons, List.filter_cons]
      by_cases hb : b ∈ (cellSpan (g.first p) (g.last p)).map g.linearIndex
      · simp only [hb, if_true, decide_true, List.map_cons]
        simp
      · simp only [hb, if_false, decide_false, Bool.false_eq_true, List.append_nil]
    · intro j hj
      rw [b3 j (by omega), a4 j (by omega)]
    · intro j hj
      rcases j with _ | j
      · rw [add_zero, b3 n (by omega), a3]; rfl
      · have := b4 j (by simpa using hj)
        rw [show n + (j + 1) = n + 1 + j by ring, this, a4 _ (by omega)]
        rfl
    · intro j hj
      rw [List.length_cons] at hj
      rw [b5 j (by omega), a4 _ (by omega)]

theorem registration_eq {g : Grid K} (hg : g.Valid) (ps : List (Ball K)) (hp : ∀ p ∈ ps, g.Holds p) :
    ∃ R, g.addSpheresToBoxes ps = .ok R ∧
      (∀ b, R.spheres b = ((ps.zipIdx).filter fun x =>
        decide (b ∈ (cellSpan (g.first x.1) (g.last x.1)).map g.linearIndex)).map Prod.snd) ∧
      (∀ j, (h : j < ps.length) → R.boxes j = (cellSpan (g.first ps[j]) (g.last ps[j])).map g.linearIndex) ∧
      (∀ j, ps.length ≤ j → R.boxes j = []) := by
  obtain ⟨R, h1, h2, -, h4, h5⟩ := spheres_all hg ps hp 0 Registration.empty (by simp [Registration.empty])
  refine ⟨R, h1, ?_, ?_, ?_⟩
  · intro b
    rw [h2 b]
    simp [Registration.empty]
  · intro j hj
    have := h4 j hj
    rw [zero_add] at this
    rw [this]
    simp [Registration.empty]
  · intro j hj
    rw [h5 j (by omega)]
    rfl

/-- Particles inside the specimen: every particle is registered, once, in exactly the sub boxes its cube meets; the
lists of the particles and those of the sub boxes agree. -/
theorem C79_register_partial (g : Grid K) (hg : g.Valid) (ps : List (Ball K)) (hp : ∀ p ∈ ps, g.Holds p) :
    ∃ R, g.addSpheresToBoxes ps = .ok R ∧
      (∀ k, (hk : k < ps.length) → ∀ c, g.Mem c → (k ∈ R.spheres (g.getBoxIndex c) ↔ g.Meets ps[k] c)) ∧
      (∀ k, (hk : k < ps.length) → ∀ b, b ∈ R.boxes k ↔ ∃ c, g.Mem c ∧ b = g.getBoxIndex c ∧ g.Meets ps[k] c) ∧
      (∀ k b, k ∈ R.spheres b ↔ b ∈ R.boxes k) ∧
      (∀ k, (R.boxes k).Nodup) ∧ (∀ b, (R.spheres b).Nodup) := by
  obtain ⟨R, h1, h2, h3, h4⟩ := registration_eq hg ps hp
  have hbox : ∀ k, (hk : k < ps.length) → ∀ b, b ∈ R.boxes k ↔
      ∃ c, g.Mem c ∧ b = g.getBoxIndex c ∧ g.Meets ps[k] c := by
    intro k hk b
    have hpk := hp ps[k] (List.getElem_mem hk)
    rw [h3 k hk, List.mem_map]
    constructor
    · rintro ⟨c, hc, rfl⟩
      have := (mem_cells hg hpk c).1 hc
      have hm := meets_mem hg hpk this
      exact ⟨c, hm, (getBoxIndex_of_mem hm).symm, this⟩
    · rintro ⟨c, hm, rfl, hc⟩
      exact ⟨c, (mem_cells hg hpk c).2 hc, (getBoxIndex_of_mem hm).symm⟩
  have hagree : ∀ k b, k ∈ R.spheres b ↔ b ∈ R.boxes k := by
    intro k b
    rw [h2 b]
    simp only [List.mem_map, List.mem_filter, decide_eq_true_eq, Prod.exists, exists_eq_right]
    rcases lt_or_ge k ps.length with hk | hk
    · rw [h3 k hk, List.mem_map]
      constructor
      · rintro ⟨p, hx, c, hc⟩
        obtain ⟨hx1, hx2⟩ := List.mem_zipIdx' hx
        rw [hx2] at hc
        exact ⟨c, hc⟩
      · rintro ⟨c, hc⟩
        refine ⟨ps[k], ?_, c, hc⟩
        rw [List.mk_mem_zipIdx_iff_getElem?]
        exact List.getElem?_eq_getElem hk
    · rw [h4 k hk]
      simp only [List.not_mem_nil, iff_false, not_exists, not_and]
      intro p hx
      obtain ⟨hx1, -⟩ := List.mem_zipIdx' hx
      exact absurd hx1 (not_lt.2 hk)
  refine ⟨R, h1, ?_, hbox, hagree, ?_, ?_⟩
  · intro k hk c hc
    rw [hagree, hbox k hk]
    constructor
    · rintro ⟨d, hd, he, hm⟩
      rwa [getBoxIndex_inj hc hd he]
    · intro h
      exact ⟨c, hc, rfl, h⟩
  · intro k
    rcases lt_or_ge k ps.length with hk | hk
    · rw [h3 k hk]
      refine List.Nodup.map_on ?_ (nodup_cellSpan _ _)
      have hpk := hp ps[k] (List.getElem_mem hk)
      intro c hc d hd he
      exact linearIndex_inj (meets_mem hg hpk ((mem_cells hg hpk c).1 hc))
        (meets_mem hg hpk ((mem_cells hg hpk d).1 hd)) he
    · rw [h4 k hk]; exact List.nodup_nil
  · intro b
    rw [h2 b]
    refine List.Nodup.sublist (List.Sublist.map _ List.filter_sublist) ?_
    rw [List.zipIdx_map_snd]
    exact List.nodup_range'

/-- Particles with a common point share a sub box, so their collision will be looked for. -/
theorem C79_common_partial (g : Grid K) (hg : g.Valid) (ps : List (Ball K)) (hp : ∀ p ∈ ps, g.Holds p)
    (k l : ℕ) (hk : k < ps.length) (hl : l < ps.length) (x : Fin 3 → K)
    (hxk : ∑ i, (x i - ps[k].position i) ^ 2 ≤ ps[k].radius ^ 2)
    (hxl : ∑ i, (x i - ps[l].position i) ^ 2 ≤ ps[l].radius ^ 2) :
    ∃ R, g.addSpheresToBoxes ps = .ok R ∧ ∃ b, k ∈ R.spheres b ∧ l ∈ R.spheres b := by
  obtain ⟨R, h1, h2, -⟩ := C79_register_partial g hg ps hp
  have hin : ∀ p ∈ ps, ∑ i, (x i - p.position i) ^ 2 ≤ p.radius ^ 2 → ∀ i, |x i - p.position i| ≤ p.radius := by
    intro p hpp hx i
    refine abs_le_of_sq_le_sq ?_ (hp p hpp).1
    exact (Finset.single_le_sum (fun j _ => sq_nonneg (x j - p.position j)) (Finset.mem_univ i)).trans hx
  have hcell : ∀ p ∈ ps, ∑ i, (x i - p.position i) ^ 2 ≤ p.radius ^ 2 →
      g.Meets p fun i => ⌊(x i - g.lower i) / g.subLength i⌋ := by
    intro p hpp hx
    refine ⟨x, fun i => ⟨hin p hpp hx i, ?_, ?_⟩⟩
    · rw [← le_floor_plane hg]
    · rw [← floor_plane_le hg]
  have m1 := hcell _ (List.getElem_mem hk) hxk
  have m2 := hcell _ (List.getElem_mem hl) hxl
  have hm := meets_mem hg (hp _ (List.getElem_mem hk)) m1
  exact ⟨R, h1, _, (h2 k hk _ hm).2 m1, (h2 l hl _ hm).2 m2⟩

/-! ### Particles that touch or leave the specimen -/

def exampleGrid : Grid ℚ := ⟨fun _ => 2, fun _ => 0, fun _ => 2⟩

theorem exampleGrid_valid : exampleGrid.Valid := ⟨fun _ => le_of_lt (by decide : (1 : ℤ) < 2), fun _ => by norm_num [exampleGrid]⟩

/-- Two particles: one around the centre of the specimen, one in a corner -/
example : exampleGrid.Valid ∧ exampleGrid.Mem ![1, 0, 1] ∧
    ∀ p ∈ [(⟨![1, 1, 1], 1 / 2⟩ : Ball ℚ), ⟨![1 / 4, 1 / 4, 1 / 4], 1 / 4⟩], exampleGrid.Holds p := by
  refine ⟨exampleGrid_valid, ?_, ?_⟩
  · intro i; fin_cases i <;> decide
  · intro p hp
    simp only [List.mem_cons, List.not_mem_nil, or_false] at hp
    rcases hp with rfl | rfl
    · refine ⟨by norm_num, fun i => ?_⟩
      fin_cases i <;> norm_num [exampleGrid]
    · refine ⟨by norm_num, fun i => ?_⟩
      fin_cases i <;> norm_num [exampleGrid]

/-- The centre particle is in all eight sub boxes, the other one in the first. -/
example : ((exampleGrid.addSpheresToBoxes [⟨![1, 1, 1], 1 / 2⟩, ⟨![1 / 4, 1 / 4, 1 / 4], 1 / 4⟩]).bind
    fun R => .ok (R.boxes 0, R.boxes 1, R.spheres 0)) = .ok ([0, 1, 2, 3, 4, 5, 6, 7], [0], [0, 1]) := by
  decide +kernel

/-- A particle that touches the upper side in the second direction is registered in a sub box at the other end of the
specimen. -/
theorem C79_touching_counterexample : ∃ (g : Grid ℚ) (p : Ball ℚ) (c : Fin 3 → ℤ), g.Valid ∧ 0 < p.radius ∧
    (∀ i, g.lower i ≤ p.position i - p.radius ∧ p.position i + p.radius ≤ g.upper i) ∧ g.Mem c ∧
    ¬ g.Meets p c ∧ ((g.addSpheresToBoxes [p]).bind fun R => .ok (R.spheres (g.getBoxIndex c))) = .ok [0] := by
  refine ⟨exampleGrid, ⟨![1 / 4, 7 / 4, 1 / 4], 1 / 4⟩, ![1, 0, 0], exampleGrid_valid, by norm_num, ?_, ?_, ?_, ?_⟩
  · intro i; fin_cases i <;> norm_num [exampleGrid]
  · intro i; fin_cases i <;> decide
  · rintro ⟨x, hx⟩
    obtain ⟨h1, -, h3⟩ := hx 1
    rw [abs_le] at h1
    simp only [Grid.plane, exampleGrid, Matrix.cons_val_one, Matrix.cons_val_zero] at h1 h3
    norm_num at h1 h3
    linarith
  · decide +kernel

/-- … or refused although it fits into the specimen. -/
theorem C79_refused_counterexample : ∃ (g : Grid ℚ) (p : Ball ℚ), g.Valid ∧ 0 < p.radius ∧
    (∀ i, g.lower i ≤ p.position i - p.radius ∧ p.position i + p.radius ≤ g.upper i) ∧
    ((g.addSpheresToBoxes [p]).bind fun R => .ok (R.boxes 0)) = .throw := by
  refine ⟨exampleGrid, ⟨![7 / 4, 1 / 4, 1 / 4], 1 / 4⟩, exampleGrid_valid, by norm_num, ?_, ?_⟩
  · intro i; fin_cases i <;> norm_num [exampleGrid]
  · decide +kernel

/-- A particle that sticks out at the lower side leads to an access in front of the vector of sub boxes; the check for
wrong particles lets it pass. -/
theorem C79_outside_counterexample : ∃ (g : Grid ℚ) (p : Ball ℚ), g.Valid ∧ 0 < p.radius ∧
    ((g.addSpheresToBoxes [p]).bind fun R => .ok (R.boxes 0)) = .ub := by
  refine ⟨exampleGrid, ⟨![1 / 4, 1 / 4, 1 / 8], 1 / 4⟩, exampleGrid_valid, by norm_num, ?_⟩
  decide +kernel

end NuTo.Collision
