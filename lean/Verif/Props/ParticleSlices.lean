/-
C84: planar sections of the particles and the reported smallest distance.
-/
import Verif.Model.ParticleSlices
import Verif.Props.CollisionBoxes
import Verif.Lemmas.MatrixAssembler
import Mathlib.Data.List.GetD
import Mathlib.Analysis.InnerProductSpace.Basic
import Mathlib.Tactic.Linarith
import Mathlib.Tactic.NormNum
import Mathlib.Tactic.IntervalCases
import Mathlib.Order.Bounds.Basic

set_option linter.unusedSectionVars false

namespace NuTo.Collision

/-! ### Sections -/

/-- Specification: the section of a ball with the plane at height `z` -/
noncomputable def section_ (z : ℝ) (p : Ball ℝ) : Circle :=
  ⟨p.position 0, p.position 1, √(p.radius * p.radius - (p.position 2 - z) * (p.position 2 - z))⟩

/-- Specification: which particles are listed -/
noncomputable def listed (z minRadius : ℝ) (p : Ball ℝ) : Option Circle :=
  if |p.position 2 - z| < p.radius ∧ minRadius < (section_ z p).radius then some (section_ z p) else none

theorem set_row (l : List Circle) (k : ℕ) (c : Circle) :
    (l.map some ++ List.replicate (k + 1) none).set l.length (some c) =
      (l ++ [c]).map some ++ List.replicate k none := by
  rw [List.set_append_right _ _ (by rw [List.length_map]), List.length_map, Nat.sub_self, List.replicate_succ,
    List.set_cons_zero, List.map_append, List.append_assoc]
  rfl

theorem resize_full (l : List Circle) (n : ℕ) :
    resizeRows (l.map some) (l.length + n) = l.map some ++ List.replicate n none := by
  rw [resizeRows, List.take_of_length_le (by rw [List.length_map]; omega), List.length_map, Nat.add_sub_cancel_left]

theorem addCircle_ok (l : List Circle) (k : ℕ) (c : Circle) :
    ∃ k', addCircle (l.map some ++ List.replicate k none, l.length) c =
      .ok ((l ++ [c]).map some ++ List.replicate k' none, (l ++ [c]).length) := by
  unfold addCircle
  cases k with
  | zero =>
    have e : (if l.length = (l.map some ++ List.replicate 0 none).length then
        resizeRows (l.map some ++ List.replicate 0 none) (l.length + 1000)
        else l.map some ++ List.replicate 0 none) = l.map some ++ List.replicate (999 + 1) none := by
      rw [List.replicate_zero, List.append_nil, if_pos (by rw [List.length_map]), resize_full]
    refine ⟨999, ?_⟩
    dsimp only
    rw [e, if_pos, set_row, List.length_append]
    · rfl
    · rw [List.length_append, List.length_map, List.length_replicate]
      omega
  | succ k =>
    have e : (if l.length = (l.map some ++ List.replicate (k + 1) none).length then
        resizeRows (l.map some ++ List.replicate (k + 1) none) (l.length + 1000)
        else l.map some ++ List.replicate (k + 1) none) = l.map some ++ List.replicate (k + 1) none := by
      rw [if_neg]
      rw [List.length_append, List.length_map, List.length_replicate]
      omega
    refine ⟨k, ?_⟩
    dsimp only
    rw [e, if_pos, set_row, List.length_append]
    · rfl
    · rw [List.length_append, List.length_map, List.length_replicate]
      omega

theorem sliceStep_eq (z minRadius : ℝ) (s : List (Option Circle) × ℕ) (p : Ball ℝ) :
    sliceStep z minRadius s p = match listed z minRadius p with
      | some c => addCircle s c
      | none => .ok s := by
  unfold sliceStep listed
  dsimp only
  by_cases h1 : |p.position 2 - z| < p.radius
  · by_cases h2 : √(p.radius * p.radius - (p.position 2 - z) * (p.position 2 - z)) > minRadius
    · rw [if_pos h1, if_pos h2, if_pos ⟨h1, h2⟩]
      rfl
    · rw [if_pos h1, if_neg h2, if_neg (fun h => h2 h.2)]
  · rw [if_neg h1, if_neg (fun h => h1 h.1)]

theorem slice_loop (z minRadius : ℝ) (ps : List (Ball ℝ)) (l : List Circle) (k : ℕ) :
    ∃ k', Res.foldlM (sliceStep z minRadius) (l.map some ++ List.replicate k none, l.length) ps =
      .ok ((l ++ ps.filterMap (listed z minRadius)).map some ++ List.replicate k' none,
        (l ++ ps.filterMap (listed z minRadius)).length) := by
  induction ps generalizing l k with
  | nil => exact ⟨k, by simp [Res.foldlM_nil]⟩
  | cons p ps ih =>
    rw [Res.foldlM_cons, List.filterMap_cons, sliceStep_eq]
    cases listed z minRadius p with
    | none => exact ih l k
    | some c =>
      dsimp only
      obtain ⟨k1, hk1⟩ := addCircle_ok l k c
      rw [hk1, Res.bind_ok']
      obtain ⟨k2, hk2⟩ := ih (l ++ [c]) k1
      refine ⟨k2, ?_⟩
      rw [hk2, List.append_assoc]
      rfl

theorem particles2D_eq (ps : List (Ball ℝ)) (z minRadius : ℝ) :
    particles2D ps z minRadius = .ok ((ps.filterMap (listed z minRadius)).map some) := by
  unfold particles2D
  obtain ⟨k, hk⟩ := slice_loop z minRadius ps [] 1000
  rw [List.map_nil, List.nil_append, List.length_nil, List.nil_append] at hk
  rw [hk, Res.bind_ok', resizeRows]
  rw [List.take_append_of_le_length (by simp), List.take_of_length_le (by simp)]
  simp

theorem listed_eq_some {z minRadius : ℝ} {p : Ball ℝ} {c : Circle} :
    listed z minRadius p = some c ↔ |p.position 2 - z| < p.radius ∧ minRadius < c.radius ∧ c.x = p.position 0 ∧
      c.y = p.position 1 ∧ 0 < c.radius ∧ c.radius ^ 2 + (p.position 2 - z) ^ 2 = p.radius ^ 2 := by
  unfold listed
  have hpos : |p.position 2 - z| < p.radius → 0 < p.radius * p.radius - (p.position 2 - z) * (p.position 2 - z) := by
    intro h
    have h1 := abs_nonneg (p.position 2 - z)
    have h2 : (p.position 2 - z) * (p.position 2 - z) = |p.position 2 - z| * |p.position 2 - z| := (abs_mul_abs_self _).symm
    rw [h2]
    nlinarith
  constructor
  · intro h
    split_ifs at h with h1
    rw [Option.some.injEq] at h
    subst h
    have h2 := hpos h1.1
    refine ⟨h1.1, h1.2, rfl, rfl, Real.sqrt_pos.2 h2, ?_⟩
    have := Real.sq_sqrt h2.le
    simp only [section_]
    rw [this]
    ring
  · rintro ⟨h1, h2, h3, h4, h5, h6⟩
    have h7 : (section_ z p).radius = c.radius := by
      rw [section_]
      dsimp only
      rw [show p.radius * p.radius - (p.position 2 - z) * (p.position 2 - z) = c.radius ^ 2 by linarith]
      exact Real.sqrt_sq h5.le
    rw [if_pos ⟨h1, h7 ▸ h2⟩]
    congr 1
    cases c
    simp only at h3 h4 h7
    rw [section_] at h7 ⊢
    rw [h3, h4, ← h7]

/-- The circles of a section: never undefined; a circle is listed exactly for the particles the plane cuts in a circle of
more than the minimal radius, in the order of the particles, and its radius is that of the section. -/
theorem C84_sections (ps : List (Ball ℝ)) (z minRadius : ℝ) :
    ∃ circles : List Circle, particles2D ps z minRadius = .ok (circles.map some) ∧
      (∀ c, c ∈ circles ↔ ∃ p ∈ ps, |p.position 2 - z| < p.radius ∧ minRadius < c.radius ∧ c.x = p.position 0 ∧
        c.y = p.position 1 ∧ 0 < c.radius ∧ c.radius ^ 2 + (p.position 2 - z) ^ 2 = p.radius ^ 2) ∧
      List.Sublist (circles.map fun c => (c.x, c.y)) (ps.map fun p => (p.position 0, p.position 1)) := by
  refine ⟨_, particles2D_eq ps z minRadius, ?_, ?_⟩
  · intro c
    rw [List.mem_filterMap]
    simp only [listed_eq_some]
  · induction ps with
    | nil => exact List.Sublist.slnil
    | cons p ps ih =>
      rw [List.filterMap_cons]
      cases h : listed z minRadius p with
      | none => exact ih.cons _
      | some c =>
        dsimp only
        rw [List.map_cons, List.map_cons]
        obtain ⟨-, -, h3, h4, -⟩ := listed_eq_some.1 h
        rw [h3, h4]
        exact ih.cons_cons _

/-- A point of the plane lies inside a listed circle exactly if it lies inside a particle (without a minimal radius);
`ExportParticlesToVTU2D` uses the minimal radius 0. -/
theorem C84_points (ps : List (Ball ℝ)) (z : ℝ) (x y : ℝ) :
    ∃ circles : List Circle, particles2D ps z 0 = .ok (circles.map some) ∧
      ((∃ c ∈ circles, (x - c.x) ^ 2 + (y - c.y) ^ 2 < c.radius ^ 2) ↔
        ∃ p ∈ ps, 0 < p.radius ∧
          (x - p.position 0) ^ 2 + (y - p.position 1) ^ 2 + (z - p.position 2) ^ 2 < p.radius ^ 2) := by
  obtain ⟨circles, h1, h2, -⟩ := C84_sections ps z 0
  refine ⟨circles, h1, ?_⟩
  constructor
  · rintro ⟨c, hc, hlt⟩
    obtain ⟨p, hp, h3, -, h4, h5, h6, h7⟩ := (h2 c).1 hc
    refine ⟨p, hp, lt_of_le_of_lt (abs_nonneg _) h3, ?_⟩
    rw [h4, h5] at hlt
    nlinarith
  · rintro ⟨p, hp, h3, h4⟩
    have h5 : (p.position 2 - z) ^ 2 < p.radius ^ 2 := by nlinarith [sq_nonneg (x - p.position 0), sq_nonneg (y - p.position 1)]
    have h6 : 0 < p.radius ^ 2 - (p.position 2 - z) ^ 2 := by linarith
    refine ⟨⟨p.position 0, p.position 1, √(p.radius ^ 2 - (p.position 2 - z) ^ 2)⟩, (h2 _).2 ⟨p, hp, ?_, ?_, rfl, rfl, ?_, ?_⟩, ?_⟩
    · exact abs_lt_of_sq_lt_sq h5 h3.le
    · exact Real.sqrt_pos.2 h6
    · exact Real.sqrt_pos.2 h6
    · dsimp only
      rw [Real.sq_sqrt h6.le]
      ring
    · dsimp only
      rw [Real.sq_sqrt h6.le]
      nlinarith

/-- Sections of two balls are at least as far apart as the balls. -/
theorem C84_distance (p q : Ball ℝ) (z minRadius d : ℝ) (c e : Circle) (hd : 0 ≤ d)
    (hc : listed z minRadius p = some c) (he : listed z minRadius q = some e)
    (hgap : (p.radius + q.radius + d) ^ 2 ≤ (p.position 0 - q.position 0) ^ 2 + (p.position 1 - q.position 1) ^ 2 +
      (p.position 2 - q.position 2) ^ 2) :
    (c.radius + e.radius + d) ^ 2 ≤ (c.x - e.x) ^ 2 + (c.y - e.y) ^ 2 := by
  obtain ⟨h1, -, h3, h4, h5, h6⟩ := listed_eq_some.1 hc
  obtain ⟨k1, -, k3, k4, k5, k6⟩ := listed_eq_some.1 he
  rw [h3, h4, k3, k4]
  have hR := lt_of_le_of_lt (abs_nonneg _) h1
  have hS := lt_of_le_of_lt (abs_nonneg _) k1
  generalize p.position 0 - q.position 0 = u at *
  generalize p.position 1 - q.position 1 = v at *
  have e1 : p.position 2 - q.position 2 = (p.position 2 - z) - (q.position 2 - z) := by ring
  rw [e1] at hgap
  generalize p.position 2 - z = a at *
  generalize q.position 2 - z = b at *
  generalize p.radius = R at *
  generalize q.radius = S at *
  generalize c.radius = r at *
  generalize e.radius = s at *
  -- Cauchy-Schwarz
  have hcs : r * s - a * b ≤ R * S := by
    refine le_of_abs_le (abs_le_of_sq_le_sq ?_ (by positivity))
    have : (R * S) ^ 2 - (r * s - a * b) ^ 2 = (r * b + a * s) ^ 2 := by
      have : (R * S) ^ 2 = (r ^ 2 + a ^ 2) * (s ^ 2 + b ^ 2) := by rw [h6, k6]; ring
      rw [this]; ring
    nlinarith [sq_nonneg (r * b + a * s)]
  have hr : r ≤ R := by nlinarith
  have hs : s ≤ S := by nlinarith
  nlinarith [mul_le_mul_of_nonneg_left hr hd, mul_le_mul_of_nonneg_left hs hd]

/-- The circle of a ball inside a box lies inside the section of the box; the circle of a ball inside a cylinder lies
inside the section of the cylinder. -/
theorem C84_inside (p : Ball ℝ) (z minRadius : ℝ) (c : Circle) (hc : listed z minRadius p = some c) :
    (∀ lo hi : Fin 3 → ℝ, (∀ i, lo i ≤ p.position i - p.radius ∧ p.position i + p.radius ≤ hi i) →
      lo 0 ≤ c.x - c.radius ∧ c.x + c.radius ≤ hi 0 ∧ lo 1 ≤ c.y - c.radius ∧ c.y + c.radius ≤ hi 1) ∧
    (∀ mx my R : ℝ, p.radius ≤ R → (p.position 0 - mx) ^ 2 + (p.position 1 - my) ^ 2 ≤ (R - p.radius) ^ 2 →
      c.radius ≤ R ∧ (c.x - mx) ^ 2 + (c.y - my) ^ 2 ≤ (R - c.radius) ^ 2) := by
  obtain ⟨h1, -, h3, h4, h5, h6⟩ := listed_eq_some.1 hc
  have hR := lt_of_le_of_lt (abs_nonneg _) h1
  have hr : c.radius ≤ p.radius := by nlinarith [sq_nonneg (p.position 2 - z)]
  rw [h3, h4]
  constructor
  · intro lo hi h
    have := h 0
    have := h 1
    refine ⟨?_, ?_, ?_, ?_⟩ <;> linarith
  · intro mx my R h7 h8
    refine ⟨hr.trans h7, h8.trans ?_⟩
    nlinarith

/-! ### The reported smallest distance -/

/-- Specification: a coordinate of the sub boxes in which the corners of a ball are counted -/
noncomputable def Grid.statCell (g : Grid ℝ) (x : ℝ) (i : Fin 3) : ℤ := clampIndex (g.divisions i) ⌊x / g.subLength i⌋

/-- Specification: two balls have a corner each in the same sub box -/
def Grid.Share (g : Grid ℝ) (p q : Ball ℝ) : Prop :=
  ∀ i, ∃ s ∈ ({-1, 1} : Set ℝ), ∃ t ∈ ({-1, 1} : Set ℝ),
    g.statCell (p.position i + s * p.radius) i = g.statCell (q.position i + t * q.radius) i

theorem mem_corners (p : Ball ℝ) (x : Fin 3 → ℝ) :
    x ∈ p.corners ↔ ∀ i, ∃ s ∈ ({-1, 1} : Set ℝ), x i = p.position i + s * p.radius := by
  unfold Ball.corners
  simp only [List.mem_flatMap, List.mem_map, List.mem_cons, List.not_mem_nil, or_false, Set.mem_insert_iff,
    Set.mem_singleton_iff]
  constructor
  · rintro ⟨a, ha, b, hb, c, hc, rfl⟩ i
    fin_cases i
    · rcases ha with rfl | rfl
      · exact ⟨-1, Or.inl rfl, by simp⟩
      · exact ⟨1, Or.inr rfl, by simp⟩
    · rcases hb with rfl | rfl
      · exact ⟨-1, Or.inl rfl, by simp⟩
      · exact ⟨1, Or.inr rfl, by simp⟩
    · rcases hc with rfl | rfl
      · exact ⟨-1, Or.inl rfl, by simp⟩
      · exact ⟨1, Or.inr rfl, by simp⟩
  · intro h
    have key : ∀ i, ∃ a : ℤ, (a = -1 ∨ a = 1) ∧ x i = p.position i + (a : ℝ) * p.radius := by
      intro i
      obtain ⟨s, rfl | rfl, hs⟩ := h i
      · exact ⟨-1, Or.inl rfl, by push_cast; exact hs⟩
      · exact ⟨1, Or.inr rfl, by push_cast; exact hs⟩
    obtain ⟨a, ha, ha'⟩ := key 0
    obtain ⟨b, hb, hb'⟩ := key 1
    obtain ⟨c, hc, hc'⟩ := key 2
    refine ⟨a, ha, b, hb, c, hc, ?_⟩
    funext i
    fin_cases i
    · exact ha'.symm
    · exact hb'.symm
    · exact hc'.symm

theorem statCell_mem {g : Grid ℝ} (hd : ∀ i, 1 ≤ g.divisions i) (x : Fin 3 → ℝ) :
    g.Mem fun i => g.statCell (x i) i := by
  intro i
  have := hd i
  simp only [Grid.statCell, clampIndex]
  constructor
  · exact le_max_right _ _
  · rw [max_lt_iff]
    exact ⟨lt_of_le_of_lt (min_le_right _ _) (by omega), by omega⟩

theorem statAdd_ok {g : Grid ℝ} (hd : ∀ i, 1 ≤ g.divisions i) (s : ℕ) (boxes : ℤ → List ℕ) (x : Fin 3 → ℝ) :
    g.statAdd s boxes x = .ok (if (boxes (g.statIndex x)).getLast? = some s then boxes
      else Function.update boxes (g.statIndex x) (boxes (g.statIndex x) ++ [s])) := by
  have h := linearIndex_range (statCell_mem hd x)
  have e : g.statIndex x = g.linearIndex fun i => g.statCell (x i) i := rfl
  rw [Grid.statAdd, if_neg (by rw [e]; omega)]
  split_ifs <;> rfl

/-- Specification of the filled boxes -/
structure Filled (g : Grid ℝ) (ps : List (Ball ℝ)) (n : ℕ) (boxes : ℤ → List ℕ) : Prop where
  sorted : ∀ b, (boxes b).Pairwise (· < ·)
  mem : ∀ b s, s ∈ boxes b ↔ s < n ∧ ∃ p, ps[s]? = some p ∧ ∃ x ∈ p.corners, g.statIndex x = b

theorem corners_loop {g : Grid ℝ} (hd : ∀ i, 1 ≤ g.divisions i) (s : ℕ) (l : List (Fin 3 → ℝ)) (boxes : ℤ → List ℕ)
    (hs : ∀ b, (boxes b).Pairwise (· < ·)) (hlt : ∀ b, ∀ k ∈ boxes b, k ≤ s) :
    ∃ boxes', Res.foldlM (g.statAdd s) boxes l = .ok boxes' ∧ (∀ b, (boxes' b).Pairwise (· < ·)) ∧
      (∀ b, ∀ k ∈ boxes' b, k ≤ s) ∧ ∀ b k, k ∈ boxes' b ↔ k ∈ boxes b ∨ (k = s ∧ ∃ x ∈ l, g.statIndex x = b) := by
  induction l generalizing boxes with
  | nil => exact ⟨boxes, rfl, hs, hlt, by simp⟩
  | cons x l ih =>
    rw [Res.foldlM_cons, statAdd_ok hd, Res.bind_ok']
    by_cases hlast : (boxes (g.statIndex x)).getLast? = some s
    · rw [if_pos hlast]
      obtain ⟨boxes', h1, h2, h3, h4⟩ := ih boxes hs hlt
      refine ⟨boxes', h1, h2, h3, fun b k => ?_⟩
      rw [h4]
      simp only [List.mem_cons, exists_eq_or_imp]
      constructor
      · rintro (h | ⟨rfl, h⟩)
        · exact Or.inl h
        · exact Or.inr ⟨rfl, Or.inr h⟩
      · rintro (h | ⟨rfl, rfl | h⟩)
        · exact Or.inl h
        · exact Or.inl (List.mem_of_getLast? hlast)
        · exact Or.inr ⟨rfl, h⟩
    · rw [if_neg hlast]
      have hnot : ∀ k ∈ boxes (g.statIndex x), k < s := by
        intro k hk
        refine lt_of_le_of_ne (hlt _ k hk) ?_
        rintro rfl
        apply hlast
        rcases List.eq_nil_or_concat (boxes (g.statIndex x)) with h | ⟨l', a, h⟩
        · rw [h] at hk
          cases hk
        · rw [List.concat_eq_append] at h
          have hs' := hs (g.statIndex x)
          have hlt' := hlt (g.statIndex x)
          rw [h] at hk hs' hlt' ⊢
          rw [List.getLast?_append, List.getLast?_singleton]
          rcases List.mem_append.1 hk with hk | hk
          · have h1 := (List.pairwise_append.1 hs').2.2 k hk a (by simp)
            have h2 := hlt' a (by simp)
            omega
          · rw [List.mem_singleton] at hk
            rw [hk]
            rfl
      obtain ⟨boxes', h1, h2, h3, h4⟩ := ih
        (Function.update boxes (g.statIndex x) (boxes (g.statIndex x) ++ [s])) (by
          intro b
          by_cases hb : b = g.statIndex x
          · subst hb
            rw [Function.update_self, List.pairwise_append]
            refine ⟨hs _, List.pairwise_singleton _ _, ?_⟩
            intro k hk j hj
            rw [List.mem_singleton] at hj
            rw [hj]
            exact hnot k hk
          · rw [Function.update_of_ne hb]
            exact hs b) (by
          intro b k hk
          by_cases hb : b = g.statIndex x
          · subst hb
            rw [Function.update_self, List.mem_append, List.mem_singleton] at hk
            rcases hk with hk | hk
            · exact hlt _ k hk
            · exact hk.le
          · rw [Function.update_of_ne hb] at hk
            exact hlt b k hk)
      refine ⟨boxes', h1, h2, h3, fun b k => ?_⟩
      rw [h4]
      simp only [List.mem_cons, exists_eq_or_imp]
      by_cases hb : b = g.statIndex x
      · subst hb
        rw [Function.update_self, List.mem_append, List.mem_singleton]
        tauto
      · rw [Function.update_of_ne hb]
        have hb' : g.statIndex x ≠ b := Ne.symm hb
        tauto

theorem statBoxes_loop {g : Grid ℝ} (hd : ∀ i, 1 ≤ g.divisions i) (ps rest : List (Ball ℝ)) (n : ℕ)
    (hrest : ps.drop n = rest) (boxes : ℤ → List ℕ) (hf : Filled g ps n boxes) :
    ∃ boxes', Res.foldlM (fun boxes (x : Ball ℝ × ℕ) => Res.foldlM (g.statAdd x.2) boxes x.1.corners) boxes
      (rest.zipIdx n) = .ok boxes' ∧ Filled g ps ps.length boxes' := by
  induction rest generalizing n boxes with
  | nil =>
    refine ⟨boxes, rfl, hf.sorted, fun b s => ?_⟩
    rw [hf.mem]
    have hn : ps.length ≤ n := List.drop_eq_nil_iff.1 hrest
    constructor
    · rintro ⟨-, p, hp, h⟩
      exact ⟨(List.getElem?_eq_some_iff.1 hp).1, p, hp, h⟩
    · rintro ⟨h1, h2⟩
      exact ⟨by omega, h2⟩
  | cons p rest ih =>
    have hn : ps[n]? = some p := by
      rw [← List.head?_drop, hrest]
      rfl
    have hrest' : ps.drop (n + 1) = rest := by
      rw [← List.drop_drop, hrest]
      rfl
    rw [List.zipIdx_cons, Res.foldlM_cons]
    dsimp only
    obtain ⟨boxes1, h1, h2, h3, h4⟩ := corners_loop hd n p.corners boxes hf.sorted
      (fun b k hk => ((hf.mem b k).1 hk).1.le)
    rw [h1, Res.bind_ok']
    refine ih (n + 1) hrest' boxes1 ⟨h2, fun b s => ?_⟩
    rw [h4, hf.mem]
    constructor
    · rintro (⟨h5, h6⟩ | ⟨rfl, h6⟩)
      · exact ⟨by omega, h6⟩
      · exact ⟨by omega, p, hn, h6⟩
    · rintro ⟨h5, q, hq, h6⟩
      by_cases hsn : s = n
      · subst hsn
        rw [hn, Option.some.injEq] at hq
        subst hq
        exact Or.inr ⟨rfl, h6⟩
      · exact Or.inl ⟨by omega, q, hq, h6⟩

theorem statBoxes_ok {g : Grid ℝ} (hd : ∀ i, 1 ≤ g.divisions i) (ps : List (Ball ℝ)) :
    ∃ boxes, g.statBoxes ps = .ok boxes ∧ Filled g ps ps.length boxes :=
  statBoxes_loop hd ps ps 0 rfl (fun _ => []) ⟨fun _ => List.Pairwise.nil, by simp⟩

theorem mem_pairs (l : List ℕ) (hl : l.Pairwise (· < ·)) (i j : ℕ) :
    (i, j) ∈ pairs l ↔ i ∈ l ∧ j ∈ l ∧ i < j := by
  induction l with
  | nil => simp [pairs]
  | cons a l ih =>
    rw [List.pairwise_cons] at hl
    rw [pairs, List.mem_append, List.mem_map, ih hl.2]
    simp only [List.mem_cons, Prod.mk.injEq]
    constructor
    · rintro (⟨k, hk, rfl, rfl⟩ | ⟨h1, h2, h3⟩)
      · exact ⟨Or.inl rfl, Or.inr hk, hl.1 _ hk⟩
      · exact ⟨Or.inr h1, Or.inr h2, h3⟩
    · rintro ⟨rfl | h1, h2, h3⟩
      · rcases h2 with rfl | h2
        · omega
        · exact Or.inl ⟨j, h2, rfl, rfl⟩
      · rcases h2 with rfl | h2
        · have := hl.1 _ h1
          omega
        · exact Or.inr ⟨h1, h2, h3⟩

/-- Specification: the smallest of a set of distances, infinite if there are none -/
def Smallest (S : Set ℝ) : Option ℝ → Prop
  | none => S = ∅
  | some d => IsLeast S d

theorem compare_loop (ps : List (Ball ℝ)) (l : List (ℕ × ℕ)) (hl : ∀ ij ∈ l, ij.1 < ps.length ∧ ij.2 < ps.length)
    (m : Option ℝ) (S : Set ℝ) (hm : Smallest S m) :
    ∃ r, Res.foldlM (compare ps) m l = .ok r ∧
      Smallest (S ∪ {d | ∃ ij ∈ l, ∃ p q, ps[ij.1]? = some p ∧ ps[ij.2]? = some q ∧ d = gap p q}) r := by
  induction l generalizing m S with
  | nil =>
    refine ⟨m, rfl, ?_⟩
    have : S ∪ {d | ∃ ij ∈ ([] : List (ℕ × ℕ)), ∃ p q, ps[ij.1]? = some p ∧ ps[ij.2]? = some q ∧ d = gap p q} = S := by
      ext d
      simp
    rw [this]
    exact hm
  | cons ij l ih =>
    obtain ⟨h1, h2⟩ := hl ij List.mem_cons_self
    have e1 : ps[ij.1]? = some ps[ij.1] := List.getElem?_eq_getElem h1
    have e2 : ps[ij.2]? = some ps[ij.2] := List.getElem?_eq_getElem h2
    have hstep : compare ps m ij = .ok (minInf m (gap ps[ij.1] ps[ij.2])) := by
      unfold compare
      rw [e1, e2]
    rw [Res.foldlM_cons, hstep, Res.bind_ok']
    obtain ⟨r, h3, h4⟩ := ih (fun k hk => hl k (List.mem_cons_of_mem _ hk)) (minInf m (gap ps[ij.1] ps[ij.2]))
      (S ∪ {gap ps[ij.1] ps[ij.2]}) (by
        cases m with
        | none =>
          have : S = ∅ := hm
          rw [this, Set.empty_union]
          exact isLeast_singleton
        | some a =>
          have : IsLeast S a := hm
          exact this.union isLeast_singleton)
    refine ⟨r, h3, ?_⟩
    have : S ∪ {d | ∃ k ∈ ij :: l, ∃ p q, ps[k.1]? = some p ∧ ps[k.2]? = some q ∧ d = gap p q} =
        (S ∪ {gap ps[ij.1] ps[ij.2]}) ∪
          {d | ∃ k ∈ l, ∃ p q, ps[k.1]? = some p ∧ ps[k.2]? = some q ∧ d = gap p q} := by
      ext d
      simp only [Set.mem_union, Set.mem_ofPred_eq, List.mem_cons, exists_eq_or_imp, Set.mem_singleton_iff, e1, e2,
        Option.some.injEq, or_assoc]
      constructor
      · rintro (h | ⟨p, q, rfl, rfl, h⟩ | h)
        · exact Or.inl h
        · exact Or.inr (Or.inl h)
        · exact Or.inr (Or.inr h)
      · rintro (h | h | h)
        · exact Or.inl h
        · exact Or.inr (Or.inl ⟨_, _, rfl, rfl, h⟩)
        · exact Or.inr (Or.inr h)
    rw [this]
    exact h4

theorem share_iff {g : Grid ℝ} (hd : ∀ i, 1 ≤ g.divisions i) (p q : Ball ℝ) :
    g.Share p q ↔ ∃ x ∈ p.corners, ∃ y ∈ q.corners, g.statIndex x = g.statIndex y := by
  constructor
  · intro h
    choose s hs t ht hst using h
    refine ⟨fun i => p.position i + s i * p.radius, (mem_corners _ _).2 fun i => ⟨s i, hs i, rfl⟩,
      fun i => q.position i + t i * q.radius, (mem_corners _ _).2 fun i => ⟨t i, ht i, rfl⟩, ?_⟩
    unfold Grid.statIndex
    congr 1
    funext i
    exact hst i
  · rintro ⟨x, hx, y, hy, hxy⟩ i
    have h := congrFun (linearIndex_inj (statCell_mem hd x) (statCell_mem hd y) hxy) i
    obtain ⟨s, hs, hs'⟩ := (mem_corners _ _).1 hx i
    obtain ⟨t, ht, ht'⟩ := (mem_corners _ _).1 hy i
    refine ⟨s, hs, t, ht, ?_⟩
    rw [← hs', ← ht']
    exact h

/-- What is reported: the smallest distance of the surfaces among the pairs of particles that have a corner of their
bounding cubes in a common sub box, `INFINITY` if there is no such pair.  Nothing undefined happens. -/
theorem C84_reported (g : Grid ℝ) (hd : ∀ i, 1 ≤ g.divisions i) (ps : List (Ball ℝ)) :
    ∃ r, g.minimalDistance ps = .ok r ∧
      Smallest {d | ∃ (i j : ℕ) (p q : Ball ℝ), i < j ∧ ps[i]? = some p ∧ ps[j]? = some q ∧ g.Share p q ∧ d = gap p q} r := by
  obtain ⟨boxes, h1, h2⟩ := statBoxes_ok hd ps
  have hmem : ∀ i j, (i, j) ∈ ((intSpan 0 (g.size - 1)).flatMap fun b => pairs (boxes b)) ↔
      i < j ∧ ∃ p q, ps[i]? = some p ∧ ps[j]? = some q ∧ g.Share p q := by
    intro i j
    rw [List.mem_flatMap]
    constructor
    · rintro ⟨b, -, hb⟩
      obtain ⟨h3, h4, h5⟩ := (mem_pairs _ (h2.sorted b) i j).1 hb
      obtain ⟨-, p, hp, x, hx, hx'⟩ := (h2.mem b i).1 h3
      obtain ⟨-, q, hq, y, hy, hy'⟩ := (h2.mem b j).1 h4
      exact ⟨h5, p, q, hp, hq, (share_iff hd p q).2 ⟨x, hx, y, hy, hx'.trans hy'.symm⟩⟩
    · rintro ⟨h5, p, q, hp, hq, hs⟩
      obtain ⟨x, hx, y, hy, hxy⟩ := (share_iff hd p q).1 hs
      refine ⟨g.statIndex x, ?_, (mem_pairs _ (h2.sorted _) i j).2 ⟨?_, ?_, h5⟩⟩
      · have := linearIndex_range (statCell_mem hd x)
        have e : g.statIndex x = g.linearIndex fun i => g.statCell (x i) i := rfl
        rw [mem_intSpan, e]
        omega
      · exact (h2.mem _ i).2 ⟨(List.getElem?_eq_some_iff.1 hp).1, p, hp, x, hx, rfl⟩
      · exact (h2.mem _ j).2 ⟨(List.getElem?_eq_some_iff.1 hq).1, q, hq, y, hy, hxy.symm⟩
  obtain ⟨r, h3, h4⟩ := compare_loop ps ((intSpan 0 (g.size - 1)).flatMap fun b => pairs (boxes b)) (by
    rintro ⟨i, j⟩ h
    obtain ⟨-, p, q, hp, hq, -⟩ := (hmem i j).1 h
    exact ⟨(List.getElem?_eq_some_iff.1 hp).1, (List.getElem?_eq_some_iff.1 hq).1⟩) none ∅ rfl
  refine ⟨r, ?_, ?_⟩
  · rw [Grid.minimalDistance, h1, Res.bind_ok']
    exact h3
  · convert h4 using 1
    rw [Set.empty_union]
    ext d
    simp only [Set.mem_ofPred_eq]
    constructor
    · rintro ⟨i, j, p, q, h5, hp, hq, hs, rfl⟩
      exact ⟨(i, j), (hmem i j).2 ⟨h5, p, q, hp, hq, hs⟩, p, q, hp, hq, rfl⟩
    · rintro ⟨⟨i, j⟩, h, p, q, hp, hq, rfl⟩
      obtain ⟨h5, p', q', hp', hq', hs⟩ := (hmem i j).1 h
      dsimp only at hp hq
      rw [hp, Option.some.injEq] at hp'
      rw [hq, Option.some.injEq] at hq'
      exact ⟨i, j, p, q, h5, hp, hq, hp' ▸ hq' ▸ hs, rfl⟩

theorem clampIndex_mono {n a b : ℤ} (h : a ≤ b) : clampIndex n a ≤ clampIndex n b :=
  max_le_max (min_le_min h le_rfl) le_rfl

theorem clampIndex_step {n a b : ℤ} (h : b ≤ a + 1) : clampIndex n b ≤ clampIndex n a + 1 := by
  unfold clampIndex
  omega

theorem statCell_mono {g : Grid ℝ} (hl : ∀ i, 0 < g.subLength i) (i : Fin 3) {x y : ℝ} (h : x ≤ y) :
    g.statCell x i ≤ g.statCell y i :=
  clampIndex_mono (Int.floor_le_floor (div_le_div_of_nonneg_right h (hl i).le))

theorem statCell_step {g : Grid ℝ} (hl : ∀ i, 0 < g.subLength i) (i : Fin 3) {x y : ℝ} (h : y ≤ x + g.subLength i) :
    g.statCell y i ≤ g.statCell x i + 1 := by
  refine clampIndex_step ?_
  rw [← Int.floor_add_one]
  refine Int.floor_le_floor ?_
  rw [div_le_iff₀ (hl i), add_mul, div_mul_cancel₀ _ (hl i).ne', one_mul]
  exact h

/-- Balls not larger than the sub boxes whose bounding cubes meet are compared. -/
theorem C84_compared (g : Grid ℝ) (hl : ∀ i, 0 < g.subLength i) (p q : Ball ℝ) (hp : 0 ≤ p.radius) (hq : 0 ≤ q.radius)
    (hps : ∀ i, 2 * p.radius ≤ g.subLength i) (hqs : ∀ i, 2 * q.radius ≤ g.subLength i)
    (hmeet : ∀ i, |p.position i - q.position i| ≤ p.radius + q.radius) : g.Share p q := by
  intro i
  have hm := abs_le.1 (hmeet i)
  have a1 : g.statCell (p.position i + -1 * p.radius) i ≤ g.statCell (p.position i + 1 * p.radius) i :=
    statCell_mono hl i (by linarith)
  have a2 : g.statCell (p.position i + 1 * p.radius) i ≤ g.statCell (p.position i + -1 * p.radius) i + 1 :=
    statCell_step hl i (by linarith [hps i])
  have b1 : g.statCell (q.position i + -1 * q.radius) i ≤ g.statCell (q.position i + 1 * q.radius) i :=
    statCell_mono hl i (by linarith)
  have b2 : g.statCell (q.position i + 1 * q.radius) i ≤ g.statCell (q.position i + -1 * q.radius) i + 1 :=
    statCell_step hl i (by linarith [hqs i])
  have c1 : g.statCell (p.position i + -1 * p.radius) i ≤ g.statCell (q.position i + 1 * q.radius) i :=
    statCell_mono hl i (by linarith [hm.2])
  have c2 : g.statCell (q.position i + -1 * q.radius) i ≤ g.statCell (p.position i + 1 * p.radius) i :=
    statCell_mono hl i (by linarith [hm.1])
  by_contra hne
  push Not at hne
  have n1 := hne (-1) (by simp) (-1) (by simp)
  have n2 := hne (-1) (by simp) 1 (by simp)
  have n3 := hne 1 (by simp) (-1) (by simp)
  have n4 := hne 1 (by simp) 1 (by simp)
  omega

theorem abs_le_of_gap {p q : Ball ℝ} {d : ℝ} (h : gap p q ≤ d) (i : Fin 3) :
    |p.position i - q.position i| ≤ p.radius + q.radius + d := by
  unfold gap at h
  refine le_trans ?_ (show √(∑ i, (p.position i - q.position i) * (p.position i - q.position i)) ≤ _ by linarith)
  refine Real.le_sqrt_of_sq_le ?_
  rw [sq_abs, sq]
  exact Finset.single_le_sum (f := fun i => (p.position i - q.position i) * (p.position i - q.position i))
    (fun j _ => mul_self_nonneg _) (Finset.mem_univ i)

/-- Overlap is detected: if no particle is larger than a sub box, the reported distance is negative exactly if two
particles overlap; if it is at least zero it is still at least the smallest distance of two particles.  (Missing: the
reported distance is the smallest one.) -/
theorem C84_overlap_partial (g : Grid ℝ) (hd : ∀ i, 1 ≤ g.divisions i) (hl : ∀ i, 0 < g.subLength i)
    (ps : List (Ball ℝ)) (hr : ∀ p ∈ ps, 0 ≤ p.radius ∧ ∀ i, 2 * p.radius ≤ g.subLength i) :
    ∃ r, g.minimalDistance ps = .ok r ∧
      ((∃ d, r = some d ∧ d < 0) ↔ ∃ (i j : ℕ) (p q : Ball ℝ), i < j ∧ ps[i]? = some p ∧ ps[j]? = some q ∧ gap p q < 0) ∧
      (∀ d, r = some d → ∃ (i j : ℕ) (p q : Ball ℝ), i < j ∧ ps[i]? = some p ∧ ps[j]? = some q ∧ gap p q = d) ∧
      (∀ d, r = some d → d ≤ 0 → ∀ (i j : ℕ) (p q : Ball ℝ), i < j → ps[i]? = some p → ps[j]? = some q → d ≤ gap p q) := by
  obtain ⟨r, h1, h2⟩ := C84_reported g hd ps
  have hcmp : ∀ (i j : ℕ) (p q : Ball ℝ), ps[i]? = some p → ps[j]? = some q → gap p q ≤ 0 → g.Share p q := by
    intro i j p q hp hq hgap
    have hp' := hr p (List.mem_of_getElem? hp)
    have hq' := hr q (List.mem_of_getElem? hq)
    refine C84_compared g hl p q hp'.1 hq'.1 hp'.2 hq'.2 fun i => ?_
    simpa using abs_le_of_gap hgap i
  refine ⟨r, h1, ?_, ?_, ?_⟩
  · constructor
    · rintro ⟨d, rfl, hneg⟩
      obtain ⟨⟨i, j, p, q, h3, h4, h5, -, rfl⟩, -⟩ := h2
      exact ⟨i, j, p, q, h3, h4, h5, hneg⟩
    · rintro ⟨i, j, p, q, h3, h4, h5, hneg⟩
      have hin : gap p q ∈ {d | ∃ (i j : ℕ) (p q : Ball ℝ), i < j ∧ ps[i]? = some p ∧ ps[j]? = some q ∧ g.Share p q ∧ d = gap p q} :=
        ⟨i, j, p, q, h3, h4, h5, hcmp i j p q h4 h5 hneg.le, rfl⟩
      cases r with
      | none =>
        have : _ = (∅ : Set ℝ) := h2
        rw [this] at hin
        exact hin.elim
      | some d => exact ⟨d, rfl, lt_of_le_of_lt (h2.2 hin) hneg⟩
  · rintro d rfl
    obtain ⟨⟨i, j, p, q, h3, h4, h5, -, h6⟩, -⟩ := h2
    exact ⟨i, j, p, q, h3, h4, h5, h6.symm⟩
  · rintro d rfl hd0 i j p q h3 h4 h5
    by_contra hlt
    rw [not_le] at hlt
    exact absurd (h2.2 ⟨i, j, p, q, h3, h4, h5, hcmp i j p q h4 h5 (hlt.le.trans hd0), rfl⟩) (not_le.2 hlt)

/-- The reported distance is never too small, and right for a single sub box, in particular for fewer than ten particles.
Without two particles it is infinite. -/
theorem C84_few_particles (volume : ℝ) (lower upper : Fin 3 → ℝ) (ps : List (Ball ℝ)) (h : ps.length < 10) :
    ∃ r, absoluteMinimalDistance volume lower upper ps = .ok r ∧
      Smallest {d | ∃ (i j : ℕ) (p q : Ball ℝ), i < j ∧ ps[i]? = some p ∧ ps[j]? = some q ∧ d = gap p q} r := by
  have hdiv : subBoxDivisions volume (fun i => upper i - lower i) ps.length 10 = .ok fun _ => 1 := by
    unfold subBoxDivisions
    rw [if_neg (by omega), if_pos (Nat.div_eq_of_lt h)]
    rfl
  obtain ⟨r, h1, h2⟩ := C84_reported ⟨fun _ => 1, lower, upper⟩ (fun _ => le_refl (1 : ℤ)) ps
  refine ⟨r, ?_, ?_⟩
  · rw [absoluteMinimalDistance, hdiv, Res.bind_ok']
    exact h1
  · convert h2 using 1
    ext d
    simp only [Set.mem_ofPred_eq]
    have hs : ∀ p q : Ball ℝ, Grid.Share ⟨fun _ => 1, lower, upper⟩ p q := by
      intro p q i
      refine ⟨1, by simp, 1, by simp, ?_⟩
      simp [Grid.statCell, clampIndex]
    simp only [hs, true_and]

/-! ### A pair that is missed -/

/-- A ball on the axis of a bar -/
noncomputable def bead (x : ℚ) : Ball ℝ := ⟨![(x : ℝ), 1 / 2, 1 / 2], 1 / 100⟩

/-- Positions along the bar -/
def beadPositions : List ℚ := [2 / 5, 9 / 10, 7 / 5, 19 / 10, 21 / 10, 13 / 5, 31 / 10, 18 / 5, 9 / 2, 13 / 2]

/-- Ten small particles in a bar of size 8 × 1 × 1 -/
noncomputable def beads : List (Ball ℝ) := beadPositions.map bead

/-- The bar -/
noncomputable def bar : Grid ℝ := ⟨![4, 1, 1], fun _ => 0, ![8, 1, 1]⟩

theorem bar_divisions : subBoxDivisions 8 (fun i => bar.upper i - bar.lower i) beads.length 10 = .ok bar.divisions := by
  unfold subBoxDivisions
  have h1 : beads.length = 10 := rfl
  rw [if_neg (by omega), if_neg (by rw [h1]; norm_num), h1]
  have h2 : ((8 : ℝ) / ((10 / 10 : ℕ) : ℝ)) ^ ((1 : ℝ) / 3) = 2 := by
    norm_num
  rw [h2]
  congr 1
  funext i
  fin_cases i
  · norm_num [bar]
  · norm_num [bar]
  · norm_num [bar]

theorem gap_bead (x y : ℚ) : gap (bead x) (bead y) = ((|x - y| - 1 / 50 : ℚ) : ℝ) := by
  unfold gap bead
  rw [Fin.sum_univ_three]
  have : √(((x : ℝ) - y) * (x - y) + (1 / 2 - 1 / 2) * (1 / 2 - 1 / 2) + (1 / 2 - 1 / 2) * (1 / 2 - 1 / 2)) =
      |(x : ℝ) - y| := by
    rw [show ((x : ℝ) - y) * (x - y) + (1 / 2 - 1 / 2) * (1 / 2 - 1 / 2) + (1 / 2 - 1 / 2) * (1 / 2 - 1 / 2) =
      (x - y) ^ 2 by ring]
    exact Real.sqrt_sq_eq_abs _
  simp only [Matrix.cons_val_zero, Matrix.cons_val_one, Matrix.cons_val]
  rw [this]
  push_cast
  norm_num

theorem statCell_bead (x : ℚ) (s : ℤ) :
    bar.statCell ((bead x).position 0 + (s : ℝ) * (bead x).radius) 0 = clampIndex 4 ⌊(x + s * (1 / 100)) / 2⌋ := by
  unfold Grid.statCell
  have e : (((bead x).position 0 + (s : ℝ) * (bead x).radius) / bar.subLength 0) = (((x + s * (1 / 100)) / 2 : ℚ) : ℝ) := by
    have : bar.subLength 0 = 2 := by norm_num [Grid.subLength, bar]
    rw [this]
    simp [bead]
  rw [e, Rat.floor_cast]
  rfl

theorem share_bead (x y : ℚ) : bar.Share (bead x) (bead y) →
    ∃ s ∈ ([-1, 1] : List ℤ), ∃ t ∈ ([-1, 1] : List ℤ),
      clampIndex 4 ⌊(x + s * (1 / 100)) / 2⌋ = clampIndex 4 ⌊(y + t * (1 / 100)) / 2⌋ := by
  intro h
  obtain ⟨s, hs, t, ht, hst⟩ := h 0
  have key : ∀ s ∈ ({-1, 1} : Set ℝ), ∃ a ∈ ([-1, 1] : List ℤ), s = (a : ℝ) := by
    rintro s (rfl | rfl)
    · exact ⟨-1, by simp, by norm_num⟩
    · exact ⟨1, by simp, by norm_num⟩
  obtain ⟨a, ha, rfl⟩ := key s hs
  obtain ⟨b, hb, rfl⟩ := key t ht
  rw [statCell_bead, statCell_bead] at hst
  exact ⟨a, ha, b, hb, hst⟩

theorem bead_table : ∀ i < 10, ∀ j < 10, i < j →
    (∃ s ∈ ([-1, 1] : List ℤ), ∃ t ∈ ([-1, 1] : List ℤ),
      clampIndex 4 ⌊(beadPositions.getD i 0 + s * (1 / 100)) / 2⌋ =
        clampIndex 4 ⌊(beadPositions.getD j 0 + t * (1 / 100)) / 2⌋) →
    12 / 25 ≤ |beadPositions.getD i 0 - beadPositions.getD j 0| - 1 / 50 := by
  decide +kernel

theorem beads_get {i : ℕ} {p : Ball ℝ} (h : beads[i]? = some p) : i < 10 ∧ p = bead (beadPositions.getD i 0) := by
  have hi : i < 10 := (List.getElem?_eq_some_iff.1 h).1
  refine ⟨hi, ?_⟩
  unfold beads at h
  rw [List.getElem?_map, List.getElem?_eq_getElem (show i < beadPositions.length from hi), Option.map_some,
    Option.some.injEq] at h
  rw [← h, List.getD_eq_getElem]

/-- Ten particles in a bar, none touching another: the reported distance is 0.48 although two of them are 0.18 apart.
The two lie on different sides of a boundary of sub boxes. -/
theorem C84_missed_counterexample :
    ∃ (lower upper : Fin 3 → ℝ) (ps : List (Ball ℝ)),
      (∀ p ∈ ps, 0 < p.radius ∧ ∀ i, lower i ≤ p.position i - p.radius ∧ p.position i + p.radius ≤ upper i) ∧
      absoluteMinimalDistance ((upper 0 - lower 0) * (upper 1 - lower 1) * (upper 2 - lower 2)) lower upper ps =
        .ok (some (12 / 25)) ∧
      ∃ p q, ps[3]? = some p ∧ ps[4]? = some q ∧ gap p q = 9 / 50 := by
  refine ⟨bar.lower, bar.upper, beads, ?_, ?_, ?_⟩
  · intro p hp
    obtain ⟨x, hx, rfl⟩ := List.mem_map.1 hp
    refine ⟨by norm_num [bead], ?_⟩
    have hx' : 1 / 100 ≤ x ∧ x ≤ 8 - 1 / 100 := by
      have : ∀ x ∈ beadPositions, 1 / 100 ≤ x ∧ x ≤ 8 - 1 / 100 := by decide +kernel
      exact this x hx
    have h1 : ((1 / 100 : ℚ) : ℝ) ≤ x := by exact_mod_cast hx'.1
    have h2 : (x : ℝ) ≤ ((8 - 1 / 100 : ℚ) : ℝ) := by exact_mod_cast hx'.2
    push_cast at h1 h2
    intro i
    fin_cases i
    · simp [bead, bar]
      constructor <;> linarith
    · norm_num [bead, bar]
    · norm_num [bead, bar]
  · have hv : (bar.upper 0 - bar.lower 0) * (bar.upper 1 - bar.lower 1) * (bar.upper 2 - bar.lower 2) = 8 := by
      simp [bar]
    rw [hv, absoluteMinimalDistance, bar_divisions, Res.bind_ok']
    obtain ⟨r, h1, h2⟩ := C84_reported bar (fun i => by fin_cases i <;> norm_num [bar]) beads
    have hmem : (12 / 25 : ℝ) ∈ {d | ∃ (i j : ℕ) (p q : Ball ℝ), i < j ∧ beads[i]? = some p ∧ beads[j]? = some q ∧
        bar.Share p q ∧ d = gap p q} := by
      refine ⟨0, 1, bead (2 / 5), bead (9 / 10), by omega, rfl, rfl, ?_, ?_⟩
      · intro i
        refine ⟨1, by simp, 1, by simp, ?_⟩
        fin_cases i
        · have e1 := statCell_bead (2 / 5) 1
          have e2 := statCell_bead (9 / 10) 1
          rw [Int.cast_one] at e1 e2
          refine e1.trans (Eq.trans ?_ e2.symm)
          decide +kernel
        · rfl
        · rfl
      · rw [gap_bead]
        norm_num [abs_of_neg]
    have hlow : ∀ d, (∃ (i j : ℕ) (p q : Ball ℝ), i < j ∧ beads[i]? = some p ∧ beads[j]? = some q ∧
        bar.Share p q ∧ d = gap p q) → 12 / 25 ≤ d := by
      rintro d ⟨i, j, p, q, hij, hp, hq, hs, rfl⟩
      obtain ⟨hi, rfl⟩ := beads_get hp
      obtain ⟨hj, rfl⟩ := beads_get hq
      have := bead_table i hi j hj hij (share_bead _ _ hs)
      rw [gap_bead]
      have h3 : ((12 / 25 : ℚ) : ℝ) ≤ ((|beadPositions.getD i 0 - beadPositions.getD j 0| - 1 / 50 : ℚ) : ℝ) := by
        exact_mod_cast this
      refine le_trans (le_of_eq ?_) h3
      norm_num
    have e : bar = ⟨bar.divisions, bar.lower, bar.upper⟩ := rfl
    rw [← e, h1]
    cases r with
    | none =>
      have : _ = (∅ : Set ℝ) := h2
      rw [this] at hmem
      exact hmem.elim
    | some d =>
      have h3 := h2.2 hmem
      have h4 := hlow d h2.1
      rw [le_antisymm h3 h4]
  · refine ⟨bead (19 / 10), bead (21 / 10), rfl, rfl, ?_⟩
    rw [gap_bead]
    norm_num [abs_of_neg]

/-- The hypotheses of the overlap theorem hold for the bar and its particles, and those of the sections for two balls
cut by a plane. -/
example : (∀ i, 1 ≤ bar.divisions i) ∧ (∀ i, 0 < bar.subLength i) ∧
    ∀ p ∈ beads, 0 ≤ p.radius ∧ ∀ i, 2 * p.radius ≤ bar.subLength i := by
  refine ⟨fun i => by fin_cases i <;> norm_num [bar], fun i => by fin_cases i <;> norm_num [bar, Grid.subLength], ?_⟩
  intro p hp
  obtain ⟨x, -, rfl⟩ := List.mem_map.1 hp
  exact ⟨by norm_num [bead], fun i => by fin_cases i <;> norm_num [bead, bar, Grid.subLength]⟩

example : listed 3 1 ⟨![1, 2, 0], 5⟩ = some ⟨1, 2, 4⟩ ∧ listed 3 5 ⟨![1, 2, 0], 5⟩ = none ∧
    (5 + 5 + 1 : ℝ) ^ 2 ≤ (1 - 13) ^ 2 + (2 - 2) ^ 2 + (0 - 0) ^ 2 := by
  refine ⟨listed_eq_some.2 ?_, ?_, by norm_num⟩
  · have : |((![1, 2, 0] : Fin 3 → ℝ) 2) - 3| = 3 := by simp
    refine ⟨by rw [this]; norm_num, by norm_num, rfl, rfl, by norm_num, ?_⟩
    rw [← sq_abs (_ - _), this]
    norm_num
  · rw [Option.eq_none_iff_forall_ne_some]
    intro c hc
    obtain ⟨-, h2, -, -, -, h6⟩ := listed_eq_some.1 hc
    norm_num at h6
    nlinarith

end NuTo.Collision
