import Verif.Props.VoronoiTriangle
import Verif.Model.SimplexRule
import Mathlib.Analysis.Complex.Basic
import Mathlib.Tactic.FinCases

/-!
C97: where the cells of a triangle do not tile it, the effect of rounding, and a triangle that meets the hypotheses.
-/
namespace NuTo
namespace VoronoiTriangle

/-- C97 is false for points outside of the triangle: the mirror image of such a point takes a part of the triangle, and the cell of a mirror
image is not returned.  In particular the mirror image itself is in no cell. -/
theorem C97_outside_counterexample (ips : List Point) (p : Point) (hp : p ∈ ips) (e : Nat) (he : e < 3) (r : Point)
    (hr : big.mul r = reflect (bigHull.getD e 0) (bigHull.getD ((e + 1) % bigHull.length) 0) (big.mul p)) (hr2 : r ∉ ips) :
    ∀ q ∈ ips, ¬ ∀ s ∈ reflectPointsOnHull (ips.map big.mul) bigHull, dist2 (big.mul r) (big.mul q) ≤ dist2 (big.mul r) s := by
  intro q hq h
  have h1 := h (big.mul r) (List.mem_append_right _ (List.mem_flatMap.mpr ⟨e, List.mem_range.mpr (by simpa [bigHull] using he), by
    rw [hr]
    exact List.mem_map_of_mem (f := fun p => reflect (bigHull.getD e 0) (bigHull.getD ((e + 1) % bigHull.length) 0) p) (List.mem_map_of_mem hp)⟩))
  have h2 : dist2 (big.mul r) (big.mul r) = 0 := by simp [dist2]
  rw [h2, big_dist] at h1
  have h3 : equilateral2 r q ≤ 0 := by nlinarith
  simp only [equilateral2] at h3
  have h4 : r.2 - q.2 = 0 := by
    have : (r.2 - q.2) ^ 2 ≤ 0 := by nlinarith [sq_nonneg (r.1 - q.1 + (r.2 - q.2) / 2), sq_nonneg (r.2 - q.2)]
    exact pow_eq_zero_iff (two_ne_zero) |>.mp (le_antisymm this (sq_nonneg _))
  have h5 : r.1 - q.1 = 0 := by
    rw [h4] at h3
    have : (r.1 - q.1) ^ 2 ≤ 0 := by nlinarith
    exact pow_eq_zero_iff (two_ne_zero) |>.mp (le_antisymm this (sq_nonneg _))
  exact hr2 (by rwa [show r = q from Prod.ext (by linarith) (by linarith)])

/-- The integration points of the rule with the given order -/
noncomputable def rule (order : Nat) : List Point :=
  (SimplexRule.triangleTable.getD (order - 1) []).map fun p => ((SimplexRule.coord p.1 : ℝ), (SimplexRule.coord p.2.1 : ℝ))

theorem rule_mem (order : Nat) (x y : ℚ) : ((x : ℝ), (y : ℝ)) ∈ rule order ↔
    (x, y) ∈ (SimplexRule.triangleTable.getD (order - 1) []).map fun p => (SimplexRule.coord p.1, SimplexRule.coord p.2.1) := by
  simp [rule, List.mem_map, Prod.ext_iff]

/-- C97 is false for the rule of order 11: a point of the triangle is in no cell. -/
theorem C97_order11_counterexample : ∃ r ∈ triangle, ∀ q ∈ rule 11,
    ¬ ∀ s ∈ reflectPointsOnHull ((rule 11).map big.mul) bigHull, dist2 (big.mul r) (big.mul q) ≤ dist2 (big.mul r) s := by
  have hp : (((534611048270758 / 10 ^ 15 : ℚ) : ℝ), ((-69222096541517009 / 10 ^ 18 : ℚ) : ℝ)) ∈ rule 11 := by rw [rule_mem]; decide +kernel
  have hr : (((534611048270758 / 10 ^ 15 - 69222096541517009 / 10 ^ 18 : ℚ) : ℝ), ((69222096541517009 / 10 ^ 18 : ℚ) : ℝ)) ∉ rule 11 := by rw [rule_mem]; decide +kernel
  refine ⟨_, ?_, C97_outside_counterexample (rule 11) _ hp 0 (by norm_num) _ ?_ hr⟩
  · simp only [triangle, Set.mem_ofPred_eq]; norm_num
  · have e := bigHull_edges 0 (by simp [bigHull])
    rw [reflect_eq e]
    simp only [bigHull, List.map_cons, List.map_nil, List.getD_cons_zero, List.getD_cons_succ, List.length_cons, List.length_nil, Nat.reduceAdd,
      Nat.reduceMod, big, Matrix.mul, Matrix.scale, toEquilateral, dist2]
    generalize Real.sqrt 0.75 = s
    push_cast
    refine Prod.ext ?_ ?_
    · norm_num
    · norm_num

/-- the square of the distance for rational points -/
def equilateral2Q (x y : ℚ × ℚ) : ℚ := (x.1 - y.1) ^ 2 + (x.1 - y.1) * (x.2 - y.2) + (x.2 - y.2) ^ 2

/-- integration point `i` of a rule -/
def ip (order i : Nat) : ℚ × ℚ :=
  ((SimplexRule.triangleTable.getD (order - 1) []).map fun p => (SimplexRule.coord p.1, SimplexRule.coord p.2.1)).getD i 0

/-- a rational point as a point -/
noncomputable def point (x : ℚ × ℚ) : Point := ((x.1 : ℝ), (x.2 : ℝ))

theorem region_iff (order : Nat) (x p : ℚ × ℚ) : point x ∈ region (rule order) (point p) ↔ (0 ≤ x.1 ∧ 0 ≤ x.2 ∧ x.1 + x.2 ≤ 1) ∧
    ∀ q ∈ (SimplexRule.triangleTable.getD (order - 1) []).map fun p => (SimplexRule.coord p.1, SimplexRule.coord p.2.1),
      equilateral2Q x p ≤ equilateral2Q x q := by
  have hc : ∀ a b : ℚ × ℚ, equilateral2 (point a) (point b) = (equilateral2Q a b : ℝ) := by
    intro a b
    simp only [equilateral2, equilateral2Q, point]
    push_cast
    ring
  have hr : rule order = ((SimplexRule.triangleTable.getD (order - 1) []).map fun p => (SimplexRule.coord p.1, SimplexRule.coord p.2.1)).map point := by
    rw [rule, List.map_map]; rfl
  rw [hr]
  simp only [region, triangle, Set.mem_ofPred_eq, List.forall_mem_map (f := point), hc, Rat.cast_le]
  apply and_congr_left'
  simp only [point]
  norm_cast

/-- a corner of the cells 1, 8 and 13 of the rule of order 9 -/
def cornerV : ℚ × ℚ := (2801716971076843078832930714172298548030945533 / 8328412523336593101637913866625000000000000000, 19722052168956944975635353815658818265351990851 / 33313650093346372406551655466500000000000000000)

/-- a corner of the cells 1, 4 and 8 of the rule of order 9 -/
def cornerW : ℚ × ℚ := (3815686331058552249844129939401 / 11338265446429740625000000000000, 214153659785972016919906977609219 / 362824494285751700000000000000000)

/-- C97 is false for the rule of order 9: two corners of cells are so close that they are merged.  Whichever comes first, a cell gets a corner
that does not belong to its region. -/
theorem C97_merged_counterexample :
    (∀ i ∈ [1, 8, 13], point cornerV ∈ region (rule 9) (point (ip 9 i))) ∧ (∀ i ∈ [1, 4, 8], point cornerW ∈ region (rule 9) (point (ip 9 i))) ∧
    point cornerV ∉ region (rule 9) (point (ip 9 4)) ∧ point cornerW ∉ region (rule 9) (point (ip 9 13)) ∧
    addUnique [point cornerV] (point cornerW) = ([point cornerV], 0) ∧ addUnique [point cornerW] (point cornerV) = ([point cornerW], 0) := by
  refine ⟨?_, ?_, ?_, ?_, ?_, ?_⟩
  · intro i hi
    rw [region_iff]
    revert i
    decide +kernel
  · intro i hi
    rw [region_iff]
    revert i
    decide +kernel
  · rw [region_iff]
    decide +kernel
  · rw [region_iff]
    decide +kernel
  · have : dot (point cornerW - point cornerV) (point cornerW - point cornerV) < 1e-4 := by
      simp only [dot, point, cornerV, cornerW, Prod.mk_sub_mk]
      norm_num
    simp [addUnique, List.findIdx?_cons, this]
  · have : dot (point cornerV - point cornerW) (point cornerV - point cornerW) < 1e-4 := by
      simp only [dot, point, cornerV, cornerW, Prod.mk_sub_mk]
      norm_num
    simp [addUnique, List.findIdx?_cons, this]

/-- C97: the effect of rounding.  If every site is moved by at most `ε` (boost cuts coordinates to integers) a point of the moved cell is almost
closest to its integration point, and it is at most `ε |x - p| / distance of p to the edge` outside of the triangle. -/
theorem C97_rounded (hull points : List Point) (hh : ∀ e < hull.length, 0 < dist2 (hull.getD e 0) (hull.getD ((e + 1) % hull.length) 0))
    (move : Point → Point) (ε : ℝ) (hε : ∀ q ∈ reflectPointsOnHull points hull, Real.sqrt (dist2 (move q) q) ≤ ε) (p : Point) (h : p ∈ points)
    (x : Point) (hx : ∀ q ∈ reflectPointsOnHull points hull, dist2 x (move p) ≤ dist2 x (move q)) :
    (∀ q ∈ points, Real.sqrt (dist2 x p) ≤ Real.sqrt (dist2 x q) + 2 * ε) ∧
    ∀ e < hull.length, -(ε * Real.sqrt (dist2 x p)) * dist2 (hull.getD e 0) (hull.getD ((e + 1) % hull.length) 0) ≤
      side (hull.getD e 0) (hull.getD ((e + 1) % hull.length) 0) x * side (hull.getD e 0) (hull.getD ((e + 1) % hull.length) 0) p := by
  have hn : ∀ a b : Point, Real.sqrt (dist2 a b) = dist (Complex.mk a.1 a.2) (Complex.mk b.1 b.2) := by
    intro a b
    rw [Complex.dist_eq_re_im]; rfl
  have hmem : p ∈ reflectPointsOnHull points hull := List.mem_append_left _ h
  have hnear : ∀ q ∈ reflectPointsOnHull points hull, Real.sqrt (dist2 x p) ≤ Real.sqrt (dist2 x q) + 2 * ε := by
    intro q hq
    have h1 := Real.sqrt_le_sqrt (hx q hq)
    have h2 := hε p hmem
    have h3 := hε q hq
    rw [hn] at h1 h2 h3 ⊢
    rw [hn] at h1 ⊢
    have h4 := dist_triangle (Complex.mk x.1 x.2) (Complex.mk (move p).1 (move p).2) (Complex.mk p.1 p.2)
    have h5 := dist_triangle (Complex.mk x.1 x.2) (Complex.mk q.1 q.2) (Complex.mk (move q).1 (move q).2)
    rw [dist_comm (Complex.mk q.1 q.2)] at h5
    linarith
  refine ⟨fun q hq => hnear q (List.mem_append_left _ hq), ?_⟩
  intro e he
  have h1 := hnear (reflect (hull.getD e 0) (hull.getD ((e + 1) % hull.length) 0) p) (List.mem_append_right _
    (List.mem_flatMap.mpr ⟨e, List.mem_range.mpr he, List.mem_map_of_mem h⟩))
  have h2 := dist_reflect (hh e he) p x
  have hD := hh e he
  obtain ⟨D, hD'⟩ : ∃ D, D = dist2 (hull.getD e 0) (hull.getD ((e + 1) % hull.length) 0) := ⟨_, rfl⟩
  obtain ⟨S, hS⟩ : ∃ S, S = side (hull.getD e 0) (hull.getD ((e + 1) % hull.length) 0) x *
    side (hull.getD e 0) (hull.getD ((e + 1) % hull.length) 0) p := ⟨_, rfl⟩
  obtain ⟨A, hA⟩ : ∃ A, A = Real.sqrt (dist2 x (reflect (hull.getD e 0) (hull.getD ((e + 1) % hull.length) 0) p)) := ⟨_, rfl⟩
  obtain ⟨B, hB⟩ : ∃ B, B = Real.sqrt (dist2 x p) := ⟨_, rfl⟩
  have hpos : ∀ a b : Point, 0 ≤ dist2 a b := by intro a b; simp only [dist2]; positivity
  have hA2 : A ^ 2 = dist2 x (reflect (hull.getD e 0) (hull.getD ((e + 1) % hull.length) 0) p) := by rw [hA]; exact Real.sq_sqrt (hpos _ _)
  have hB2 : B ^ 2 = dist2 x p := by rw [hB]; exact Real.sq_sqrt (hpos _ _)
  have hA0 : 0 ≤ A := by rw [hA]; exact Real.sqrt_nonneg _
  have hB0 : 0 ≤ B := by rw [hB]; exact Real.sqrt_nonneg _
  have hε0 : 0 ≤ ε := (Real.sqrt_nonneg _).trans (hε p hmem)
  rw [← hA2, ← hB2, ← hD', ← hS, eq_div_iff (hD' ▸ hD.ne')] at h2
  rw [← hD'] at hD
  rw [← hA, ← hB] at h1
  rw [← hD', ← hS, ← hB]
  have h3 : -(4 * ε * B) ≤ A ^ 2 - B ^ 2 := by
    rcases le_total B A with hle | hle
    · have : 0 ≤ A ^ 2 - B ^ 2 := by nlinarith
      have : 0 ≤ ε * B := mul_nonneg hε0 hB0
      linarith
    · have h4 : (B - A) * (A + B) ≤ 2 * ε * (2 * B) := mul_le_mul (by linarith) (by linarith) (by linarith) (by linarith)
      nlinarith
  nlinarith [mul_le_mul_of_nonneg_right h3 hD.le]

/-- the hypotheses of `C97_rounded` hold for the big triangle and a shift of all sites -/
example : (∀ q ∈ reflectPointsOnHull [big.mul (1 / 3, 1 / 3)] bigHull, Real.sqrt (dist2 (q + ((1, 0) : Point)) q) ≤ 1) ∧
    ∀ e < bigHull.length, 0 < dist2 (bigHull.getD e 0) (bigHull.getD ((e + 1) % bigHull.length) 0) := by
  refine ⟨fun q _ => ?_, bigHull_edges⟩
  simp [dist2]

/-- the corners of the reference triangle -/
def corners : List Point := [(0, 0), (1, 0), (0, 1)]

theorem hull_corners : convexHull ℝ {x | x ∈ corners} = triangle := by
  apply Set.Subset.antisymm
  · apply convexHull_min
    · intro x hx
      simp only [corners, Set.mem_ofPred_eq, List.mem_cons, List.not_mem_nil, or_false] at hx
      rcases hx with rfl | rfl | rfl <;> simp [triangle]
    · rintro x ⟨h1, h2, h3⟩ y ⟨g1, g2, g3⟩ a b ha hb hab
      simp only [triangle, Set.mem_ofPred_eq, Prod.fst_add, Prod.snd_add, Prod.smul_fst, Prod.smul_snd, smul_eq_mul]
      refine ⟨by positivity, by positivity, ?_⟩
      nlinarith
  · rintro x ⟨h1, h2, h3⟩
    have hc : ∀ c ∈ corners, c ∈ convexHull ℝ {x | x ∈ corners} := fun c hc => subset_convexHull ℝ _ hc
    have hconv := convex_convexHull ℝ {x | x ∈ corners}
    have := hconv.sum_mem (t := Finset.univ) (w := ![1 - x.1 - x.2, x.1, x.2]) (z := ![(0, 0), (1, 0), (0, 1)])
      (by intro i _; fin_cases i <;> simp <;> linarith) (by simp [Fin.sum_univ_three]; ring)
      (by intro i _; fin_cases i <;> exact hc _ (by simp [corners]))
    simpa [Fin.sum_univ_three] using this

theorem corners_extreme : {x | x ∈ corners} ⊆ triangle.extremePoints ℝ := by
  intro x hx
  have hx' : x ∈ triangle := by rw [← hull_corners]; exact subset_convexHull ℝ _ hx
  refine mem_extremePoints.mpr ⟨hx', ?_⟩
  rintro y ⟨h1, h2, h3⟩ z ⟨g1, g2, g3⟩ ⟨a, b, ha, hb, hab, rfl⟩
  simp only [corners, Set.mem_ofPred_eq, List.mem_cons, List.not_mem_nil, or_false, Prod.ext_iff, Prod.fst_add, Prod.snd_add, Prod.smul_fst,
    Prod.smul_snd, smul_eq_mul] at hx ⊢
  have k : ∀ u v : ℝ, 0 ≤ u → 0 ≤ v → a * u + b * v = 0 → u = 0 ∧ v = 0 := by
    intro u v hu hv h
    have h1 : a * u = 0 := by nlinarith [mul_nonneg ha.le hu, mul_nonneg hb.le hv]
    have h2 : b * v = 0 := by nlinarith [mul_nonneg ha.le hu, mul_nonneg hb.le hv]
    exact ⟨(mul_eq_zero.mp h1).resolve_left ha.ne', (mul_eq_zero.mp h2).resolve_left hb.ne'⟩
  rcases hx with ⟨e1, e2⟩ | ⟨e1, e2⟩ | ⟨e1, e2⟩
  · obtain ⟨r1, r2⟩ := k _ _ h1 g1 e1
    obtain ⟨r3, r4⟩ := k _ _ h2 g2 e2
    simp [r1, r2, r3, r4]
  · obtain ⟨r3, r4⟩ := k _ _ h2 g2 e2
    obtain ⟨r1, r2⟩ := k (1 - y.1 - y.2) (1 - z.1 - z.2) (by linarith) (by linarith) (by linear_combination hab - e1 - e2)
    have s1 : y.1 = 1 := by linarith
    have s2 : z.1 = 1 := by linarith
    simp [s1, s2, r3, r4, hab]
  · obtain ⟨r3, r4⟩ := k _ _ h1 g1 e1
    obtain ⟨r1, r2⟩ := k (1 - y.1 - y.2) (1 - z.1 - z.2) (by linarith) (by linarith) (by linear_combination hab - e1 - e2)
    have s1 : y.2 = 1 := by linarith
    have s2 : z.2 = 1 := by linarith
    simp [s1, s2, r3, r4, hab]

/-- the diagram for one integration point: its cell is the triangle, the cells of the mirror images are not used -/
noncomputable def exDiagram (_ : List Point) : List Cell := [(0, (corners.map big.mul).map some)]

/-- the hypotheses of `C97_tiles_partial` hold for the rule with one point -/
example : ∃ g, voronoiGeometryTriangle exDiagram [(1 / 3, 1 / 3)] = .ok g ∧ g.2.length = 1 ∧
    convexHull ℝ {x | ∃ id ∈ g.2.getD 0 [], g.1[id]? = some x} = triangle := by
  have hin : ∀ p ∈ [((1 / 3, 1 / 3) : Point)], 0 < p.1 ∧ 0 < p.2 ∧ p.1 + p.2 < 1 := by
    intro p hp
    rw [List.mem_singleton.mp hp]
    norm_num
  have hreg : region [(1 / 3, 1 / 3)] (1 / 3, 1 / 3) = triangle := by
    ext y
    simp [region]
  have hsite : {x | ∀ q ∈ reflectPointsOnHull ([((1 / 3, 1 / 3) : Point)].map big.mul) bigHull, dist2 x (big.mul (1 / 3, 1 / 3)) ≤ dist2 x q} =
      bigEquiv '' triangle := by
    ext x
    obtain ⟨y, rfl⟩ := bigEquiv.surjective x
    rw [bigEquiv.injective.mem_set_image, ← hreg, ← C97_region _ hin (1 / 3, 1 / 3) (by simp) y]
    rfl
  have himage : {x | x ∈ corners.map big.mul} = bigEquiv '' {x | x ∈ corners} := by
    ext x
    simp only [Set.mem_ofPred_eq, List.mem_map, Set.mem_image]
    rfl
  obtain ⟨g, h1, h2, h3⟩ := C97_tiles_partial exDiagram [(1 / 3, 1 / 3)] hin (by simp)
    ⟨by simp [exDiagram], by
      intro i hi hn _
      have hi0 : i = 0 := by simpa using hn
      subst hi0
      exact ⟨_, List.mem_cons_self⟩, by
      intro i hi hn vs hvs _
      have hi0 : i = 0 := by simpa using hn
      subst hi0
      refine ⟨corners.map big.mul, (Prod.ext_iff.mp (List.mem_singleton.mp hvs)).2, ?_, ?_⟩
      · change _ = {x | ∀ q ∈ reflectPointsOnHull ([((1 / 3, 1 / 3) : Point)].map big.mul) bigHull, dist2 x (big.mul (1 / 3, 1 / 3)) ≤ dist2 x q}
        rw [hsite, himage, ← hull_corners, ← LinearEquiv.coe_coe, LinearMap.image_convexHull]
      · change _ ⊆ Set.extremePoints ℝ
          {x | ∀ q ∈ reflectPointsOnHull ([((1 / 3, 1 / 3) : Point)].map big.mul) bigHull, dist2 x (big.mul (1 / 3, 1 / 3)) ≤ dist2 x q}
        rw [hsite, himage, ← image_extremePoints bigEquiv]
        exact Set.image_mono corners_extreme⟩
    (by
      intro p hp q hq v hv w hw
      rw [List.mem_singleton.mp hp, hreg] at hv
      rw [List.mem_singleton.mp hq, hreg] at hw
      rw [← hull_corners] at hv hw
      have hv' := extremePoints_convexHull_subset hv
      have hw' := extremePoints_convexHull_subset hw
      simp only [corners, Set.mem_ofPred_eq, List.mem_cons, List.not_mem_nil, or_false] at hv' hw'
      rcases hv' with rfl | rfl | rfl <;> rcases hw' with rfl | rfl | rfl <;> first | exact .inl rfl | (right; simp only [dist2]; norm_num))
  refine ⟨g, h1, h2, ?_⟩
  have := (h3 0 (by simp)).2
  rw [this]
  exact hreg

end VoronoiTriangle
end NuTo
