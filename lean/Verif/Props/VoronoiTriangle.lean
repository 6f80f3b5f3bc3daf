import Verif.Lemmas.VoronoiTriangle
import Mathlib.Analysis.Convex.Extreme
import Mathlib.Analysis.Convex.Topology
import Mathlib.Topology.Bornology.Constructions

/-!
C97: the Voronoi cells of the integration points of a triangle tile the triangle.
-/
namespace NuTo
namespace VoronoiTriangle

/-- C97: the trick with the mirror images works for every polygon: if all points are inside, the points closest to `p` among all points and
mirror images are exactly the points of the polygon that are closest to `p` among the points. -/
theorem C97_cell (hull points : List Point) (hh : ∀ e < hull.length, 0 < dist2 (hull.getD e 0) (hull.getD ((e + 1) % hull.length) 0))
    (hp : ∀ p ∈ points, ∀ e < hull.length, 0 < side (hull.getD e 0) (hull.getD ((e + 1) % hull.length) 0) p) (p : Point) (h : p ∈ points)
    (x : Point) : (∀ q ∈ reflectPointsOnHull points hull, dist2 x p ≤ dist2 x q) ↔
      (∀ e < hull.length, 0 ≤ side (hull.getD e 0) (hull.getD ((e + 1) % hull.length) 0) x) ∧ ∀ q ∈ points, dist2 x p ≤ dist2 x q := by
  constructor
  · intro hx
    refine ⟨?_, fun q hq => hx q (List.mem_append_left _ hq)⟩
    intro e he
    have h1 := hx (reflect (hull.getD e 0) (hull.getD ((e + 1) % hull.length) 0) p) (List.mem_append_right _
      (List.mem_flatMap.mpr ⟨e, List.mem_range.mpr he, List.mem_map_of_mem h⟩))
    have h2 := dist_reflect (hh e he) p x
    have h3 := hp p h e he
    have h4 : 0 ≤ 4 * (side (hull.getD e 0) (hull.getD ((e + 1) % hull.length) 0) x *
        side (hull.getD e 0) (hull.getD ((e + 1) % hull.length) 0) p) / dist2 (hull.getD e 0) (hull.getD ((e + 1) % hull.length) 0) := by
      rw [← h2]; linarith
    by_contra hneg
    rw [not_le] at hneg
    have h5 := div_neg_of_neg_of_pos (mul_neg_of_pos_of_neg (by norm_num : (0 : ℝ) < 4) (mul_neg_of_neg_of_pos hneg h3)) (hh e he)
    linarith
  · rintro ⟨h1, h2⟩ q hq
    rcases List.mem_append.mp hq with hq | hq
    · exact h2 q hq
    · obtain ⟨e, he, hq⟩ := List.mem_flatMap.mp hq
      obtain ⟨r, hr, rfl⟩ := List.mem_map.mp hq
      rw [List.mem_range] at he
      have h3 := dist_reflect (hh e he) r x
      have h4 := hp r hr e he
      have h5 : 0 ≤ 4 * (side (hull.getD e 0) (hull.getD ((e + 1) % hull.length) 0) x *
          side (hull.getD e 0) (hull.getD ((e + 1) % hull.length) 0) r) / dist2 (hull.getD e 0) (hull.getD ((e + 1) % hull.length) 0) :=
        div_nonneg (mul_nonneg (by norm_num) (mul_nonneg (h1 e he) h4.le)) (hh e he).le
      have h6 := h2 r hr
      linarith

/-- The reference triangle -/
def triangle : Set Point := {y | 0 ≤ y.1 ∧ 0 ≤ y.2 ∧ y.1 + y.2 ≤ 1}

/-- The square of the distance after the triangle has been mapped to an equilateral one -/
def equilateral2 (x y : Point) : ℝ := (x.1 - y.1) ^ 2 + (x.1 - y.1) * (x.2 - y.2) + (x.2 - y.2) ^ 2

/-- The points of the triangle that are closest to the point `p` -/
def region (ips : List Point) (p : Point) : Set Point := {y | y ∈ triangle ∧ ∀ q ∈ ips, equilateral2 y p ≤ equilateral2 y q}

/-- A Voronoi diagram, what boost promises for the first `n` sites: each site that is different from all others has a cell, no site has two,
and a bounded cell is the polygon of the first points of its edges, which are corners of the cell. -/
structure IsDiagram (n : Nat) (sites : List Point) (d : List Cell) : Prop where
  nodup : (d.map Prod.fst).Nodup
  cell : ∀ i (hi : i < sites.length), i < n → (∀ j (hj : j < sites.length), sites[i] = sites[j] → i = j) → ∃ vs, (i, vs) ∈ d
  bounded : ∀ i (hi : i < sites.length), i < n → ∀ vs, (i, vs) ∈ d →
    Bornology.IsBounded {x | ∀ q ∈ sites, dist2 x sites[i] ≤ dist2 x q} → ∃ ps : List Point, vs = ps.map some ∧
      convexHull ℝ {x | x ∈ ps} = {x | ∀ q ∈ sites, dist2 x sites[i] ≤ dist2 x q} ∧
      {x | x ∈ ps} ⊆ Set.extremePoints ℝ {x | ∀ q ∈ sites, dist2 x sites[i] ≤ dist2 x q}

/-- the map to the equilateral triangle -/
noncomputable def big : Matrix := toEquilateral.scale 1e6

theorem big_dist (x y : Point) : dist2 (big.mul x) (big.mul y) = 1e12 * equilateral2 x y := by
  have h : Real.sqrt 0.75 ^ 2 = 0.75 := Real.sq_sqrt (by norm_num)
  simp only [dist2, big, Matrix.mul, Matrix.scale, toEquilateral, equilateral2]
  linear_combination (1e12 * (x.2 - y.2) ^ 2) * h

theorem big_side (a b x : Point) : side (big.mul a) (big.mul b) (big.mul x) = 1e12 * Real.sqrt 0.75 * side a b x := by
  simp only [side, big, Matrix.mul, Matrix.scale, toEquilateral]
  ring

theorem sqrt_pos : 0 < Real.sqrt 0.75 := Real.sqrt_pos.mpr (by norm_num)

/-- the map and its inverse -/
noncomputable def bigEquiv : Point ≃ₗ[ℝ] Point where
  toFun := big.mul
  invFun := big.solve
  map_add' x y := by simp only [Matrix.mul, Prod.fst_add, Prod.snd_add, Prod.mk_add_mk]; congr 1 <;> ring
  map_smul' r x := by
    simp only [Matrix.mul, Prod.smul_fst, Prod.smul_snd, Prod.smul_mk, smul_eq_mul, RingHom.id_apply]; congr 1 <;> ring
  left_inv x := by
    have h := sqrt_pos.ne'
    simp only [Matrix.mul, Matrix.solve, big, Matrix.scale, toEquilateral, Prod.ext_iff]
    generalize Real.sqrt 0.75 = s at h
    have e : (1e6 * 1 * (1e6 * s) - 1e6 * 0.5 * (1e6 * 0) : ℝ) = 1e12 * s := by ring
    have h' : (1e12 * s : ℝ) ≠ 0 := mul_ne_zero (by norm_num) h
    rw [e]
    constructor
    · field_simp; ring
    · field_simp; ring
  right_inv x := by
    have h := sqrt_pos.ne'
    simp only [Matrix.mul, Matrix.solve, big, Matrix.scale, toEquilateral, Prod.ext_iff]
    generalize Real.sqrt 0.75 = s at h
    have e : (1e6 * 1 * (1e6 * s) - 1e6 * 0.5 * (1e6 * 0) : ℝ) = 1e12 * s := by ring
    have h' : (1e12 * s : ℝ) ≠ 0 := mul_ne_zero (by norm_num) h
    rw [e]
    constructor
    · field_simp; ring
    · field_simp; ring

/-- the triangle after the map -/
noncomputable def bigHull : List Point := [(0, 0), (1, 0), (0, 1)].map big.mul

theorem bigHull_edges : ∀ e < bigHull.length, 0 < dist2 (bigHull.getD e 0) (bigHull.getD ((e + 1) % bigHull.length) 0) := by
  intro e he
  have : e = 0 ∨ e = 1 ∨ e = 2 := by simp [bigHull] at he; omega
  rcases this with rfl | rfl | rfl <;> simp only [bigHull, List.map_cons, List.map_nil, List.length_cons, List.length_nil, List.getD_cons_zero,
    List.getD_cons_succ, Nat.reduceAdd, Nat.reduceMod, big_dist, equilateral2] <;> norm_num

theorem bigHull_side (x : Point) (rel : ℝ → Prop) (hrel : ∀ (c r : ℝ), 0 < c → (rel (c * r) ↔ rel r)) :
    (∀ e < bigHull.length, rel (side (bigHull.getD e 0) (bigHull.getD ((e + 1) % bigHull.length) 0) (big.mul x))) ↔
      rel x.2 ∧ rel (1 - x.1 - x.2) ∧ rel x.1 := by
  have hc : (0 : ℝ) < 1e12 * Real.sqrt 0.75 := mul_pos (by norm_num) sqrt_pos
  have h : ∀ a b : Point, rel (side (big.mul a) (big.mul b) (big.mul x)) ↔ rel (side a b x) := by
    intro a b
    rw [big_side, hrel _ _ hc]
  have e0 : side (0, 0) (1, 0) x = x.2 := by simp only [side]; ring
  have e1 : side (1, 0) (0, 1) x = 1 - x.1 - x.2 := by simp only [side]; ring
  have e2 : side (0, 1) (0, 0) x = x.1 := by simp only [side]; ring
  constructor
  · intro hx
    have h0 := hx 0 (by simp [bigHull])
    have h1 := hx 1 (by simp [bigHull])
    have h2 := hx 2 (by simp [bigHull])
    simp only [bigHull, List.map_cons, List.map_nil, List.length_cons, List.length_nil, List.getD_cons_zero, List.getD_cons_succ, Nat.reduceAdd,
      Nat.reduceMod, h, e0, e1, e2] at h0 h1 h2
    exact ⟨h0, h1, h2⟩
  · rintro ⟨h0, h1, h2⟩ e he
    have : e = 0 ∨ e = 1 ∨ e = 2 := by simp [bigHull] at he; omega
    rcases this with rfl | rfl | rfl <;> simp only [bigHull, List.map_cons, List.map_nil, List.length_cons, List.length_nil, List.getD_cons_zero,
      List.getD_cons_succ, Nat.reduceAdd, Nat.reduceMod, h, e0, e1, e2] <;> assumption

/-- The points closest to `p` among all points and mirror images are the region of `p`. -/
theorem C97_region (ips : List Point) (hin : ∀ p ∈ ips, 0 < p.1 ∧ 0 < p.2 ∧ p.1 + p.2 < 1) (p : Point) (hp : p ∈ ips) (y : Point) :
    (∀ q ∈ reflectPointsOnHull (ips.map big.mul) bigHull, dist2 (big.mul y) (big.mul p) ≤ dist2 (big.mul y) q) ↔ y ∈ region ips p := by
  have hpos : ∀ q ∈ ips.map big.mul, ∀ e < bigHull.length, 0 < side (bigHull.getD e 0) (bigHull.getD ((e + 1) % bigHull.length) 0) q := by
    intro q hq
    obtain ⟨r, hr, rfl⟩ := List.mem_map.mp hq
    obtain ⟨h1, h2, h3⟩ := hin r hr
    exact (bigHull_side r (fun z => 0 < z) fun c z hc => mul_pos_iff_of_pos_left hc).mpr ⟨h2, by linarith, h1⟩
  rw [C97_cell bigHull (ips.map big.mul) bigHull_edges hpos _ (List.mem_map_of_mem hp),
    bigHull_side y (fun z => 0 ≤ z) fun c z hc => mul_nonneg_iff_of_pos_left hc]
  simp only [List.forall_mem_map, big_dist, region, triangle, Set.mem_ofPred_eq]
  constructor
  · rintro ⟨⟨h1, h2, h3⟩, h4⟩
    exact ⟨⟨h3, h1, by linarith⟩, fun q hq => le_of_mul_le_mul_left (h4 q hq) (by norm_num)⟩
  · rintro ⟨⟨h1, h2, h3⟩, h4⟩
    exact ⟨⟨h2, by linarith, h1⟩, fun q hq => mul_le_mul_of_nonneg_left (h4 q hq) (by norm_num)⟩

/-- C97: for all integration points inside of the triangle, and any diagram as boost promises it, the cells that are returned are exactly the
regions of the points: cell `i` is the polygon of its corners, and that polygon consists of the points of the triangle that are closest
to integration point `i`.

Partial: corners closer than 0.01 are merged, so that corners of different places must not be that close; and for points outside of the
triangle, as several of the rules have them, the statement is false, see below. -/
theorem C97_tiles_partial (diagram : List Point → List Cell) (ips : List Point) (hin : ∀ p ∈ ips, 0 < p.1 ∧ 0 < p.2 ∧ p.1 + p.2 < 1)
    (hnd : ips.Nodup) (hd : IsDiagram ips.length (reflectPointsOnHull (ips.map big.mul) bigHull)
      (diagram (reflectPointsOnHull (ips.map big.mul) bigHull)))
    (hsep : ∀ p ∈ ips, ∀ q ∈ ips, ∀ v ∈ (region ips p).extremePoints ℝ, ∀ w ∈ (region ips q).extremePoints ℝ, v = w ∨ 1e-4 ≤ dist2 v w) :
    ∃ g, voronoiGeometryTriangle diagram ips = .ok g ∧ g.2.length = ips.length ∧ ∀ i (hi : i < ips.length),
      (∀ id ∈ g.2.getD i [], id < g.1.length) ∧ convexHull ℝ {x | ∃ id ∈ g.2.getD i [], g.1[id]? = some x} = region ips ips[i] := by
  obtain ⟨sites, hsites⟩ : ∃ s, s = reflectPointsOnHull (ips.map big.mul) bigHull := ⟨_, rfl⟩
  rw [← hsites] at hd
  have hlen : ips.length ≤ sites.length := by simp [hsites, reflectPointsOnHull]
  have hsite : ∀ i (hi : i < ips.length), sites[i]'(by omega) = big.mul ips[i] := by
    intro i hi
    simp only [hsites, reflectPointsOnHull]
    rw [List.getElem_append_left (by simpa using hi), List.getElem_map]
  have hsitesMem : ∀ q ∈ reflectPointsOnHull (ips.map big.mul) bigHull, q ∈ sites := by rw [hsites]; exact fun q hq => hq
  have hreg : ∀ i (hi : i < ips.length), {x | ∀ q ∈ sites, dist2 x (sites[i]'(by omega)) ≤ dist2 x q} = bigEquiv '' region ips ips[i] := by
    intro i hi
    ext x
    obtain ⟨y, rfl⟩ := bigEquiv.surjective x
    rw [bigEquiv.injective.mem_set_image, ← C97_region ips hin ips[i] (List.getElem_mem hi) y, Set.mem_ofPred_eq, hsite i hi, hsites]
    rfl
  have hbdd : ∀ i (hi : i < ips.length), Bornology.IsBounded {x | ∀ q ∈ sites, dist2 x (sites[i]'(by omega)) ≤ dist2 x q} := by
    intro i hi
    rw [hreg i hi]
    apply Bornology.IsBounded.subset (Bornology.IsBounded.prod (Metric.isBounded_Icc (0 : ℝ) 1e6) (Metric.isBounded_Icc (0 : ℝ) 1e6))
    rintro x ⟨y, ⟨⟨h1, h2, h3⟩, -⟩, rfl⟩
    have hs : Real.sqrt 0.75 ≤ 1 := Real.sqrt_le_one.mpr (by norm_num)
    have hs0 := sqrt_pos
    change big.mul y ∈ _
    simp only [Matrix.mul, big, Matrix.scale, toEquilateral, Set.mem_prod, Set.mem_Icc]
    refine ⟨⟨by nlinarith, by nlinarith⟩, by positivity, ?_⟩
    have : Real.sqrt 0.75 * y.2 ≤ 1 * 1 := mul_le_mul hs (by linarith) h2 (by norm_num)
    nlinarith
  have huniq : ∀ i (hi : i < ips.length), ∀ j (hj : j < sites.length), sites[i]'(by omega) = sites[j] → i = j := by
    intro i hi j hj hij
    by_cases hjn : j < ips.length
    · rw [hsite i hi, hsite j hjn] at hij
      exact (List.Nodup.getElem_inj_iff hnd).mp (bigEquiv.injective hij)
    · exfalso
      have hmem : sites[j] ∈ (List.range bigHull.length).flatMap fun e => (ips.map big.mul).map fun p =>
          reflect (bigHull.getD e 0) (bigHull.getD ((e + 1) % bigHull.length) 0) p := by
        simp only [hsites, reflectPointsOnHull]
        rw [List.getElem_append_right (by simpa using hjn)]
        exact List.getElem_mem _
      obtain ⟨e, he, hq⟩ := List.mem_flatMap.mp hmem
      obtain ⟨r, hr, hq⟩ := List.mem_map.mp hq
      obtain ⟨r', hr', rfl⟩ := List.mem_map.mp hr
      rw [List.mem_range] at he
      have hpos : ∀ q ∈ ips, 0 < side (bigHull.getD e 0) (bigHull.getD ((e + 1) % bigHull.length) 0) (big.mul q) := by
        intro q hq
        obtain ⟨h1, h2, h3⟩ := hin q hq
        exact (bigHull_side q (fun z => 0 < z) fun c z hc => mul_pos_iff_of_pos_left hc).mpr ⟨h2, by linarith, h1⟩ e he
      have h1 := dist_reflect (bigHull_edges e he) (big.mul r') (sites[i]'(by omega))
      rw [hq, ← hij, hsite i hi] at h1
      have h2 : 0 < 4 * (side (bigHull.getD e 0) (bigHull.getD ((e + 1) % bigHull.length) 0) (big.mul ips[i]) *
          side (bigHull.getD e 0) (bigHull.getD ((e + 1) % bigHull.length) 0) (big.mul r')) /
          dist2 (bigHull.getD e 0) (bigHull.getD ((e + 1) % bigHull.length) 0) :=
        div_pos (mul_pos (by norm_num) (mul_pos (hpos _ (List.getElem_mem hi)) (hpos _ hr'))) (bigHull_edges e he)
      have h3 : dist2 (big.mul ips[i]) (big.mul ips[i]) = 0 := by simp [dist2]
      have h4 : 0 ≤ dist2 (big.mul ips[i]) (big.mul r') := by simp only [dist2]; positivity
      linarith
  have hback : ∀ i (hi : i < ips.length) v, v ∈ Set.extremePoints ℝ {x | ∀ q ∈ sites, dist2 x (sites[i]'(by omega)) ≤ dist2 x q} →
      big.solve v ∈ (region ips ips[i]).extremePoints ℝ := by
    intro i hi v hv
    rw [hreg i hi, ← image_extremePoints bigEquiv] at hv
    obtain ⟨w, hw, rfl⟩ := hv
    have : big.solve (bigEquiv w) = w := bigEquiv.left_inv w
    rwa [this]
  obtain ⟨g, h1, -, -, h4, -, h6⟩ := cells_spec ips.length big {v | ∃ p ∈ ips, v ∈ (region ips p).extremePoints ℝ}
    (by
      rintro v ⟨p, hp, hv⟩ w ⟨q, hq, hw⟩
      exact hsep p hp q hq v hv w hw) (diagram sites)
    (by
      intro c hc hcn
      obtain ⟨ps, e1, -, e3⟩ := hd.bounded c.1 (by omega) hcn c.2 hc (hbdd c.1 hcn)
      exact ⟨ps, e1, fun v hv => ⟨_, List.getElem_mem hcn, hback c.1 hcn v (e3 hv)⟩⟩) hd.nodup
    ([], List.replicate ips.length []) (by simp) (by simp) (by intro c _; rw [List.getD_eq_getElem?_getD, List.getElem?_replicate]; split_ifs <;> rfl)
  refine ⟨g, ?_, h4, ?_⟩
  · rw [voronoiGeometryTriangle, transformedVoronoi]
    simp only [List.length_map]
    have : diagram (reflectPointsOnHull (ips.map (toEquilateral.scale 1e6).mul) ([(0, 0), (1, 0), (0, 1)].map (toEquilateral.scale 1e6).mul)) =
        diagram sites := by rw [hsites]; rfl
    rw [this]
    exact h1
  · intro i hi
    obtain ⟨vs, hvs⟩ := hd.cell i (by omega) hi (huniq i hi)
    obtain ⟨ps, e1, e2, e3⟩ := hd.bounded i (by omega) hi vs hvs (hbdd i hi)
    have h7 := h6 (i, vs) hvs hi
    simp only [e1, List.map_map] at h7
    have h8 : (g.2.getD i []).map (g.1[·]?) = ps.map fun v => some (big.solve v) := h7
    constructor
    · intro id hid
      have := List.mem_map_of_mem (f := (g.1[·]?)) hid
      rw [h8, List.mem_map] at this
      obtain ⟨v, _, hv⟩ := this
      by_contra hge
      rw [List.getElem?_eq_none (by omega)] at hv
      exact absurd hv (by simp)
    · have h9 : {x | ∃ id ∈ g.2.getD i [], g.1[id]? = some x} = bigEquiv.symm '' {x | x ∈ ps} := by
        ext x
        have : (∃ id ∈ g.2.getD i [], g.1[id]? = some x) ↔ some x ∈ (g.2.getD i []).map (g.1[·]?) := by rw [List.mem_map]
        rw [Set.mem_ofPred_eq, this, h8, List.mem_map, Set.mem_image]
        constructor
        · rintro ⟨v, hv, e⟩
          exact ⟨v, hv, Option.some.inj e⟩
        · rintro ⟨v, hv, rfl⟩
          exact ⟨v, hv, rfl⟩
      rw [h9, ← LinearEquiv.coe_coe, ← LinearMap.image_convexHull, e2, hreg i hi, LinearEquiv.coe_coe, ← Set.image_comp]
      simp

/-- C97: the regions cover the triangle. -/
theorem C97_cover (ips : List Point) (h : ips ≠ []) (y : Point) (hy : y ∈ triangle) : ∃ p ∈ ips, y ∈ region ips p := by
  have : ∀ l : List Point, l ≠ [] → ∃ p ∈ l, ∀ q ∈ l, equilateral2 y p ≤ equilateral2 y q := by
    intro l
    induction l with
    | nil => exact fun h => absurd rfl h
    | cons a l ih =>
      intro _
      by_cases hl : l = []
      · exact ⟨a, List.mem_cons_self, by simp [hl]⟩
      · obtain ⟨p, hp, hmin⟩ := ih hl
        rcases le_total (equilateral2 y a) (equilateral2 y p) with hle | hle
        · exact ⟨a, List.mem_cons_self, by
            intro q hq
            rcases List.mem_cons.mp hq with rfl | hq
            · exact le_refl _
            · exact hle.trans (hmin q hq)⟩
        · exact ⟨p, List.mem_cons_of_mem _ hp, by
            intro q hq
            rcases List.mem_cons.mp hq with rfl | hq
            · exact hle
            · exact hmin q hq⟩
  obtain ⟨p, hp, hmin⟩ := this ips h
  exact ⟨p, hp, hy, hmin⟩

/-- C97: regions of different points meet at most in a straight line. -/
theorem C97_overlap (ips : List Point) (p q : Point) (hp : p ∈ ips) (hq : q ∈ ips) (hne : p ≠ q) :
    ∃ a b c : ℝ, (a ≠ 0 ∨ b ≠ 0) ∧ ∀ y ∈ region ips p ∩ region ips q, a * y.1 + b * y.2 = c := by
  refine ⟨2 * (q.1 - p.1) + (q.2 - p.2), (q.1 - p.1) + 2 * (q.2 - p.2),
    q.1 ^ 2 + q.1 * q.2 + q.2 ^ 2 - (p.1 ^ 2 + p.1 * p.2 + p.2 ^ 2), ?_, ?_⟩
  · by_contra h
    rw [not_or, not_not, not_not] at h
    apply hne
    have h1 : q.1 - p.1 = 0 := by linarith [h.1, h.2]
    have h2 : q.2 - p.2 = 0 := by linarith [h.1, h.2]
    exact Prod.ext (by linarith) (by linarith)
  · rintro y ⟨h1, h2⟩
    have h3 := le_antisymm (h1.2 q hq) (h2.2 p hp)
    simp only [equilateral2] at h3
    linarith

/-- C97: every point is in its own region. -/
theorem C97_own (ips : List Point) (p : Point) (hp : 0 ≤ p.1 ∧ 0 ≤ p.2 ∧ p.1 + p.2 ≤ 1) : p ∈ region ips p := by
  refine ⟨hp, ?_⟩
  intro q _
  have : equilateral2 p p = 0 := by simp [equilateral2]
  rw [this]
  simp only [equilateral2]
  nlinarith [sq_nonneg (p.1 - q.1 + (p.2 - q.2) / 2), sq_nonneg (p.2 - q.2)]

end VoronoiTriangle
end NuTo
