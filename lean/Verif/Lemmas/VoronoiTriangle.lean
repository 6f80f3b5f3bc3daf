import Verif.Model.VoronoiTriangle
import Mathlib.Tactic.Linarith
import Mathlib.Tactic.Ring
import Mathlib.Tactic.FieldSimp
import Mathlib.Tactic.LinearCombination

/-!
Lemmas for the Voronoi cells of a triangle.
-/
namespace NuTo
namespace VoronoiTriangle

/-- squared distance -/
def dist2 (x y : Point) : ℝ := (x.1 - y.1) ^ 2 + (x.2 - y.2) ^ 2

/-- twice the signed area of the triangle `a b x`, positive if `x` is on the left -/
def side (a b x : Point) : ℝ := (b.1 - a.1) * (x.2 - a.2) - (b.2 - a.2) * (x.1 - a.1)

theorem reflect_eq {a b : Point} (h : 0 < dist2 a b) (p : Point) :
    reflect a b p = (a.1 + 2 * (((b.1 - a.1) * (p.1 - a.1) + (b.2 - a.2) * (p.2 - a.2)) / dist2 a b) * (b.1 - a.1) - (p.1 - a.1),
      a.2 + 2 * (((b.1 - a.1) * (p.1 - a.1) + (b.2 - a.2) * (p.2 - a.2)) / dist2 a b) * (b.2 - a.2) - (p.2 - a.2)) := by
  have hd : dot (b - a) (b - a) = dist2 a b := by simp only [dot, dist2, Prod.fst_sub, Prod.snd_sub]; ring
  have hn : normalized (b - a) = (1 / Real.sqrt (dist2 a b)) • (b - a) := by rw [normalized, hd, if_pos h]
  have hs : Real.sqrt (dist2 a b) * Real.sqrt (dist2 a b) = dist2 a b := Real.mul_self_sqrt h.le
  have hs0 : Real.sqrt (dist2 a b) ≠ 0 := (Real.sqrt_pos.mpr h).ne'
  obtain ⟨s, hs'⟩ : ∃ s, s = Real.sqrt (dist2 a b) := ⟨_, rfl⟩
  rw [← hs'] at hs hs0 hn
  rw [reflect, hn]
  simp only [dot, Prod.smul_fst, Prod.smul_snd, Prod.fst_sub, Prod.snd_sub, smul_eq_mul, Prod.ext_iff, Prod.fst_add, Prod.snd_add]
  rw [← hs]
  constructor <;> field_simp

/-- A point on the same side as `p` is closer to `p` than to the mirror image of `p`. -/
theorem dist_reflect {a b : Point} (h : 0 < dist2 a b) (p x : Point) :
    dist2 x (reflect a b p) - dist2 x p = 4 * (side a b x * side a b p) / dist2 a b := by
  rw [reflect_eq h]
  have h0 := h.ne'
  rw [eq_div_iff h0]
  obtain ⟨c, hc⟩ : ∃ c, c = ((b.1 - a.1) * (p.1 - a.1) + (b.2 - a.2) * (p.2 - a.2)) / dist2 a b := ⟨_, rfl⟩
  have hc' : c * dist2 a b = (b.1 - a.1) * (p.1 - a.1) + (b.2 - a.2) * (p.2 - a.2) := by rw [hc]; field_simp
  rw [← hc]
  simp only [dist2, side] at hc' ⊢
  obtain ⟨u, hu⟩ : ∃ u, u = b.1 - a.1 := ⟨_, rfl⟩
  obtain ⟨v, hv⟩ : ∃ v, v = b.2 - a.2 := ⟨_, rfl⟩
  obtain ⟨y, hy⟩ : ∃ y, y = p.1 - a.1 := ⟨_, rfl⟩
  obtain ⟨z, hz⟩ : ∃ z, z = p.2 - a.2 := ⟨_, rfl⟩
  obtain ⟨k, hk⟩ : ∃ k, k = x.1 - a.1 := ⟨_, rfl⟩
  obtain ⟨l, hl⟩ : ∃ l, l = x.2 - a.2 := ⟨_, rfl⟩
  have e1 : a.1 - b.1 = -u := by rw [hu]; ring
  have e2 : a.2 - b.2 = -v := by rw [hv]; ring
  have e3 : x.1 - p.1 = k - y := by rw [hk, hy]; ring
  have e4 : x.2 - p.2 = l - z := by rw [hl, hz]; ring
  have e5 : x.1 - (a.1 + 2 * c * u - y) = k - 2 * c * u + y := by rw [hk]; ring
  have e6 : x.2 - (a.2 + 2 * c * v - z) = l - 2 * c * v + z := by rw [hl]; ring
  rw [← hu, ← hv, ← hy, ← hz, e1, e2] at hc'
  rw [← hu, ← hv, ← hy, ← hz, ← hk, ← hl, e1, e2, e3, e4, e5, e6]
  have hr : c * ((-u) ^ 2 + (-v) ^ 2) = u * y + v * z := hc'
  have hr2 : c * (u ^ 2 + v ^ 2) = u * y + v * z := by rw [← hr]; ring
  linear_combination (-4 * (u * (k + y) + v * (l + z)) + 4 * (c * (u ^ 2 + v ^ 2) + (u * y + v * z))) * hr2

theorem addUnique_spec (V : Set Point) (hV : ∀ v ∈ V, ∀ w ∈ V, v = w ∨ 1e-4 ≤ dist2 v w) (l : List Point) (hl : ∀ x ∈ l, x ∈ V) (p : Point)
    (hp : p ∈ V) : l <+: (addUnique l p).1 ∧ (∀ x ∈ (addUnique l p).1, x ∈ V) ∧ (addUnique l p).1[(addUnique l p).2]? = some p := by
  have hd : ∀ q, dot (p - q) (p - q) = dist2 p q := by
    intro q
    simp only [dot, dist2, Prod.fst_sub, Prod.snd_sub]; ring
  rw [addUnique]
  split
  · rename_i i hi
    refine ⟨List.prefix_rfl, hl, ?_⟩
    obtain ⟨h1, h2, -⟩ := List.findIdx?_eq_some_iff_getElem.mp hi
    simp only [hd, decide_eq_true_eq] at h2
    rw [List.getElem?_eq_getElem h1]
    rcases hV p hp _ (hl _ (List.getElem_mem h1)) with e | e
    · rw [← e]
    · exact absurd h2 (not_lt.mpr e)
  · refine ⟨List.prefix_append _ _, ?_, by simp⟩
    intro x hx
    rcases List.mem_append.mp hx with h | h
    · exact hl x h
    · rwa [List.mem_singleton.mp h]

theorem corners_spec (t : Matrix) (V : Set Point) (hV : ∀ v ∈ V, ∀ w ∈ V, v = w ∨ 1e-4 ≤ dist2 v w) (vs : List Point)
    (hvs : ∀ v ∈ vs, t.solve v ∈ V) : ∀ (l : List Point) (ids : List Nat), (∀ x ∈ l, x ∈ V) →
    ∃ l' new, Res.foldlM (addCorner t) (l, ids) (vs.map some) = .ok (l', ids ++ new) ∧ l <+: l' ∧ (∀ x ∈ l', x ∈ V) ∧
      new.map (l'[·]?) = vs.map fun v => some (t.solve v) := by
  induction vs with
  | nil => exact fun l ids hl => ⟨l, [], by simp, List.prefix_rfl, hl, rfl⟩
  | cons v vs ih =>
    intro l ids hl
    obtain ⟨h1, h2, h3⟩ := addUnique_spec V hV l hl (t.solve v) (hvs v List.mem_cons_self)
    obtain ⟨l', new, e1, e2, e3, e4⟩ := ih (fun w hw => hvs w (List.mem_cons_of_mem _ hw)) (addUnique l (t.solve v)).1
      (ids ++ [(addUnique l (t.solve v)).2]) h2
    refine ⟨l', (addUnique l (t.solve v)).2 :: new, ?_, h1.trans e2, e3, ?_⟩
    · rw [List.map_cons, Res.foldlM_cons, addCorner]
      simp only [Res.bind_ok']
      rw [e1, List.append_assoc, List.singleton_append]
    · rw [List.map_cons, List.map_cons, e4]
      congr 1
      obtain ⟨r, hr⟩ := e2
      rw [← hr, List.getElem?_append_left]
      · exact h3
      · exact (List.getElem?_eq_some_iff.mp h3).1

theorem cells_spec (n : Nat) (t : Matrix) (V : Set Point) (hV : ∀ v ∈ V, ∀ w ∈ V, v = w ∨ 1e-4 ≤ dist2 v w) (d : List Cell)
    (hd : ∀ c ∈ d, c.1 < n → ∃ vs : List Point, c.2 = vs.map some ∧ ∀ v ∈ vs, t.solve v ∈ V) (hn : (d.map Prod.fst).Nodup) :
    ∀ (g : Geometry), (∀ x ∈ g.1, x ∈ V) → g.2.length = n → (∀ c ∈ d, g.2.getD c.1 [] = []) →
    ∃ g' : Geometry, Res.foldlM (addCell n t) g d = .ok g' ∧ g.1 <+: g'.1 ∧ (∀ x ∈ g'.1, x ∈ V) ∧ g'.2.length = n ∧
      (∀ i, i ∉ d.map Prod.fst → g'.2.getD i [] = g.2.getD i []) ∧
      ∀ c ∈ d, c.1 < n → ((g'.2.getD c.1 []).map (g'.1[·]?)) = c.2.map fun v => v.map t.solve := by
  induction d with
  | nil => exact fun g h1 h2 _ => ⟨g, rfl, List.prefix_rfl, h1, h2, fun _ _ => rfl, fun c hc => absurd hc (by simp)⟩
  | cons c d ih =>
    intro g h1 h2 h3
    obtain ⟨hc, hn'⟩ := List.nodup_cons.mp (by simpa using hn : (c.1 :: d.map Prod.fst).Nodup)
    have ih' := ih (fun c hc => hd c (List.mem_cons_of_mem _ hc)) hn'
    by_cases hcn : n ≤ c.1
    · obtain ⟨g', e1, e2, e3, e4, e5, e6⟩ := ih' g h1 h2 fun c hc => h3 c (List.mem_cons_of_mem _ hc)
      refine ⟨g', ?_, e2, e3, e4, ?_, ?_⟩
      · rw [Res.foldlM_cons, addCell, if_pos hcn, Res.bind_ok', e1]
      · intro i hi
        exact e5 i fun h => hi (by rw [List.map_cons]; exact List.mem_cons_of_mem _ h)
      · intro c' hc' hlt
        rcases List.mem_cons.mp hc' with rfl | hc'
        · omega
        · exact e6 c' hc' hlt
    · rw [not_le] at hcn
      obtain ⟨vs, hvs, hvV⟩ := hd c List.mem_cons_self hcn
      obtain ⟨l', new, f1, f2, f3, f4⟩ := corners_spec t V hV vs hvV g.1 (g.2.getD c.1 []) h1
      rw [h3 c List.mem_cons_self, List.nil_append] at f1
      obtain ⟨g', e1, e2, e3, e4, e5, e6⟩ := ih' (l', g.2.set c.1 new) f3 (by simpa using h2) (by
        intro c' hc'
        have hne : c.1 ≠ c'.1 := fun h => hc (h ▸ List.mem_map_of_mem hc')
        have := h3 c' (List.mem_cons_of_mem _ hc')
        rw [List.getD_eq_getElem?_getD, List.getElem?_set_ne hne, ← List.getD_eq_getElem?_getD]
        exact this)
      refine ⟨g', ?_, f2.trans e2, e3, e4, ?_, ?_⟩
      · rw [Res.foldlM_cons, addCell, if_neg (by omega), hvs, h3 c List.mem_cons_self, f1, Res.bind_ok', Res.bind_ok', e1]
      · intro i hi
        rw [List.map_cons, List.mem_cons, not_or] at hi
        rw [e5 i hi.2, List.getD_eq_getElem?_getD, List.getElem?_set_ne (Ne.symm hi.1), ← List.getD_eq_getElem?_getD]
      · intro c' hc' hlt
        rcases List.mem_cons.mp hc' with rfl | hc'
        · rw [e5 _ hc, List.getD_eq_getElem?_getD, List.getElem?_set_self (by simpa [h2] using hcn), Option.getD_some, hvs, List.map_map]
          have e : vs.map ((fun v : Option Point => v.map t.solve) ∘ some) = vs.map fun v => some (t.solve v) := rfl
          rw [e, ← f4]
          apply List.map_congr_left
          intro i hi
          have hi' : (l'[i]?).isSome := by
            have := List.mem_map_of_mem (f := (l'[·]?)) hi
            rw [f4, List.mem_map] at this
            obtain ⟨v, _, hv⟩ := this
            rw [← hv]; rfl
          obtain ⟨r, hr⟩ := e2
          rw [← hr, List.getElem?_append_left]
          by_contra hge
          rw [List.getElem?_eq_none (by simpa using hge)] at hi'
          exact absurd hi' (by simp)
        · exact e6 c' hc' hlt

end VoronoiTriangle
end NuTo
