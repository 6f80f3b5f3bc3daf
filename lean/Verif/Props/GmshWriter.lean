import Verif.Lemmas.GmshWriter
import Mathlib.Analysis.Real.Sqrt
import Mathlib.Tactic.Linarith
import Mathlib.Tactic.Positivity
import Mathlib.Tactic.FieldSimp
import Mathlib.Algebra.Order.Field.Basic
import Mathlib.Algebra.BigOperators.Fin
import Mathlib.Data.Fintype.Pi
import Mathlib.Data.List.GetD

/-!
C83: the geometry file of a concrete structure.
-/
namespace NuTo.GeoFile

set_option linter.unusedSectionVars false

variable {K : Type*} [Field K]

def mapEdge {α β : Type*} (f : α → β) (e : Edge α) : Edge β := (f e.1, e.2.1.map f, f e.2.2)

/-! ### Aggregates -/

/-- The surface loop `sl` is the sphere around `c` with radius `R`: eight patches, one for each octant, each bounded by
three arcs around `c` between the points of the sphere on the axes, closed and oriented. -/
def Geo.IsSphere (g : Geo K) (sl : ℕ) (c : P3 K) (R : K) : Prop :=
  ∃ patches, g.Shell sl patches ∧ g.Oriented sl ∧ patches.length = 8 ∧
    (∀ p ∈ patches, p.length = 3 ∧ ∀ e ∈ p, e.2.1 = some c ∧
      ∃ v w : Fin 3 × Bool, v.1 ≠ w.1 ∧ e.1 = vertex c R v ∧ e.2.2 = vertex c R w) ∧
    ∀ σ : Fin 3 → Bool, ∃ p ∈ patches, ∀ i, vertex c R (i, σ i) ∈ p.map (·.1)

/-- The centre (`none`) and the points on the axes in the order of the file -/
def octPoints : List (Option (Fin 3 × Bool)) :=
  [none, some (0, true), some (1, true), some (2, true), some (0, false), some (1, false), some (2, false)]

def octArcs : List (ℕ × Option ℕ × ℕ) := aggregateArcs.map fun a => (a.1, some 0, a.2)

def octPatches : List (List (Edge (Option (Fin 3 × Bool)))) :=
  ((aggregateLoops.map fun l => (l.mapM (relEdge octPoints octArcs)).getD [])) 

def octCoords (c : P3 K) (R : K) : Option (Fin 3 × Bool) → P3 K
  | none => c
  | some v => vertex c R v

theorem octPoints_eq (x y z R : K) : aggregatePoints x y z R = octPoints.map (octCoords ![x, y, z] R) := by
  simp only [aggregatePoints, octPoints, List.map, octCoords]
  congr 1
  congr 1
  · funext k; fin_cases k <;> simp [vertex]
  congr 1
  · funext k; fin_cases k <;> simp [vertex]
  congr 1
  · funext k; fin_cases k <;> simp [vertex]
  congr 1
  · funext k; fin_cases k <;> simp [vertex]
  congr 1
  · funext k; fin_cases k <;> simp [vertex]
  congr 1
  · funext k; fin_cases k <;> simp [vertex]

theorem aggregate_patch (g : Geo K) (x y z R : K) (j : ℕ) :
    (aggregate g x y z R).patch (g.last + 21 + j) =
      (aggregateLoops[j]?).bind fun l => l.mapM (relEdge (octPoints.map (octCoords ![x, y, z] R)) octArcs) := by
  have hs : (aggregate g x y z R).surfaces (g.last + 21 + j) = ((List.range 8).map fun j => [g.last + 13 + j])[j]? :=
    extend_at _ (g.last + 20) _ j
  have hl : (aggregate g x y z R).loops (g.last + 13 + j) =
      (aggregateLoops.map fun l => l.map (signed (g.last + 1)))[j]? := extend_at _ (g.last + 12) _ j
  have he : ∀ e, (aggregate g x y z R).edge (signed (g.last + 1) e) =
      relEdge (octPoints.map (octCoords ![x, y, z] R)) octArcs e := by
    intro e
    refine edge_block (p0 := g.lastPoint + 1) (by omega) (fun j => ?_) (fun j => ?_) e
    · rw [← octPoints_eq]
      exact extend_at _ g.lastPoint _ j
    · have := extend_at g.lines g.last (aggregateArcs.map fun a => (g.lastPoint + 1 + a.1, some (g.lastPoint + 1), g.lastPoint + 1 + a.2)) j
      refine Eq.trans this ?_
      simp only [octArcs, List.map_map, Function.comp_def, shift, Option.map_some, Nat.add_zero]
  unfold Geo.patch
  rw [hs]
  by_cases hj : j < 8
  · rw [List.getElem?_map, List.getElem?_range hj]
    simp only [Option.map_some]
    unfold Geo.loopEdges
    rw [hl, List.getElem?_map]
    cases aggregateLoops[j]? with
    | none => rfl
    | some l =>
      simp only [Option.map_some, Option.bind_some, List.mapM_map]
      congr 1
      funext e
      exact he e
  · rw [List.getElem?_eq_none (by simp; omega), List.getElem?_eq_none (by simp [aggregateLoops]; omega)]
    rfl

theorem aggregate_tags (g : Geo K) (x y z R : K) (j : ℕ) :
    (aggregate g x y z R).tags (g.last + 21 + j) = (aggregateLoops[j]?).map fun l => l.map (signed (g.last + 1)) := by
  have hs : (aggregate g x y z R).surfaces (g.last + 21 + j) = ((List.range 8).map fun j => [g.last + 13 + j])[j]? :=
    extend_at _ (g.last + 20) _ j
  have hl : (aggregate g x y z R).loops (g.last + 13 + j) =
      (aggregateLoops.map fun l => l.map (signed (g.last + 1)))[j]? := extend_at _ (g.last + 12) _ j
  unfold Geo.tags
  rw [hs]
  by_cases hj : j < 8
  · rw [List.getElem?_map, List.getElem?_range hj]
    simp only [Option.map_some]
    rw [hl, List.getElem?_map]
  · rw [List.getElem?_eq_none (by simp; omega), List.getElem?_eq_none (by simp [aggregateLoops]; omega)]
    rfl

theorem aggregate_sphere (g : Geo K) (x y z R : K) :
    (aggregate g x y z R).IsSphere (g.last + 29) ![x, y, z] R := by
  have hsl : (aggregate g x y z R).surfaceLoops (g.last + 29) = some ((List.range 8).map fun j => g.last + 21 + j) :=
    extend_at _ (g.last + 28) _ 0
  refine ⟨octPatches.map fun p => p.map (mapEdge (octCoords ![x, y, z] R)), ⟨⟨_, hsl, ?_⟩, ?_⟩, ?_, rfl, ?_, ?_⟩
  · rw [List.mapM_map]
    have : (fun j => (aggregate g x y z R).patch (g.last + 21 + j)) = fun j =>
      (aggregateLoops[j]?).bind fun l => l.mapM (relEdge (octPoints.map (octCoords ![x, y, z] R)) octArcs) := by
      funext j; exact aggregate_patch g x y z R j
    simp only [Function.comp_def]
    rw [this]
    rfl
  · intro p hp
    rw [List.mem_map] at hp
    obtain ⟨q, hq, rfl⟩ := hp
    refine Closed.map _ ?_
    have hd : ∀ q ∈ octPatches, ∃ r ∈ [q, q.reverse],
      List.IsChain (fun a b : Edge (Option (Fin 3 × Bool)) => a.2.2 = b.1) r ∧
      r.getLast?.map (·.2.2) = r.head?.map (·.1) := by decide +kernel
    obtain ⟨r, hr, h1, h2⟩ := hd q hq
    refine ⟨r, ?_, h1, h2⟩
    simp only [List.mem_cons, List.not_mem_nil, or_false] at hr
    rcases hr with rfl | rfl
    · exact List.Perm.refl _
    · exact List.reverse_perm _
  · refine ⟨_, aggregateLoops.map fun l => l.map (signed (g.last + 1)), hsl, ?_, ?_, ?_⟩
    · rw [List.mapM_map]
      have : (fun j => (aggregate g x y z R).tags (g.last + 21 + j)) = fun j =>
        (aggregateLoops[j]?).map fun l => l.map (signed (g.last + 1)) := by
        funext j; exact aggregate_tags g x y z R j
      simp only [Function.comp_def]
      rw [this]
      rfl
    · rw [← List.map_flatten]
      exact List.Nodup.map (signed_injective (by omega)) (by decide +kernel)
    · rw [← List.map_flatten, List.map_map]
      have : ((fun l => -l) ∘ signed (g.last + 1)) = signed (g.last + 1) ∘ fun e => (!e.1, e.2) := by
        funext e; exact signed_neg _ e
      rw [this, ← List.map_map]
      exact List.Perm.map _ (by decide +kernel)
  · intro p hp
    rw [List.mem_map] at hp
    obtain ⟨q, hq, rfl⟩ := hp
    have hd : ∀ q ∈ octPatches, q.length = 3 ∧ ∀ e ∈ q, e.2.1 = some none ∧
      ∃ v w : Fin 3 × Bool, v.1 ≠ w.1 ∧ e.1 = some v ∧ e.2.2 = some w := by decide +kernel
    obtain ⟨h1, h2⟩ := hd q hq
    refine ⟨by simpa using h1, ?_⟩
    intro e he
    rw [List.mem_map] at he
    obtain ⟨e', he', rfl⟩ := he
    obtain ⟨h3, v, w, h4, h5, h6⟩ := h2 e' he'
    refine ⟨?_, v, w, h4, ?_, ?_⟩
    · simp only [mapEdge, h3]; rfl
    · simp only [mapEdge, h5]; rfl
    · simp only [mapEdge, h6]; rfl
  · intro σ
    have hd : ∀ σ : Fin 3 → Bool, ∃ q ∈ octPatches, ∀ i, some (i, σ i) ∈ q.map (·.1) := by decide +kernel
    obtain ⟨q, hq, h0⟩ := hd σ
    refine ⟨_, List.mem_map.2 ⟨q, hq, rfl⟩, ?_⟩
    have key : ∀ v, some v ∈ q.map (·.1) → vertex ![x, y, z] R v ∈ (q.map (mapEdge (octCoords ![x, y, z] R))).map (·.1) := by
      intro v hv
      rw [List.mem_map] at hv
      obtain ⟨e, he, hv⟩ := hv
      rw [List.map_map, List.mem_map]
      refine ⟨e, he, ?_⟩
      simp only [Function.comp_apply, mapEdge, hv]
      rfl
    exact fun i => key _ (h0 i)

theorem aggregate_volume (g : Geo K) (x y z R : K) :
    (aggregate g x y z R).volumes (g.last + 29) = some [g.last + 29] := extend_at _ (g.last + 28) _ 0

theorem aggregate_le {g : Geo K} (h : g.Fresh) (x y z R : K) : g.Le (aggregate g x y z R) :=
  ⟨fun _ _ hv => extend_mono h.points hv, fun _ _ hv => extend_mono h.lines hv,
    fun id v hv => extend_mono (fun id hid => h.loops id (by simp only [Geo.addLines, Geo.addPoints] at hid; omega)) hv,
    fun id v hv => extend_mono (fun id hid => h.surfaces id (by simp only [Geo.addLines, Geo.addPoints, Geo.addLoops] at hid; omega)) hv,
    fun id v hv => extend_mono (fun id hid => h.surfaceLoops id (by
      simp only [Geo.addLines, Geo.addPoints, Geo.addLoops, Geo.addSurfaces] at hid; omega)) hv,
    fun id v hv => extend_mono (fun id hid => h.volumes id (by
      simp only [Geo.addLines, Geo.addPoints, Geo.addLoops, Geo.addSurfaces] at hid; omega)) hv⟩

theorem aggregate_last (g : Geo K) (x y z R : K) : (aggregate g x y z R).last = g.last + 29 := rfl

theorem aggregate_fresh (g : Geo K) (x y z R : K) : (aggregate g x y z R).Fresh := by
  refine ⟨fun id hid => extend_none le_rfl hid, fun id hid => extend_none (n := g.last + 29) ?_ hid,
    fun id hid => extend_none (n := g.last + 29) ?_ hid, fun id hid => extend_none (n := g.last + 29) ?_ hid,
    fun id hid => extend_none (n := g.last + 29) ?_ hid, fun id hid => extend_none (n := g.last + 29) ?_ hid⟩ <;>
  simp [Geo.addLines, Geo.addPoints, Geo.addLoops, Geo.addSurfaces, aggregateArcs, aggregateLoops, aggregatePoints]

theorem Geo.Le.sphere {g g' : Geo K} (h : g.Le g') {sl : ℕ} {c : P3 K} {R : K} (hs : g.IsSphere sl c R) :
    g'.IsSphere sl c R := by
  obtain ⟨p, h1, h2, h3⟩ := hs
  exact ⟨p, h.shell h1, h.oriented h2, h3⟩

/-- The aggregates written so far -/
structure Geo.Aggregates (g : Geo K) (pr : K → K) (rows : List (P3 K × K)) : Prop where
  fresh : g.Fresh
  length : g.theAggregates.length = rows.length
  outer : g.theOuterInterface.length = rows.length
  ball : ∀ k (h : k < rows.length) (h1 : k < g.theAggregates.length) (h2 : k < g.theOuterInterface.length),
    g.volumes (g.theAggregates[k]) = some [g.theOuterInterface[k]] ∧
    g.IsSphere (g.theOuterInterface[k]) (fun i => pr (rows[k].1 i)) (pr rows[k].2)

theorem aggregates_snoc {g : Geo K} {pr : K → K} {rows : List (P3 K × K)} (h : g.Aggregates pr rows) (row : P3 K × K) :
    (callAggregate pr g row).Aggregates pr (rows ++ [row]) := by
  have hl := h.length
  have ho := h.outer
  refine ⟨aggregate_fresh _ _ _ _ _, ?_, ?_, ?_⟩
  · show (g.theAggregates ++ [_]).length = _
    simp [hl]
  · show (g.theOuterInterface ++ [_]).length = _
    simp [ho]
  · intro k hk h1 h2
    have ea : (callAggregate pr g row).theAggregates = g.theAggregates ++ [g.last + 29] := rfl
    have eo : (callAggregate pr g row).theOuterInterface = g.theOuterInterface ++ [g.last + 29] := rfl
    simp only [ea, eo] at h1 h2 ⊢
    by_cases hlt : k < rows.length
    · rw [List.getElem_append_left (by omega), List.getElem_append_left (by omega), List.getElem_append_left hlt]
      obtain ⟨v1, v2⟩ := h.ball k hlt (by omega) (by omega)
      have hle := aggregate_le h.fresh (pr (row.1 0)) (pr (row.1 1)) (pr (row.1 2)) (pr row.2)
      exact ⟨hle.volumes _ _ v1, hle.sphere v2⟩
    · have hk' : k = rows.length := by
        rw [List.length_append, List.length_singleton] at hk; omega
      subst hk'
      rw [List.getElem_append_right (by omega), List.getElem_append_right (by omega), List.getElem_append_right (by omega)]
      simp only [List.getElem_singleton]
      refine ⟨aggregate_volume _ _ _ _ _, ?_⟩
      have := aggregate_sphere g (pr (row.1 0)) (pr (row.1 1)) (pr (row.1 2)) (pr row.2)
      have e : (fun i => pr (row.1 i)) = ![pr (row.1 0), pr (row.1 1), pr (row.1 2)] := by
        funext i; fin_cases i <;> rfl
      rw [e]
      exact this

theorem aggregates_all (pr : K → K) (rows : List (P3 K × K)) :
    (rows.foldl (callAggregate pr) Geo.empty).Aggregates pr rows := by
  induction rows using List.reverseRecOn with
  | nil => exact ⟨fresh_empty, rfl, rfl, fun k h => absurd h (by simp)⟩
  | append_singleton rows row ih =>
    rw [List.foldl_append]
    exact aggregates_snoc ih row

/-! ### The box -/

/-- A corner of a box: `true` for the end, `false` for the start -/
def corner (s e : P3 K) (b : Fin 3 → Bool) : P3 K := fun i => if b i then e i else s i

/-- The surface loop `sl` is the surface of the box from `s` to `e`: six patches, one on each side, each bounded by four
straight lines between corners, closed and oriented. -/
def Geo.IsBox (g : Geo K) (sl : ℕ) (s e : P3 K) : Prop :=
  ∃ patches, g.Shell sl patches ∧ g.Oriented sl ∧ patches.length = 6 ∧
    (∀ p ∈ patches, p.length = 4 ∧ ∀ l ∈ p, l.2.1 = none ∧ ∃ (v : Fin 3 → Bool) (i : Fin 3),
      l.1 = corner s e v ∧ l.2.2 = corner s e (fun k => if k = i then !v k else v k)) ∧
    ∀ (i : Fin 3) (side : Bool), ∃ p ∈ patches, ∀ b : Fin 3 → Bool, b i = side → corner s e b ∈ p.map (·.1)

theorem Geo.Le.box {g g' : Geo K} (h : g.Le g') {sl : ℕ} {s e : P3 K} (hs : g.IsBox sl s e) : g'.IsBox sl s e := by
  obtain ⟨p, h1, h2, h3⟩ := hs
  exact ⟨p, h.shell h1, h.oriented h2, h3⟩

theorem faces_fold : ∀ (ls : List (List ℤ)) {g : Geo K}, g.Fresh →
    (ls.foldl Geo.addFace g).Fresh ∧ g.Le (ls.foldl Geo.addFace g) ∧
    (ls.foldl Geo.addFace g).last = g.last + 2 * ls.length ∧
    (ls.foldl Geo.addFace g).points = g.points ∧ (ls.foldl Geo.addFace g).lines = g.lines ∧
    (ls.foldl Geo.addFace g).surfaceLoops = g.surfaceLoops ∧ (ls.foldl Geo.addFace g).volumes = g.volumes ∧
    (ls.foldl Geo.addFace g).theAggregates = g.theAggregates ∧
    (ls.foldl Geo.addFace g).theOuterInterface = g.theOuterInterface ∧
    ∀ j (h : j < ls.length), (ls.foldl Geo.addFace g).surfaces (g.last + 2 + 2 * j) = some [g.last + 1 + 2 * j] ∧
      (ls.foldl Geo.addFace g).loops (g.last + 1 + 2 * j) = some ls[j]
  | [], g, hg => ⟨hg, Geo.Le.refl g, rfl, rfl, rfl, rfl, rfl, rfl, rfl, fun j h => absurd h (by simp)⟩
  | l :: ls, g, hg => by
    obtain ⟨h1, h2, h3, h4, h5, h6, h7, h8, h9, h10⟩ := faces_fold ls (addFace_fresh hg l)
    have hlast : (g.addFace l).last = g.last + 2 := rfl
    rw [List.foldl_cons]
    refine ⟨h1, (addFace_le hg l).trans h2, ?_, h4, h5, h6, h7, h8, h9, ?_⟩
    · rw [h3, hlast, List.length_cons]; ring
    · intro j hj
      cases j with
      | zero =>
        constructor
        · refine h2.surfaces _ _ ?_
          exact extend_at _ (g.last + 1) [[g.last + 1]] 0
        · refine h2.loops _ _ ?_
          exact extend_at _ g.last [l] 0
      | succ j =>
        obtain ⟨a, b⟩ := h10 j (by rw [List.length_cons] at hj; omega)
        rw [hlast] at a b
        rw [show g.last + 2 + 2 * (j + 1) = g.last + 2 + 2 + 2 * j by ring,
          show g.last + 1 + 2 * (j + 1) = g.last + 2 + 1 + 2 * j by ring]
        exact ⟨a, by rw [b]; rfl⟩

def boxCorners : List (Fin 3 → Bool) :=
  [![false, false, true], ![false, true, true], ![true, true, true], ![true, false, true],
    ![false, false, false], ![false, true, false], ![true, true, false], ![true, false, false]]

def boxArcs : List (ℕ × Option ℕ × ℕ) := boxLines.map fun a => (a.1, none, a.2)

/-- The order of the faces in the surface loop -/
def boxOrder : List ℕ := [0, 2, 1, 3, 4, 5]

def boxPatches : List (List (Edge (Fin 3 → Bool))) :=
  boxOrder.map fun j => ((boxLoops.getD j []).mapM (relEdge boxCorners boxArcs)).getD []

theorem boxPoints_eq (s e : P3 K) : boxPoints s e = boxCorners.map (corner s e) := by
  simp only [boxPoints, boxCorners, List.map]
  congr 1
  · funext k; fin_cases k <;> simp [corner]
  congr 1
  · funext k; fin_cases k <;> simp [corner]
  congr 1
  · funext k; fin_cases k <;> simp [corner]
  congr 1
  · funext k; fin_cases k <;> simp [corner]
  congr 1
  · funext k; fin_cases k <;> simp [corner]
  congr 1
  · funext k; fin_cases k <;> simp [corner]
  congr 1
  · funext k; fin_cases k <;> simp [corner]
  congr 1
  · funext k; fin_cases k <;> simp [corner]

/-- The model before the faces of the box -/
def boxFrame (g : Geo K) (s e : P3 K) : Geo K :=
  (g.addPoints (boxPoints s e)).addLines (boxLines.map fun a => (g.lastPoint + 1 + a.1, none, g.lastPoint + 1 + a.2))

/-- The model with the faces of the box -/
def boxFaces (g : Geo K) (s e : P3 K) : Geo K :=
  (boxLoops.map fun l => l.map (signed (g.last + 1))).foldl Geo.addFace (boxFrame g s e)

theorem box3D_eq (g : Geo K) (s e : P3 K) : box3D g s e =
    { boxFaces g s e with
      theBox := (boxFaces g s e).last + 1
      surfaceLoops := extend (boxFaces g s e).surfaceLoops (boxFaces g s e).last
        [boxOrder.map fun j => g.last + 14 + 2 * j]
      last := (boxFaces g s e).last + 1 } := rfl

theorem box_spec {g : Geo K} (hg : g.Fresh) (s e : P3 K) :
    (box3D g s e).Fresh ∧ g.Le (box3D g s e) ∧ (box3D g s e).theAggregates = g.theAggregates ∧
    (box3D g s e).theOuterInterface = g.theOuterInterface ∧ (box3D g s e).IsBox (box3D g s e).theBox s e := by
  have hf : (boxFrame g s e).Fresh := addLines_fresh (addPoints_fresh hg _) _
  have hle : g.Le (boxFrame g s e) := (addPoints_le hg _).trans (addLines_le (addPoints_fresh hg _) _)
  obtain ⟨h1, h2, h3, h4, h5, h6, h7, h8, h9, h10⟩ :=
    faces_fold (boxLoops.map fun l => l.map (signed (g.last + 1))) hf
  change (boxFaces g s e).Fresh at h1
  change (boxFrame g s e).Le (boxFaces g s e) at h2
  change (boxFaces g s e).last = _ at h3
  change (boxFaces g s e).points = _ at h4
  change (boxFaces g s e).lines = _ at h5
  have hlast : (boxFrame g s e).last = g.last + 12 := rfl
  rw [hlast] at h3 h10
  have h3' : (boxFaces g s e).last = g.last + 24 := h3
  have hle3 : (boxFaces g s e).Le (box3D g s e) :=
    ⟨fun _ _ h => h, fun _ _ h => h, fun _ _ h => h, fun _ _ h => h, fun _ _ hv => extend_mono h1.surfaceLoops hv,
      fun _ _ h => h⟩
  have hfin : (box3D g s e).Fresh := by
    refine ⟨h1.points, fun id hid => h1.lines id ?_, fun id hid => h1.loops id ?_, fun id hid => h1.surfaces id ?_,
      fun id hid => extend_none (n := (boxFaces g s e).last + 1) le_rfl hid, fun id hid => h1.volumes id ?_⟩ <;>
    · have : (boxFaces g s e).last + 1 < id := hid
      omega
  have hbox : (box3D g s e).theBox = g.last + 25 := by rw [box3D_eq]; simp only [h3']
  have hsl : (box3D g s e).surfaceLoops (g.last + 25) = some (boxOrder.map fun j => g.last + 14 + 2 * j) := by
    rw [box3D_eq]
    simp only [h3']
    exact extend_at _ (g.last + 24) _ 0
  have hedge : ∀ l, (box3D g s e).edge (signed (g.last + 1) l) = relEdge (boxCorners.map (corner s e)) boxArcs l := by
    intro l
    refine edge_block (p0 := g.lastPoint + 1) (by omega) (fun j => ?_) (fun j => ?_) l
    · rw [← boxPoints_eq, box3D_eq]
      simp only [h4]
      exact extend_at _ g.lastPoint _ j
    · rw [box3D_eq]
      simp only [h5]
      refine (extend_at _ g.last _ j).trans ?_
      simp only [boxArcs, List.map_map, Function.comp_def, shift, Option.map_none]
  have htags : ∀ j, j < 6 → (box3D g s e).tags (g.last + 14 + 2 * j) = some ((boxLoops.getD j []).map (signed (g.last + 1))) := by
    intro j hj
    obtain ⟨a, b⟩ := h10 j (by simpa [boxLoops] using hj)
    unfold Geo.tags
    rw [hle3.surfaces _ _ a]
    simp only []
    rw [hle3.loops _ _ b]
    simp only [List.getElem_map]
    rw [List.getD_eq_getElem _ _ (by simpa [boxLoops] using hj)]
  have hpatch : ∀ j, j < 6 → (box3D g s e).patch (g.last + 14 + 2 * j) =
      (boxLoops.getD j []).mapM (relEdge (boxCorners.map (corner s e)) boxArcs) := by
    intro j hj
    obtain ⟨a, b⟩ := h10 j (by simpa [boxLoops] using hj)
    unfold Geo.patch Geo.loopEdges
    rw [hle3.surfaces _ _ a]
    simp only []
    rw [hle3.loops _ _ b]
    simp only [List.getElem_map, Option.bind_some, List.mapM_map]
    rw [List.getD_eq_getElem _ _ (by simpa [boxLoops] using hj)]
    congr 1
    funext l
    exact hedge l
  refine ⟨hfin, hle.trans (h2.trans hle3), h8, h9, ?_⟩
  rw [hbox]
  refine ⟨boxPatches.map fun p => p.map (mapEdge (corner s e)), ⟨⟨_, hsl, ?_⟩, ?_⟩, ?_, rfl, ?_, ?_⟩
  · have hb : boxOrder = [0, 2, 1, 3, 4, 5] := rfl
    rw [hb]
    simp only [List.map_cons, List.map_nil, List.mapM_cons, List.mapM_nil]
    rw [hpatch 0 (by omega), hpatch 1 (by omega), hpatch 2 (by omega), hpatch 3 (by omega), hpatch 4 (by omega),
      hpatch 5 (by omega)]
    rfl
  · intro p hp
    rw [List.mem_map] at hp
    obtain ⟨q, hq, rfl⟩ := hp
    refine Closed.map _ ?_
    have hd : ∀ q ∈ boxPatches,
      List.IsChain (fun a b : Edge (Fin 3 → Bool) => a.2.2 = b.1) q ∧
      q.getLast?.map (·.2.2) = q.head?.map (·.1) := by decide +kernel
    exact ⟨q, List.Perm.refl _, hd q hq⟩
  · refine ⟨_, boxOrder.map fun j => (boxLoops.getD j []).map (signed (g.last + 1)), hsl, ?_, ?_, ?_⟩
    · have hb : boxOrder = [0, 2, 1, 3, 4, 5] := rfl
      rw [hb]
      simp only [List.map_cons, List.map_nil, List.mapM_cons, List.mapM_nil]
      rw [htags 0 (by omega), htags 1 (by omega), htags 2 (by omega), htags 3 (by omega), htags 4 (by omega),
        htags 5 (by omega)]
      rfl
    · have : (boxOrder.map fun j => (boxLoops.getD j []).map (signed (g.last + 1))) =
        (boxOrder.map fun j => boxLoops.getD j []).map fun l => l.map (signed (g.last + 1)) := by
        rw [List.map_map]; rfl
      rw [this, ← List.map_flatten]
      exact List.Nodup.map (signed_injective (by omega)) (by decide +kernel)
    · have : (boxOrder.map fun j => (boxLoops.getD j []).map (signed (g.last + 1))) =
        (boxOrder.map fun j => boxLoops.getD j []).map fun l => l.map (signed (g.last + 1)) := by
        rw [List.map_map]; rfl
      rw [this, ← List.map_flatten, List.map_map]
      have : ((fun l => -l) ∘ signed (g.last + 1)) = signed (g.last + 1) ∘ fun e => (!e.1, e.2) := by
        funext e; exact signed_neg _ e
      rw [this, ← List.map_map]
      exact List.Perm.map _ (by decide +kernel)
  · intro p hp
    rw [List.mem_map] at hp
    obtain ⟨q, hq, rfl⟩ := hp
    have hd : ∀ q ∈ boxPatches, q.length = 4 ∧ ∀ l ∈ q, l.2.1 = none ∧
      ∃ i : Fin 3, l.2.2 = fun k => if k = i then !l.1 k else l.1 k := by decide +kernel
    obtain ⟨h1, h2⟩ := hd q hq
    refine ⟨by simpa using h1, ?_⟩
    intro l hl
    rw [List.mem_map] at hl
    obtain ⟨l', hl', rfl⟩ := hl
    obtain ⟨h3, i, h4⟩ := h2 l' hl'
    refine ⟨?_, l'.1, i, rfl, ?_⟩
    · simp only [mapEdge, h3]; rfl
    · simp only [mapEdge, h4]
  · intro i side
    have hd : ∀ (i : Fin 3) (side : Bool), ∃ q ∈ boxPatches, ∀ b : Fin 3 → Bool, b i = side → b ∈ q.map (·.1) := by
      decide +kernel
    obtain ⟨q, hq, h⟩ := hd i side
    refine ⟨_, List.mem_map.2 ⟨q, hq, rfl⟩, ?_⟩
    intro b hb
    have := h b hb
    rw [List.mem_map] at this
    obtain ⟨l, hl, rfl⟩ := this
    rw [List.map_map, List.mem_map]
    exact ⟨l, hl, rfl⟩

/-! ### The cylinder -/

/-- The surface loop `sl` consists of the base and the top with two arcs each around the points of the axis, and of two
surfaces in between, bounded by an arc below, an arc above and two vertical lines. -/
def Geo.IsCylinder (g : Geo K) (sl : ℕ) (radius height : K) : Prop :=
  g.Watertight sl ∧ g.Shell sl [
    [(![0, radius, 0], some ![0, 0, 0], ![0, -radius, 0]), (![0, -radius, 0], none, ![0, -radius, height]),
      (![0, -radius, height], some ![0, 0, height], ![0, radius, height]), (![0, radius, height], none, ![0, radius, 0])],
    [(![0, -radius, 0], some ![0, 0, 0], ![0, radius, 0]), (![0, radius, 0], none, ![0, radius, height]),
      (![0, radius, height], some ![0, 0, height], ![0, -radius, height]), (![0, -radius, height], none, ![0, -radius, 0])],
    [(![0, radius, 0], some ![0, 0, 0], ![0, -radius, 0]), (![0, -radius, 0], some ![0, 0, 0], ![0, radius, 0])],
    [(![0, radius, height], some ![0, 0, height], ![0, -radius, height]),
      (![0, -radius, height], some ![0, 0, height], ![0, radius, height])]]

theorem cylinder_spec {g : Geo K} (hg : g.Fresh) (r h : K) :
    (cylinder3D g r h).Fresh ∧ g.Le (cylinder3D g r h) ∧ (cylinder3D g r h).theAggregates = g.theAggregates ∧
    (cylinder3D g r h).theOuterInterface = g.theOuterInterface ∧
    (cylinder3D g r h).IsCylinder (cylinder3D g r h).theBox r h := by
  have hle : g.Le (cylinder3D g r h) ∧ (cylinder3D g r h).Fresh := by
    have f1 := addPoints_fresh hg (cylinderPoints r h)
    have l1 := addPoints_le hg (cylinderPoints r h)
    have f2 := addLines_fresh f1 [(g.lastPoint + 1 + 1, some (g.lastPoint + 1 + 0), g.lastPoint + 1 + 2),
      (g.lastPoint + 1 + 2, some (g.lastPoint + 1 + 0), g.lastPoint + 1 + 1)]
    have l2 := l1.trans (addLines_le f1 [(g.lastPoint + 1 + 1, some (g.lastPoint + 1 + 0), g.lastPoint + 1 + 2),
      (g.lastPoint + 1 + 2, some (g.lastPoint + 1 + 0), g.lastPoint + 1 + 1)])
    have f3 := addFace_fresh f2 [((g.last + 1 : ℕ) : ℤ), ((g.last + 2 : ℕ) : ℤ)]
    have l3 := l2.trans (addFace_le f2 [((g.last + 1 : ℕ) : ℤ), ((g.last + 2 : ℕ) : ℤ)])
    have f4 := addLines_fresh f3 [(g.lastPoint + 1 + 4, some (g.lastPoint + 1 + 3), g.lastPoint + 1 + 5),
      (g.lastPoint + 1 + 5, some (g.lastPoint + 1 + 3), g.lastPoint + 1 + 4)]
    have l4 := l3.trans (addLines_le f3 [(g.lastPoint + 1 + 4, some (g.lastPoint + 1 + 3), g.lastPoint + 1 + 5),
      (g.lastPoint + 1 + 5, some (g.lastPoint + 1 + 3), g.lastPoint + 1 + 4)])
    have f5 := addFace_fresh f4 [((g.last + 5 : ℕ) : ℤ), ((g.last + 6 : ℕ) : ℤ)]
    have l5 := l4.trans (addFace_le f4 [((g.last + 5 : ℕ) : ℤ), ((g.last + 6 : ℕ) : ℤ)])
    have f6 := addLines_fresh f5 [(g.lastPoint + 1 + 2, none, g.lastPoint + 1 + 5),
      (g.lastPoint + 1 + 1, none, g.lastPoint + 1 + 4)]
    have l6 := l5.trans (addLines_le f5 [(g.lastPoint + 1 + 2, none, g.lastPoint + 1 + 5),
      (g.lastPoint + 1 + 1, none, g.lastPoint + 1 + 4)])
    have f7 := addLoops_fresh f6 [[((g.last + 1 : ℕ) : ℤ), ((g.last + 9 : ℕ) : ℤ), -((g.last + 5 : ℕ) : ℤ), -((g.last + 10 : ℕ) : ℤ)],
      [((g.last + 2 : ℕ) : ℤ), ((g.last + 10 : ℕ) : ℤ), -((g.last + 6 : ℕ) : ℤ), -((g.last + 9 : ℕ) : ℤ)]]
    have l7 := l6.trans (addLoops_le f6 [[((g.last + 1 : ℕ) : ℤ), ((g.last + 9 : ℕ) : ℤ), -((g.last + 5 : ℕ) : ℤ), -((g.last + 10 : ℕ) : ℤ)],
      [((g.last + 2 : ℕ) : ℤ), ((g.last + 10 : ℕ) : ℤ), -((g.last + 6 : ℕ) : ℤ), -((g.last + 9 : ℕ) : ℤ)]])
    have f8 := addSurfaces_fresh f7 [[g.last + 11], [g.last + 12]]
    have l8 := l7.trans (addSurfaces_le f7 [[g.last + 11], [g.last + 12]])
    refine ⟨l8.trans ⟨fun _ _ h => h, fun _ _ h => h, fun _ _ h => h, fun _ _ h => h,
      fun _ _ hv => extend_mono f8.surfaceLoops hv, fun _ _ h => h⟩, ?_⟩
    refine ⟨f8.points, fun id hid => f8.lines id ?_, fun id hid => f8.loops id ?_, fun id hid => f8.surfaces id ?_,
      fun id hid => extend_none (n := g.last + 15) le_rfl hid, fun id hid => f8.volumes id ?_⟩ <;>
    · have : g.last + 15 < id := hid
      show g.last + 14 < id
      omega
  have hpt : ∀ j, (cylinder3D g r h).points (g.lastPoint + 1 + j) = (cylinderPoints r h)[j]? :=
    fun j => extend_at _ g.lastPoint _ j
  have hs13 : (cylinder3D g r h).surfaces (g.last + 13) = some [g.last + 11] := extend_at _ (g.last + 12) _ 0
  have hs14 : (cylinder3D g r h).surfaces (g.last + 14) = some [g.last + 12] := extend_at _ (g.last + 12) _ 1
  have hs4 : (cylinder3D g r h).surfaces (g.last + 4) = some [g.last + 3] := by
    simp [cylinder3D, extend, Geo.addLines, Geo.addPoints, Geo.addLoops, Geo.addSurfaces, Geo.addFace]
  have hs8 : (cylinder3D g r h).surfaces (g.last + 8) = some [g.last + 7] := by
    simp [cylinder3D, extend, Geo.addLines, Geo.addPoints, Geo.addLoops, Geo.addSurfaces, Geo.addFace]
  have hl11 : (cylinder3D g r h).loops (g.last + 11) = some [((g.last + 1 : ℕ) : ℤ), ((g.last + 9 : ℕ) : ℤ),
    -((g.last + 5 : ℕ) : ℤ), -((g.last + 10 : ℕ) : ℤ)] := extend_at _ (g.last + 10) _ 0
  have hl12 : (cylinder3D g r h).loops (g.last + 12) = some [((g.last + 2 : ℕ) : ℤ), ((g.last + 10 : ℕ) : ℤ),
    -((g.last + 6 : ℕ) : ℤ), -((g.last + 9 : ℕ) : ℤ)] := extend_at _ (g.last + 10) _ 1
  have hl3 : (cylinder3D g r h).loops (g.last + 3) = some [((g.last + 1 : ℕ) : ℤ), ((g.last + 2 : ℕ) : ℤ)] := by
    simp [cylinder3D, extend, Geo.addLines, Geo.addPoints, Geo.addLoops, Geo.addSurfaces, Geo.addFace]
  have hl7 : (cylinder3D g r h).loops (g.last + 7) = some [((g.last + 5 : ℕ) : ℤ), ((g.last + 6 : ℕ) : ℤ)] := by
    simp [cylinder3D, extend, Geo.addLines, Geo.addPoints, Geo.addLoops, Geo.addSurfaces, Geo.addFace]
  have hn1 : (cylinder3D g r h).lines (g.last + 1) = some (g.lastPoint + 1 + 1, some (g.lastPoint + 1 + 0), g.lastPoint + 1 + 2) := by
    simp [cylinder3D, extend, Geo.addLines, Geo.addPoints, Geo.addLoops, Geo.addSurfaces, Geo.addFace]
  have hn2 : (cylinder3D g r h).lines (g.last + 2) = some (g.lastPoint + 1 + 2, some (g.lastPoint + 1 + 0), g.lastPoint + 1 + 1) := by
    simp [cylinder3D, extend, Geo.addLines, Geo.addPoints, Geo.addLoops, Geo.addSurfaces, Geo.addFace]
  have hn5 : (cylinder3D g r h).lines (g.last + 5) = some (g.lastPoint + 1 + 4, some (g.lastPoint + 1 + 3), g.lastPoint + 1 + 5) := by
    simp [cylinder3D, extend, Geo.addLines, Geo.addPoints, Geo.addLoops, Geo.addSurfaces, Geo.addFace]
  have hn6 : (cylinder3D g r h).lines (g.last + 6) = some (g.lastPoint + 1 + 5, some (g.lastPoint + 1 + 3), g.lastPoint + 1 + 4) := by
    simp [cylinder3D, extend, Geo.addLines, Geo.addPoints, Geo.addLoops, Geo.addSurfaces, Geo.addFace]
  have hn9 : (cylinder3D g r h).lines (g.last + 9) = some (g.lastPoint + 1 + 2, none, g.lastPoint + 1 + 5) := by
    simp [cylinder3D, extend, Geo.addLines, Geo.addPoints, Geo.addLoops, Geo.addSurfaces, Geo.addFace]
  have hn10 : (cylinder3D g r h).lines (g.last + 10) = some (g.lastPoint + 1 + 1, none, g.lastPoint + 1 + 4) := by
    simp [cylinder3D, extend, Geo.addLines, Geo.addPoints, Geo.addLoops, Geo.addSurfaces, Geo.addFace]
  have he1 : (cylinder3D g r h).endPoints (g.last + 1) = some (![0, r, 0], some ![0, 0, 0], ![0, -r, 0]) := by
    unfold Geo.endPoints
    rw [hn1]
    simp only [Option.bind_some, hpt]
    rfl
  have he2 : (cylinder3D g r h).endPoints (g.last + 2) = some (![0, -r, 0], some ![0, 0, 0], ![0, r, 0]) := by
    unfold Geo.endPoints
    rw [hn2]
    simp only [Option.bind_some, hpt]
    rfl
  have he5 : (cylinder3D g r h).endPoints (g.last + 5) = some (![0, r, h], some ![0, 0, h], ![0, -r, h]) := by
    unfold Geo.endPoints
    rw [hn5]
    simp only [Option.bind_some, hpt]
    rfl
  have he6 : (cylinder3D g r h).endPoints (g.last + 6) = some (![0, -r, h], some ![0, 0, h], ![0, r, h]) := by
    unfold Geo.endPoints
    rw [hn6]
    simp only [Option.bind_some, hpt]
    rfl
  have he9 : (cylinder3D g r h).endPoints (g.last + 9) = some (![0, -r, 0], none, ![0, -r, h]) := by
    unfold Geo.endPoints
    rw [hn9]
    simp only [Option.bind_some, hpt]
    rfl
  have he10 : (cylinder3D g r h).endPoints (g.last + 10) = some (![0, r, 0], none, ![0, r, h]) := by
    unfold Geo.endPoints
    rw [hn10]
    simp only [Option.bind_some, hpt]
    rfl
  have hpos : ∀ k : ℕ, (cylinder3D g r h).edge ((g.last + k : ℕ) : ℤ) = (cylinder3D g r h).endPoints (g.last + k) := by
    intro k
    unfold Geo.edge
    rw [Int.natAbs_natCast]
    have : ¬ ((g.last + k : ℕ) : ℤ) < 0 := by omega
    simp only [this, if_false]
    exact Option.map_id'
  have hneg : ∀ k : ℕ, (cylinder3D g r h).edge (-((g.last + (k + 1) : ℕ) : ℤ)) =
      ((cylinder3D g r h).endPoints (g.last + (k + 1))).map fun e => (e.2.2, e.2.1, e.1) := by
    intro k
    unfold Geo.edge
    rw [Int.natAbs_neg, Int.natAbs_natCast]
    have : -((g.last + (k + 1) : ℕ) : ℤ) < 0 := by omega
    simp only [this, if_true]
  have hsl : (cylinder3D g r h).surfaceLoops (g.last + 15) = some [g.last + 13, g.last + 14, g.last + 4, g.last + 8] :=
    extend_at _ (g.last + 14) _ 0
  refine ⟨hle.2, hle.1, rfl, rfl, ?_⟩
  show (cylinder3D g r h).IsCylinder (g.last + 15) r h
  constructor
  · refine ⟨_, [[((g.last + 1 : ℕ) : ℤ), ((g.last + 9 : ℕ) : ℤ), -((g.last + 5 : ℕ) : ℤ), -((g.last + 10 : ℕ) : ℤ)],
      [((g.last + 2 : ℕ) : ℤ), ((g.last + 10 : ℕ) : ℤ), -((g.last + 6 : ℕ) : ℤ), -((g.last + 9 : ℕ) : ℤ)],
      [((g.last + 1 : ℕ) : ℤ), ((g.last + 2 : ℕ) : ℤ)], [((g.last + 5 : ℕ) : ℤ), ((g.last + 6 : ℕ) : ℤ)]], hsl, ?_, ?_⟩
    · simp only [List.mapM_cons, List.mapM_nil, Geo.tags, hs13, hs14, hs4, hs8, hl11, hl12, hl3, hl7]
      rfl
    · intro l hl
      have e : (List.flatten [[((g.last + 1 : ℕ) : ℤ), ((g.last + 9 : ℕ) : ℤ), -((g.last + 5 : ℕ) : ℤ), -((g.last + 10 : ℕ) : ℤ)],
        [((g.last + 2 : ℕ) : ℤ), ((g.last + 10 : ℕ) : ℤ), -((g.last + 6 : ℕ) : ℤ), -((g.last + 9 : ℕ) : ℤ)],
        [((g.last + 1 : ℕ) : ℤ), ((g.last + 2 : ℕ) : ℤ)], [((g.last + 5 : ℕ) : ℤ), ((g.last + 6 : ℕ) : ℤ)]]).map Int.natAbs =
        [1, 9, 5, 10, 2, 10, 6, 9, 1, 2, 5, 6].map (g.last + ·) := by
        simp only [List.flatten_cons, List.flatten_nil, List.map_cons, List.map_nil, List.cons_append, List.nil_append,
          Int.natAbs_neg, Int.natAbs_natCast]
      have hmem : l.natAbs ∈ [1, 9, 5, 10, 2, 10, 6, 9, 1, 2, 5, 6].map (g.last + ·) := by
        rw [← e]; exact List.mem_map_of_mem hl
      rw [e]
      rw [List.mem_map] at hmem
      obtain ⟨k, hk, hk2⟩ := hmem
      rw [← hk2, List.count_map_of_injective _ _ (fun a b hab => by simpa using hab)]
      have hd : ∀ k ∈ [1, 9, 5, 10, 2, 10, 6, 9, 1, 2, 5, 6], List.count k [1, 9, 5, 10, 2, 10, 6, 9, 1, 2, 5, 6] = 2 := by
        decide
      exact hd k hk
  · refine ⟨⟨_, hsl, ?_⟩, ?_⟩
    · simp only [List.mapM_cons, List.mapM_nil, Geo.patch, Geo.loopEdges, hs13, hs14, hs4, hs8, hl11, hl12, hl3, hl7,
        Option.bind_some, hpos]
      rw [hneg 4, hneg 9, hneg 5, hneg 8, he1, he2, he5, he6, he9, he10]
      rfl
    · intro p hp
      simp only [List.mem_cons, List.not_mem_nil, or_false] at hp
      rcases hp with rfl | rfl | rfl | rfl <;> exact ⟨_, List.Perm.refl _, by simp, by simp⟩

theorem footer_le {g : Geo K} (h : g.Fresh) : g.Le (footer3D g) :=
  ⟨fun _ _ h => h, fun _ _ h => h, fun _ _ h => h, fun _ _ h => h, fun _ _ h => h, fun _ _ hv => extend_mono h.volumes hv⟩

theorem footer_volume (g : Geo K) : (footer3D g).volumes (footer3D g).theMatrix = some (g.theBox :: g.theOuterInterface) :=
  extend_at _ g.last _ 0

/-! ### The properties of the files -/

/-- The file of a box: the `k`-th aggregate is the ball of the `k`-th row; the matrix is bounded from outside by the box and
from inside by the surfaces of exactly these balls.  Up to the printing of numbers. -/
theorem C83_box (pr : K → K) (mStart mEnd : P3 K) (rows : List (P3 K × K)) :
    ∃ agg ball : List ℕ, (writeBox pr mStart mEnd rows).theAggregates = agg ∧ agg.length = rows.length ∧
      ball.length = rows.length ∧
      (∀ k (h : k < rows.length) (h1 : k < agg.length) (h2 : k < ball.length),
        (writeBox pr mStart mEnd rows).volumes agg[k] = some [ball[k]] ∧
        (writeBox pr mStart mEnd rows).IsSphere ball[k] (fun i => pr (rows[k].1 i)) (pr rows[k].2)) ∧
      ∃ box, (writeBox pr mStart mEnd rows).volumes (writeBox pr mStart mEnd rows).theMatrix = some (box :: ball) ∧
        (writeBox pr mStart mEnd rows).IsBox box (fun i => pr (mStart i)) (fun i => pr (mEnd i)) := by
  have ha := aggregates_all pr rows
  obtain ⟨b1, b2, b3, b4, b5⟩ := box_spec ha.fresh (fun i => pr (mStart i)) (fun i => pr (mEnd i))
  have hle := footer_le b1
  refine ⟨_, (rows.foldl (callAggregate pr) Geo.empty).theOuterInterface, b3, ha.length, ha.outer, ?_, _, ?_, hle.box b5⟩
  · intro k h h1 h2
    obtain ⟨c1, c2⟩ := ha.ball k h h1 h2
    exact ⟨(b2.trans hle).volumes _ _ c1, (b2.trans hle).sphere c2⟩
  · have := footer_volume (box3D (rows.foldl (callAggregate pr) Geo.empty) (fun i => pr (mStart i)) (fun i => pr (mEnd i)))
    rw [b4] at this
    exact this

/-- The file of a cylinder: the same with the cylinder around the `z` axis from `z = 0`. -/
theorem C83_cylinder (pr : K → K) (radius height : K) (rows : List (P3 K × K)) :
    ∃ agg ball : List ℕ, (writeCylinder pr radius height rows).theAggregates = agg ∧ agg.length = rows.length ∧
      ball.length = rows.length ∧
      (∀ k (h : k < rows.length) (h1 : k < agg.length) (h2 : k < ball.length),
        (writeCylinder pr radius height rows).volumes agg[k] = some [ball[k]] ∧
        (writeCylinder pr radius height rows).IsSphere ball[k] (fun i => pr (rows[k].1 i)) (pr rows[k].2)) ∧
      ∃ box, (writeCylinder pr radius height rows).volumes (writeCylinder pr radius height rows).theMatrix = some (box :: ball) ∧
        (writeCylinder pr radius height rows).IsCylinder box (pr radius) (pr height) := by
  have ha := aggregates_all pr rows
  obtain ⟨b1, b2, b3, b4, b5⟩ := cylinder_spec ha.fresh (pr radius) (pr height)
  have hle := footer_le b1
  refine ⟨_, (rows.foldl (callAggregate pr) Geo.empty).theOuterInterface, b3, ha.length, ha.outer, ?_, _, ?_,
    hle.watertight b5.1, hle.shell b5.2⟩
  · intro k h h1 h2
    obtain ⟨c1, c2⟩ := ha.ball k h h1 h2
    exact ⟨(b2.trans hle).volumes _ _ c1, (b2.trans hle).sphere c2⟩
  · have := footer_volume (cylinder3D (rows.foldl (callAggregate pr) Geo.empty) (pr radius) (pr height))
    rw [b4] at this
    exact this

/-- The surfaces of the cylinder are not oriented consistently: the base arcs are walked through in the same direction by
the base and by the curved surfaces. -/
theorem C83_cylinder_orientation_counterexample (g : Geo K) (r h : K) :
    ¬ (cylinder3D g r h).Oriented (cylinder3D g r h).theBox := by
  have hs13 : (cylinder3D g r h).surfaces (g.last + 13) = some [g.last + 11] := extend_at _ (g.last + 12) _ 0
  have hs14 : (cylinder3D g r h).surfaces (g.last + 14) = some [g.last + 12] := extend_at _ (g.last + 12) _ 1
  have hs4 : (cylinder3D g r h).surfaces (g.last + 4) = some [g.last + 3] := by
    simp [cylinder3D, extend, Geo.addLines, Geo.addPoints, Geo.addLoops, Geo.addSurfaces, Geo.addFace]
  have hs8 : (cylinder3D g r h).surfaces (g.last + 8) = some [g.last + 7] := by
    simp [cylinder3D, extend, Geo.addLines, Geo.addPoints, Geo.addLoops, Geo.addSurfaces, Geo.addFace]
  have hl11 : (cylinder3D g r h).loops (g.last + 11) = some [((g.last + 1 : ℕ) : ℤ), ((g.last + 9 : ℕ) : ℤ),
    -((g.last + 5 : ℕ) : ℤ), -((g.last + 10 : ℕ) : ℤ)] := extend_at _ (g.last + 10) _ 0
  have hl12 : (cylinder3D g r h).loops (g.last + 12) = some [((g.last + 2 : ℕ) : ℤ), ((g.last + 10 : ℕ) : ℤ),
    -((g.last + 6 : ℕ) : ℤ), -((g.last + 9 : ℕ) : ℤ)] := extend_at _ (g.last + 10) _ 1
  have hl3 : (cylinder3D g r h).loops (g.last + 3) = some [((g.last + 1 : ℕ) : ℤ), ((g.last + 2 : ℕ) : ℤ)] := by
    simp [cylinder3D, extend, Geo.addLines, Geo.addPoints, Geo.addLoops, Geo.addSurfaces, Geo.addFace]
  have hl7 : (cylinder3D g r h).loops (g.last + 7) = some [((g.last + 5 : ℕ) : ℤ), ((g.last + 6 : ℕ) : ℤ)] := by
    simp [cylinder3D, extend, Geo.addLines, Geo.addPoints, Geo.addLoops, Geo.addSurfaces, Geo.addFace]
  rintro ⟨ss, tags, h1, h2, h3, -⟩
  have hsl : (cylinder3D g r h).surfaceLoops (g.last + 15) = some [g.last + 13, g.last + 14, g.last + 4, g.last + 8] :=
    extend_at _ (g.last + 14) _ 0
  have h1' : some [g.last + 13, g.last + 14, g.last + 4, g.last + 8] = some ss := hsl.symm.trans h1
  obtain rfl := Option.some.inj h1'
  have e : [g.last + 13, g.last + 14, g.last + 4, g.last + 8].mapM (cylinder3D g r h).tags = some
    [[((g.last + 1 : ℕ) : ℤ), ((g.last + 9 : ℕ) : ℤ), -((g.last + 5 : ℕ) : ℤ), -((g.last + 10 : ℕ) : ℤ)],
      [((g.last + 2 : ℕ) : ℤ), ((g.last + 10 : ℕ) : ℤ), -((g.last + 6 : ℕ) : ℤ), -((g.last + 9 : ℕ) : ℤ)],
      [((g.last + 1 : ℕ) : ℤ), ((g.last + 2 : ℕ) : ℤ)], [((g.last + 5 : ℕ) : ℤ), ((g.last + 6 : ℕ) : ℤ)]] := by
    simp only [List.mapM_cons, List.mapM_nil, Geo.tags, hs13, hs14, hs4, hs8, hl11, hl12, hl3, hl7]
    rfl
  rw [e] at h2
  obtain rfl := Option.some.inj h2
  simp at h3

/-! ### The plane -/

/-- The aggregates of a plane file written so far: the outer interface of each is a loop of two half circles -/
structure Geo.Discs (g : Geo K) (pr : K → K) (rows : List (K × K × K)) : Prop where
  fresh : g.Fresh
  length : g.theAggregates.length = rows.length
  outer : g.theOuterInterface.length = rows.length
  disc : ∀ k (h : k < rows.length) (h1 : k < g.theAggregates.length) (h2 : k < g.theOuterInterface.length),
    g.surfaces (g.theAggregates[k]) = some [g.theOuterInterface[k]] ∧
    g.loopEdges (g.theOuterInterface[k]) = some
      [(![pr rows[k].1 + pr rows[k].2.2, pr rows[k].2.1, 0], some ![pr rows[k].1, pr rows[k].2.1, 0],
          ![pr rows[k].1 - pr rows[k].2.2, pr rows[k].2.1, 0]),
        (![pr rows[k].1 - pr rows[k].2.2, pr rows[k].2.1, 0], some ![pr rows[k].1, pr rows[k].2.1, 0],
          ![pr rows[k].1 + pr rows[k].2.2, pr rows[k].2.1, 0])]

theorem disc_spec {g : Geo K} (hg : g.Fresh) (x y R : K) :
    (aggregate2D g x y R).Fresh ∧ g.Le (aggregate2D g x y R) ∧
    (aggregate2D g x y R).surfaces (g.last + 4) = some [g.last + 3] ∧
    (aggregate2D g x y R).loopEdges (g.last + 3) = some
      [(![x + R, y, 0], some ![x, y, 0], ![x - R, y, 0]), (![x - R, y, 0], some ![x, y, 0], ![x + R, y, 0])] := by
  have f1 := addPoints_fresh hg [![x, y, 0], ![x + R, y, 0], ![x - R, y, 0]]
  have l1 := addPoints_le hg [![x, y, 0], ![x + R, y, 0], ![x - R, y, 0]]
  have f2 := addLines_fresh f1 [(g.lastPoint + 1 + 1, some (g.lastPoint + 1), g.lastPoint + 1 + 2),
    (g.lastPoint + 1 + 2, some (g.lastPoint + 1), g.lastPoint + 1 + 1)]
  have l2 := addLines_le f1 [(g.lastPoint + 1 + 1, some (g.lastPoint + 1), g.lastPoint + 1 + 2),
    (g.lastPoint + 1 + 2, some (g.lastPoint + 1), g.lastPoint + 1 + 1)]
  have f3 := addFace_fresh f2 [((g.last + 1 : ℕ) : ℤ), ((g.last + 1 + 1 : ℕ) : ℤ)]
  have l3 := addFace_le f2 [((g.last + 1 : ℕ) : ℤ), ((g.last + 1 + 1 : ℕ) : ℤ)]
  have l4 := l1.trans (l2.trans l3)
  refine ⟨⟨f3.points, f3.lines, f3.loops, f3.surfaces, f3.surfaceLoops, f3.volumes⟩,
    ⟨l4.points, l4.lines, l4.loops, l4.surfaces, l4.surfaceLoops, l4.volumes⟩, extend_at _ (g.last + 3) _ 0, ?_⟩
  have hl : (aggregate2D g x y R).loops (g.last + 3) = some [signed (g.last + 1) (true, 0), signed (g.last + 1) (true, 1)] :=
    extend_at _ (g.last + 2) _ 0
  have he : ∀ e, (aggregate2D g x y R).edge (signed (g.last + 1) e) =
      relEdge [![x, y, 0], ![x + R, y, 0], ![x - R, y, 0]] [(1, some 0, 2), (2, some 0, 1)] e :=
    fun e => edge_block (p0 := g.lastPoint + 1) (by omega) (fun j => extend_at _ g.lastPoint _ j)
      (fun j => extend_at _ g.last _ j) e
  unfold Geo.loopEdges
  rw [hl]
  simp only [Option.bind_some, List.mapM_cons, List.mapM_nil, he]
  rfl

theorem discs_all (pr : K → K) (rows : List (K × K × K)) :
    (rows.foldl (fun g row => aggregate2D g (pr row.1) (pr row.2.1) (pr row.2.2)) Geo.empty).Discs pr rows := by
  induction rows using List.reverseRecOn with
  | nil => exact ⟨fresh_empty, rfl, rfl, fun k h => absurd h (by simp)⟩
  | append_singleton rows row ih =>
    rw [List.foldl_append]
    simp only [List.foldl_cons, List.foldl_nil]
    generalize rows.foldl (fun g row => aggregate2D g (pr row.1) (pr row.2.1) (pr row.2.2)) Geo.empty = g at ih ⊢
    obtain ⟨h1, h2, h3, h4⟩ := disc_spec ih.fresh (pr row.1) (pr row.2.1) (pr row.2.2)
    have hl := ih.length
    have ho := ih.outer
    refine ⟨h1, ?_, ?_, ?_⟩
    · show (g.theAggregates ++ [_]).length = _
      simp [hl]
    · show (g.theOuterInterface ++ [_]).length = _
      simp [ho]
    · intro k hk k1 k2
      have ea : (aggregate2D g (pr row.1) (pr row.2.1) (pr row.2.2)).theAggregates = g.theAggregates ++ [g.last + 4] := rfl
      have eo : (aggregate2D g (pr row.1) (pr row.2.1) (pr row.2.2)).theOuterInterface =
        g.theOuterInterface ++ [g.last + 3] := rfl
      simp only [ea, eo] at k1 k2 ⊢
      by_cases hlt : k < rows.length
      · rw [List.getElem_append_left (by omega), List.getElem_append_left (by omega), List.getElem_append_left hlt]
        obtain ⟨v1, v2⟩ := ih.disc k hlt (by omega) (by omega)
        exact ⟨h2.surfaces _ _ v1, h2.loopEdges v2⟩
      · have hk' : k = rows.length := by
          rw [List.length_append, List.length_singleton] at hk; omega
        subst hk'
        rw [List.getElem_append_right (by omega), List.getElem_append_right (by omega), List.getElem_append_right (by omega)]
        simp only [List.getElem_singleton]
        exact ⟨h3, h4⟩

theorem box2D_spec {g : Geo K} (hg : g.Fresh) (xS yS xE yE : K) :
    (box2D g xS yS xE yE).Fresh ∧ g.Le (box2D g xS yS xE yE) ∧
    (box2D g xS yS xE yE).loopEdges (box2D g xS yS xE yE).theBox = some
      [(![xS, yS, 0], none, ![xE, yS, 0]), (![xE, yS, 0], none, ![xE, yE, 0]), (![xE, yE, 0], none, ![xS, yE, 0]),
        (![xS, yE, 0], none, ![xS, yS, 0])] := by
  have f1 := addPoints_fresh hg [![xS, yS, 0], ![xE, yS, 0], ![xE, yE, 0], ![xS, yE, 0]]
  have l1 := addPoints_le hg [![xS, yS, 0], ![xE, yS, 0], ![xE, yE, 0], ![xS, yE, 0]]
  have f2 := addLines_fresh f1 [(g.lastPoint + 1, none, g.lastPoint + 1 + 1), (g.lastPoint + 1 + 1, none, g.lastPoint + 1 + 2),
    (g.lastPoint + 1 + 2, none, g.lastPoint + 1 + 3), (g.lastPoint + 1 + 3, none, g.lastPoint + 1)]
  have l2 := addLines_le f1 [(g.lastPoint + 1, none, g.lastPoint + 1 + 1), (g.lastPoint + 1 + 1, none, g.lastPoint + 1 + 2),
    (g.lastPoint + 1 + 2, none, g.lastPoint + 1 + 3), (g.lastPoint + 1 + 3, none, g.lastPoint + 1)]
  have f3 := addLoops_fresh f2 [[((g.last + 1 : ℕ) : ℤ), ((g.last + 1 + 1 : ℕ) : ℤ), ((g.last + 1 + 2 : ℕ) : ℤ),
    ((g.last + 1 + 3 : ℕ) : ℤ)]]
  have l3 := addLoops_le f2 [[((g.last + 1 : ℕ) : ℤ), ((g.last + 1 + 1 : ℕ) : ℤ), ((g.last + 1 + 2 : ℕ) : ℤ),
    ((g.last + 1 + 3 : ℕ) : ℤ)]]
  have l4 := l1.trans (l2.trans l3)
  refine ⟨⟨f3.points, f3.lines, f3.loops, f3.surfaces, f3.surfaceLoops, f3.volumes⟩,
    ⟨l4.points, l4.lines, l4.loops, l4.surfaces, l4.surfaceLoops, l4.volumes⟩, ?_⟩
  have hl : (box2D g xS yS xE yE).loops (g.last + 5) = some [signed (g.last + 1) (true, 0), signed (g.last + 1) (true, 1),
    signed (g.last + 1) (true, 2), signed (g.last + 1) (true, 3)] := extend_at _ (g.last + 4) _ 0
  have he : ∀ e, (box2D g xS yS xE yE).edge (signed (g.last + 1) e) =
      relEdge [![xS, yS, 0], ![xE, yS, 0], ![xE, yE, 0], ![xS, yE, 0]]
        [(0, none, 1), (1, none, 2), (2, none, 3), (3, none, 0)] e :=
    fun e => edge_block (p0 := g.lastPoint + 1) (by omega) (fun j => extend_at _ g.lastPoint _ j)
      (fun j => extend_at _ g.last _ j) e
  show (box2D g xS yS xE yE).loopEdges (g.last + 5) = _
  unfold Geo.loopEdges
  rw [hl]
  simp only [Option.bind_some, List.mapM_cons, List.mapM_nil, he]
  rfl

theorem footer2D_surface (g : Geo K) :
    (footer2D g).surfaces (footer2D g).theMatrix = some (g.theBox :: g.theOuterInterface) := extend_at _ g.last _ 0

theorem footer2D_le {g : Geo K} (h : g.Fresh) : g.Le (footer2D g) :=
  ⟨fun _ _ h => h, fun _ _ h => h, fun _ _ h => h, fun _ _ hv => extend_mono h.surfaces hv, fun _ _ h => h, fun _ _ h => h⟩

/-- The file of a plane structure: aggregate `k` is bounded by the circle of row `k` (two half circles), the matrix by the
rectangle and these circles. -/
theorem C83_plane (pr : K → K) (xS yS xE yE : K) (rows : List (K × K × K)) :
    ∃ agg ball : List ℕ, (writeBox2D pr xS yS xE yE rows).theAggregates = agg ∧ agg.length = rows.length ∧
      ball.length = rows.length ∧
      (∀ k (h : k < rows.length) (h1 : k < agg.length) (h2 : k < ball.length),
        (writeBox2D pr xS yS xE yE rows).surfaces agg[k] = some [ball[k]] ∧
        (writeBox2D pr xS yS xE yE rows).loopEdges ball[k] = some
          [(![pr rows[k].1 + pr rows[k].2.2, pr rows[k].2.1, 0], some ![pr rows[k].1, pr rows[k].2.1, 0],
              ![pr rows[k].1 - pr rows[k].2.2, pr rows[k].2.1, 0]),
            (![pr rows[k].1 - pr rows[k].2.2, pr rows[k].2.1, 0], some ![pr rows[k].1, pr rows[k].2.1, 0],
              ![pr rows[k].1 + pr rows[k].2.2, pr rows[k].2.1, 0])]) ∧
      ∃ box, (writeBox2D pr xS yS xE yE rows).surfaces (writeBox2D pr xS yS xE yE rows).theMatrix = some (box :: ball) ∧
        (writeBox2D pr xS yS xE yE rows).loopEdges box = some
          [(![pr xS, pr yS, 0], none, ![pr xE, pr yS, 0]), (![pr xE, pr yS, 0], none, ![pr xE, pr yE, 0]),
            (![pr xE, pr yE, 0], none, ![pr xS, pr yE, 0]), (![pr xS, pr yE, 0], none, ![pr xS, pr yS, 0])] := by
  have ha := discs_all pr rows
  obtain ⟨b1, b2, b5⟩ := box2D_spec ha.fresh (pr xS) (pr yS) (pr xE) (pr yE)
  have hle := footer2D_le b1
  have hm := footer2D_surface (box2D (rows.foldl (fun g row => aggregate2D g (pr row.1) (pr row.2.1) (pr row.2.2)) Geo.empty)
    (pr xS) (pr yS) (pr xE) (pr yE))
  unfold writeBox2D
  generalize hG : rows.foldl (fun g row => aggregate2D g (pr row.1) (pr row.2.1) (pr row.2.2)) Geo.empty = G at *
  refine ⟨G.theAggregates, G.theOuterInterface, rfl, ha.length, ha.outer, ?_, _, hm, hle.loopEdges b5⟩
  intro k h h1 h2
  obtain ⟨c1, c2⟩ := ha.disc k h h1 h2
  exact ⟨(b2.trans hle).surfaces _ _ c1, (b2.trans hle).loopEdges c2⟩

/-! ### Printed numbers -/

/-- A number printed with six digits is off by at most five units of the seventh digit. -/
theorem C83_printed (x : ℚ) : |sixDigits x - x| ≤ 5 / 10 ^ 6 * |x| := by
  unfold sixDigits
  by_cases hx : x = 0
  · simp [hx]
  · rw [if_neg hx]
    have hpos : (0 : ℚ) < (10 : ℚ) ^ (Int.log 10 |x| - 5) := zpow_pos (by norm_num) _
    have hlog : ((10 : ℕ) : ℚ) ^ Int.log 10 |x| ≤ |x| := Int.zpow_log_le_self (by norm_num) (abs_pos.2 hx)
    set u := (10 : ℚ) ^ (Int.log 10 |x| - 5) with hu
    have hu' : u * 10 ^ 5 ≤ |x| := by
      have : u * 10 ^ 5 = (10 : ℚ) ^ Int.log 10 |x| := by
        rw [hu, ← zpow_natCast, ← zpow_add₀ (by norm_num)]
        congr 1
        push_cast; ring
      rw [this]
      exact_mod_cast hlog
    have hr := abs_sub_round (x / u)
    have e : (round (x / u) : ℚ) * u - x = -((x / u - round (x / u)) * u) := by
      rw [sub_mul, div_mul_cancel₀ _ hpos.ne']; ring
    rw [e, abs_neg, abs_mul, abs_of_pos hpos]
    nlinarith

/-- Printed particles do not overlap if their distance is at least `3e-5` times the largest number. -/
theorem C83_margin (pr : ℝ → ℝ) (hpr : ∀ x, |pr x - x| ≤ 5 / 10 ^ 6 * |x|) (L : ℝ) (c d : P3 ℝ) (r q : ℝ)
    (hc : ∀ i, |c i| ≤ L) (hd : ∀ i, |d i| ≤ L) (hr : 0 ≤ r ∧ r ≤ L) (hq : 0 ≤ q ∧ q ≤ L)
    (h : r + q + 3 / 10 ^ 5 * L ≤ Real.sqrt (∑ i, (c i - d i) ^ 2)) :
    pr r + pr q ≤ Real.sqrt (∑ i, (pr (c i) - pr (d i)) ^ 2) := by
  have hL : 0 ≤ L := (abs_nonneg _).trans (hc 0)
  have err : ∀ x, |x| ≤ L → |pr x - x| ≤ 5 / 10 ^ 6 * L := fun x hx =>
    (hpr x).trans (mul_le_mul_of_nonneg_left hx (by norm_num))
  have e1 := abs_le.1 (err r (by rw [abs_of_nonneg hr.1]; exact hr.2))
  have e2 := abs_le.1 (err q (by rw [abs_of_nonneg hq.1]; exact hq.2))
  have hdiff : ∀ i, |(pr (c i) - pr (d i)) - (c i - d i)| ≤ 1 / 10 ^ 5 * L := by
    intro i
    have a := abs_le.1 (err _ (hc i))
    have b := abs_le.1 (err _ (hd i))
    rw [abs_le]
    constructor <;> linarith [a.1, a.2, b.1, b.2]
  generalize hu : (fun i => c i - d i) = u
  generalize hv : (fun i => pr (c i) - pr (d i)) = v
  have hu' : ∀ i, c i - d i = u i := fun i => congrFun hu i
  have hv' : ∀ i, pr (c i) - pr (d i) = v i := fun i => congrFun hv i
  simp only [hu', hv'] at *
  have tri : Real.sqrt (∑ i, (u i) ^ 2) ≤ Real.sqrt (∑ i, (v i) ^ 2) + 18 / 10 ^ 6 * L := by
    have hsv : 0 ≤ ∑ i, (v i) ^ 2 := Finset.sum_nonneg fun i _ => sq_nonneg _
    have hs := Real.sqrt_nonneg (∑ i, (v i) ^ 2)
    apply Real.sqrt_le_iff.2
    refine ⟨by positivity, ?_⟩
    have hsq := Real.sq_sqrt hsv
    set V := Real.sqrt (∑ i, (v i) ^ 2) with hV
    rw [add_sq, hsq]
    -- u = v + w
    have w : ∀ i, ∃ t, u i = v i + t ∧ |t| ≤ 1 / 10 ^ 5 * L := fun i =>
      ⟨u i - v i, by ring, by rw [abs_sub_comm]; exact hdiff i⟩
    choose t ht htL using w
    have ht2 : ∀ i, (t i) ^ 2 ≤ (1 / 10 ^ 5 * L) ^ 2 := fun i => by
      rw [← sq_abs]
      exact pow_le_pow_left₀ (abs_nonneg _) (htL i) 2
    have hT : ∑ i, (t i) ^ 2 ≤ (18 / 10 ^ 6 * L) ^ 2 := by
      rw [Fin.sum_univ_three]
      have := ht2 0; have := ht2 1; have := ht2 2
      nlinarith [mul_nonneg hL hL]
    have hcs : ∑ i, v i * t i ≤ V * (18 / 10 ^ 6 * L) := by
      refine abs_le_of_sq_le_sq' ?_ (by positivity) |>.2
      rw [mul_pow, hsq]
      calc (∑ i, v i * t i) ^ 2 ≤ (∑ i, v i ^ 2) * ∑ i, t i ^ 2 := by
            simp only [Fin.sum_univ_three]
            nlinarith [sq_nonneg (v 0 * t 1 - v 1 * t 0), sq_nonneg (v 0 * t 2 - v 2 * t 0), sq_nonneg (v 1 * t 2 - v 2 * t 1)]
        _ ≤ _ := mul_le_mul_of_nonneg_left hT hsv
    have : ∑ i, (u i) ^ 2 = ∑ i, (v i) ^ 2 + 2 * ∑ i, v i * t i + ∑ i, (t i) ^ 2 := by
      simp only [ht, Fin.sum_univ_three]; ring
    rw [this]
    linarith
  linarith [e1.2, e2.2]

/-- Printed particles lie inside the printed box if they keep a distance of `15e-6` times the largest number. -/
theorem C83_inside_margin (pr : ℝ → ℝ) (hpr : ∀ x, |pr x - x| ≤ 5 / 10 ^ 6 * |x|) (L s e c r : ℝ)
    (hs : |s| ≤ L) (he : |e| ≤ L) (hc : |c| ≤ L) (hr : |r| ≤ L)
    (h1 : s + 15 / 10 ^ 6 * L ≤ c - r) (h2 : c + r ≤ e - 15 / 10 ^ 6 * L) : pr s ≤ pr c - pr r ∧ pr c + pr r ≤ pr e := by
  have err : ∀ x, |x| ≤ L → |pr x - x| ≤ 5 / 10 ^ 6 * L := fun x hx =>
    (hpr x).trans (mul_le_mul_of_nonneg_left hx (by norm_num))
  have a := abs_le.1 (err s hs)
  have b := abs_le.1 (err e he)
  have c' := abs_le.1 (err c hc)
  have d := abs_le.1 (err r hr)
  constructor <;> linarith [a.1, a.2, b.1, b.2, c'.1, c'.2, d.1, d.2]

/-- Touching particles overlap in the file. -/
theorem C83_print_counterexample : ∃ x1 r1 x2 r2 : ℚ, 0 < r1 ∧ 0 < r2 ∧ r1 + r2 ≤ x2 - x1 ∧
    sixDigits x2 - sixDigits x1 < sixDigits r1 + sixDigits r2 := by
  have h1 : Int.log 10 (|1000| : ℚ) = 3 := by
    rw [Int.log_of_one_le_right 10 (by norm_num)]
    have : ⌊(|1000| : ℚ)⌋₊ = 1000 := by
      rw [Nat.floor_eq_iff (by positivity)]; norm_num
    rw [this, Nat.log_eq_of_pow_le_of_lt_pow (m := 3) (by norm_num) (by norm_num)]
    rfl
  have h2 : Int.log 10 (|2000004 / 1000| : ℚ) = 3 := by
    rw [Int.log_of_one_le_right 10 (by norm_num)]
    have : ⌊(|2000004 / 1000| : ℚ)⌋₊ = 2000 := by
      rw [Nat.floor_eq_iff (by positivity)]; norm_num
    rw [this, Nat.log_eq_of_pow_le_of_lt_pow (m := 3) (by norm_num) (by norm_num)]
    rfl
  have h3 : Int.log 10 (|500002 / 1000| : ℚ) = 2 := by
    rw [Int.log_of_one_le_right 10 (by norm_num)]
    have : ⌊(|500002 / 1000| : ℚ)⌋₊ = 500 := by
      rw [Nat.floor_eq_iff (by positivity)]; norm_num
    rw [this, Nat.log_eq_of_pow_le_of_lt_pow (m := 2) (by norm_num) (by norm_num)]
    rfl
  have s1 : sixDigits 1000 = 1000 := by
    unfold sixDigits
    rw [if_neg (by norm_num), h1]
    norm_num [round_eq]
  have s2 : sixDigits (2000004 / 1000) = 2000 := by
    unfold sixDigits
    rw [if_neg (by norm_num), h2]
    have : round ((2000004 / 1000 : ℚ) / 10 ^ ((3 : ℤ) - 5)) = 200000 := by
      rw [round_eq, Int.floor_eq_iff]; norm_num
    rw [this]; norm_num
  have s3 : sixDigits (500002 / 1000) = 500002 / 1000 := by
    unfold sixDigits
    rw [if_neg (by norm_num), h3]
    have : round ((500002 / 1000 : ℚ) / 10 ^ ((2 : ℤ) - 5)) = 500002 := by
      rw [round_eq, Int.floor_eq_iff]; norm_num
    rw [this]; norm_num
  refine ⟨1000, 500002 / 1000, 2000004 / 1000, 500002 / 1000, by norm_num, by norm_num, by norm_num, ?_⟩
  rw [s1, s2, s3]
  norm_num

/-! ### The exported specimen -/

/-- A cylinder specimen is exported at its place exactly if its bounding box is `(-r, r) × (-r, r) × (0, h)`. -/
theorem C83_cylinder_place_partial (lower upper : P3 ℝ) (h0 : ∀ i, lower i < upper i)
    (hround : upper 1 - lower 1 = upper 0 - lower 0) :
    {x : P3 ℝ | (x 0) ^ 2 + (x 1) ^ 2 ≤ (exportedCylinder lower upper).1 ^ 2 ∧ 0 ≤ x 2 ∧
        x 2 ≤ (exportedCylinder lower upper).2} =
      {x : P3 ℝ | (x 0 - (lower 0 + upper 0) / 2) ^ 2 + (x 1 - (lower 1 + upper 1) / 2) ^ 2 ≤
        ((upper 0 - lower 0) / 2) ^ 2 ∧ lower 2 ≤ x 2 ∧ x 2 ≤ upper 2} ↔
    lower 0 = -upper 0 ∧ lower 1 = -upper 0 ∧ upper 1 = upper 0 ∧ lower 2 = 0 := by
  simp only [exportedCylinder, Set.ext_iff, Set.mem_ofPred_eq]
  constructor
  · intro h
    have p0 := h0 0
    have p2 := h0 2
    have a := (h ![(lower 0 + upper 0) / 2, (lower 1 + upper 1) / 2, lower 2]).2
      ⟨by simp; positivity, by simp, by simp; linarith⟩
    simp at a
    have b := (h ![0, 0, 0]).1 ⟨by simp; positivity, by simp, by simp; linarith⟩
    simp at b
    have hz : lower 2 = 0 := le_antisymm b.2.1 a.2.1
    have c := (h ![upper 0, (lower 1 + upper 1) / 2, lower 2]).2 ⟨by simp; nlinarith, by simp, by simp; linarith⟩
    simp at c
    have hm : (lower 1 + upper 1) / 2 = 0 := by rw [c.1]; ring
    have d := (h ![lower 0, (lower 1 + upper 1) / 2, lower 2]).2 ⟨by simp; nlinarith, by simp, by simp; linarith⟩
    simp at d
    have e := (h ![-upper 0, 0, 0]).1 ⟨by simp, by simp, by simp; linarith⟩
    simp at e
    rw [hm] at d e
    have hx : 0 ≤ lower 0 + upper 0 := by nlinarith [d.1]
    have hx2 : lower 0 + upper 0 ≤ 0 := by
      by_contra hc
      push Not at hc
      nlinarith [e.1]
    refine ⟨by linarith, by linarith, by linarith, hz⟩
  · rintro ⟨h1, h2, h3, h4⟩ x
    rw [h1, h2, h3, h4]
    have e1 : (-upper 0 + upper 0) / 2 = 0 := by ring
    have e2 : (upper 0 - -upper 0) / 2 = upper 0 := by ring
    rw [e1, e2, sub_zero, sub_zero]

/-- A cylinder specimen with another bounding box is exported at a wrong place, e.g. `(0, 10) × (0, 10) × (0, 20)`. -/
theorem C83_cylinder_place_counterexample : ∃ (lower upper x : P3 ℝ), (∀ i, lower i < upper i) ∧
    upper 1 - lower 1 = upper 0 - lower 0 ∧
    (x 0 - (lower 0 + upper 0) / 2) ^ 2 + (x 1 - (lower 1 + upper 1) / 2) ^ 2 < ((upper 0 - lower 0) / 2) ^ 2 ∧
    (exportedCylinder lower upper).1 ^ 2 < (x 0) ^ 2 + (x 1) ^ 2 := by
  refine ⟨fun _ => 0, ![10, 10, 20], ![8, 8, 0], fun i => by fin_cases i <;> simp, by simp, ?_, ?_⟩
  · simp; norm_num
  · simp [exportedCylinder]; norm_num

/-- A slice of a cylinder specimen is exported as the bounding rectangle: its corners are not in the specimen. -/
theorem C83_slice_counterexample (lower upper : P3 ℝ) (h0 : ∀ i, lower i < upper i) :
    ((upper 0 - lower 0) / 2) ^ 2 < ((exportedRectangle lower upper).1.1 - (lower 0 + upper 0) / 2) ^ 2 +
      ((exportedRectangle lower upper).1.2 - (lower 1 + upper 1) / 2) ^ 2 := by
  simp only [exportedRectangle]
  have p0 := h0 0
  have p1 := h0 1
  nlinarith [mul_pos (sub_pos.2 p1) (sub_pos.2 p1)]

/-- `ExportGmshGeo2D` throws exactly for slices outside the specimen. -/
theorem C83_slice {α : Type*} (lower upper : P3 ℝ) (z : ℝ) (w : α) :
    (exportSlice lower upper z w = .ok w ↔ lower 2 < z ∧ z < upper 2) ∧ exportSlice lower upper z w ≠ .ub := by
  unfold exportSlice
  split_ifs with h
  · refine ⟨⟨fun h => (by simp at h), fun h' => ?_⟩, by simp⟩
    rcases h with h | h
    · exact absurd h (not_le.2 h'.1)
    · exact absurd h (not_le.2 h'.2)
  · push Not at h
    exact ⟨⟨fun _ => h, fun _ => rfl⟩, by simp⟩

/-! ### Interfaces -/

/-- In 3D the interfaces of two aggregates stay apart if the aggregates are a thickness apart. -/
theorem C83_interface_3D (R1 R2 h dist : ℝ) (hd : R1 + R2 + h ≤ dist) :
    (interfaceRadii3D R1 h).2 + (interfaceRadii3D R2 h).2 ≤ dist := by
  simp only [interfaceRadii3D]; linarith

/-- In 2D they need twice the distance. -/
theorem C83_interface_2D_partial (R1 R2 h dist : ℝ) (hd : R1 + R2 + 2 * h ≤ dist) :
    (interfaceRadii2D R1 h).2 + (interfaceRadii2D R2 h).2 ≤ dist := by
  simp only [interfaceRadii2D]; linarith

/-- The interfaces of the same aggregates are apart in 3D and overlap in 2D, and the volumes of the aggregates differ. -/
theorem C83_interface_counterexample (R h : ℝ) (hh : 0 < h) :
    (interfaceRadii3D R h).2 + (interfaceRadii3D R h).2 ≤ R + R + h ∧
    R + R + h < (interfaceRadii2D R h).2 + (interfaceRadii2D R h).2 ∧
    (interfaceRadii3D R h).1 < (interfaceRadii2D R h).1 := by
  simp only [interfaceRadii3D, interfaceRadii2D]
  refine ⟨by linarith, by linarith, by linarith⟩

/-- A file with two aggregates in a box: 58 entities for the aggregates, then 25 for the box, then the matrix. -/
example : (writeBox (id : ℚ → ℚ) (fun _ => 0) (fun _ => 10) [(![2, 2, 2], 1), (![5, 5, 5], 2)]).theMatrix = 84 ∧
    (writeBox (id : ℚ → ℚ) (fun _ => 0) (fun _ => 10) [(![2, 2, 2], 1), (![5, 5, 5], 2)]).theAggregates = [29, 58] ∧
    (writeBox (id : ℚ → ℚ) (fun _ => 0) (fun _ => 10) [(![2, 2, 2], 1), (![5, 5, 5], 2)]).volumes 84 = some [83, 29, 58] := by
  decide +kernel

/-- Numbers and particles that meet the hypotheses on margins -/
example : ∃ (pr : ℝ → ℝ), (∀ x, |pr x - x| ≤ 5 / 10 ^ 6 * |x|) ∧ pr 1 ≠ 1 :=
  ⟨fun x => x + 5 / 10 ^ 6 * x, fun x => by
    rw [add_sub_cancel_left, abs_mul, abs_of_nonneg (by norm_num : (0 : ℝ) ≤ 5 / 10 ^ 6)], by norm_num⟩

example : (1 : ℝ) + 1 + 3 / 10 ^ 5 * 10 ≤ Real.sqrt (∑ i, ((![2, 2, 2] : P3 ℝ) i - (![5, 2, 2] : P3 ℝ) i) ^ 2) := by
  refine Real.le_sqrt_of_sq_le ?_
  simp [Fin.sum_univ_three]
  norm_num

end NuTo.GeoFile
