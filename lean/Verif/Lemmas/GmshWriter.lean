import Verif.Model.GmshWriter
import Mathlib.Data.List.Permutation
import Mathlib.Data.List.Chain
import Mathlib.Tactic.FinCases
import Mathlib.Tactic.Ring

/-!
Resolution of gmsh entities to coordinates, and the blocks of entities of the written functions.
-/
namespace NuTo.GeoFile

variable {K : Type*}

/-- A directed line in coordinates: start, centre of a circle arc, end -/
abbrev Edge (α : Type*) := α × Option α × α

/-- The end points and the centre of a line -/
def Geo.endPoints (g : Geo K) (l : ℕ) : Option (Edge (P3 K)) :=
  (g.lines l).bind fun e => (g.points e.1).bind fun a => (g.points e.2.2).bind fun b =>
    match e.2.1 with
    | none => some (a, none, b)
    | some c => (g.points c).map fun c => (a, some c, b)

/-- A signed line -/
def Geo.edge (g : Geo K) (l : ℤ) : Option (Edge (P3 K)) :=
  (g.endPoints l.natAbs).map fun e => if l < 0 then (e.2.2, e.2.1, e.1) else e

/-- The signed lines of a loop in coordinates -/
def Geo.loopEdges (g : Geo K) (l : ℕ) : Option (List (Edge (P3 K))) := (g.loops l).bind fun t => t.mapM g.edge

/-- The boundary of a surface with one loop -/
def Geo.patch (g : Geo K) (s : ℕ) : Option (List (Edge (P3 K))) :=
  match g.surfaces s with
  | some [l] => g.loopEdges l
  | _ => none

/-- The signed lines of the boundary of a surface with one loop -/
def Geo.tags (g : Geo K) (s : ℕ) : Option (List ℤ) :=
  match g.surfaces s with
  | some [l] => g.loops l
  | _ => none

/-- The lines can be walked through in some order, back to the start -/
def Closed {α : Type*} (l : List (Edge α)) : Prop :=
  ∃ q, q.Perm l ∧ List.IsChain (fun a b : Edge α => a.2.2 = b.1) q ∧ q.getLast?.map (·.2.2) = q.head?.map (·.1)

theorem Closed.map {α β : Type*} (f : α → β) {l : List (Edge α)} (h : Closed l) :
    Closed (l.map fun e => (f e.1, e.2.1.map f, f e.2.2)) := by
  obtain ⟨q, h1, h2, h3⟩ := h
  refine ⟨q.map fun e => (f e.1, e.2.1.map f, f e.2.2), h1.map _, ?_, ?_⟩
  · rw [List.isChain_map]
    exact h2.imp fun a b hab => by simp only [hab]
  · rw [List.getLast?_map, List.head?_map]
    have := congrArg (Option.map f) h3
    simpa [Option.map_map, Function.comp_def] using this

/-! ### Tables -/

theorem extend_at {α : Type*} (old : ℕ → Option α) (last : ℕ) (l : List α) (j : ℕ) :
    extend old last l (last + 1 + j) = l[j]? := by
  unfold extend
  rw [if_neg (by omega)]
  congr 1
  omega

theorem extend_none {α : Type*} {old : ℕ → Option α} {last : ℕ} {l : List α} {n : ℕ}
    (hn : last + l.length ≤ n) {id : ℕ} (hid : n < id) : extend old last l id = none := by
  unfold extend
  rw [if_neg (by omega), List.getElem?_eq_none]
  omega

theorem extend_mono {α : Type*} {old : ℕ → Option α} {last : ℕ} {l : List α} (h : ∀ id, last < id → old id = none)
    {id : ℕ} {v : α} (hv : old id = some v) : extend old last l id = some v := by
  unfold extend
  by_cases hid : id ≤ last
  · rw [if_pos hid, hv]
  · rw [h id (by omega)] at hv
    exact absurd hv (by simp)

/-- No entity has a number beyond the largest one -/
structure Geo.Fresh (g : Geo K) : Prop where
  points : ∀ id, g.lastPoint < id → g.points id = none
  lines : ∀ id, g.last < id → g.lines id = none
  loops : ∀ id, g.last < id → g.loops id = none
  surfaces : ∀ id, g.last < id → g.surfaces id = none
  surfaceLoops : ∀ id, g.last < id → g.surfaceLoops id = none
  volumes : ∀ id, g.last < id → g.volumes id = none

theorem fresh_empty : (Geo.empty : Geo K).Fresh :=
  ⟨fun _ _ => rfl, fun _ _ => rfl, fun _ _ => rfl, fun _ _ => rfl, fun _ _ => rfl, fun _ _ => rfl⟩

/-- Everything defined in `g` is defined in the same way in `g'` -/
structure Geo.Le (g g' : Geo K) : Prop where
  points : ∀ id v, g.points id = some v → g'.points id = some v
  lines : ∀ id v, g.lines id = some v → g'.lines id = some v
  loops : ∀ id v, g.loops id = some v → g'.loops id = some v
  surfaces : ∀ id v, g.surfaces id = some v → g'.surfaces id = some v
  surfaceLoops : ∀ id v, g.surfaceLoops id = some v → g'.surfaceLoops id = some v
  volumes : ∀ id v, g.volumes id = some v → g'.volumes id = some v

theorem Geo.Le.refl (g : Geo K) : g.Le g :=
  ⟨fun _ _ h => h, fun _ _ h => h, fun _ _ h => h, fun _ _ h => h, fun _ _ h => h, fun _ _ h => h⟩

theorem Geo.Le.trans {a b c : Geo K} (h : a.Le b) (h' : b.Le c) : a.Le c :=
  ⟨fun i v x => h'.points i v (h.points i v x), fun i v x => h'.lines i v (h.lines i v x),
    fun i v x => h'.loops i v (h.loops i v x), fun i v x => h'.surfaces i v (h.surfaces i v x),
    fun i v x => h'.surfaceLoops i v (h.surfaceLoops i v x), fun i v x => h'.volumes i v (h.volumes i v x)⟩

theorem Geo.Le.edge {g g' : Geo K} (h : g.Le g') {l : ℤ} {e : Edge (P3 K)} (he : g.edge l = some e) :
    g'.edge l = some e := by
  unfold Geo.edge at he ⊢
  rw [Option.map_eq_some_iff] at he ⊢
  obtain ⟨x, hx, rfl⟩ := he
  refine ⟨x, ?_, rfl⟩
  unfold Geo.endPoints at hx ⊢
  rw [Option.bind_eq_some_iff] at hx ⊢
  obtain ⟨y, hy, hx⟩ := hx
  refine ⟨y, h.lines _ _ hy, ?_⟩
  rw [Option.bind_eq_some_iff] at hx ⊢
  obtain ⟨a, ha, hx⟩ := hx
  refine ⟨a, h.points _ _ ha, ?_⟩
  rw [Option.bind_eq_some_iff] at hx ⊢
  obtain ⟨b, hb, hx⟩ := hx
  refine ⟨b, h.points _ _ hb, ?_⟩
  obtain ⟨y1, y2, y3⟩ := y
  cases y2 with
  | none => exact hx
  | some c =>
    simp only [Option.map_eq_some_iff] at hx ⊢
    obtain ⟨z, hz, hx⟩ := hx
    exact ⟨z, h.points _ _ hz, hx⟩

theorem mapM_mono {α β : Type*} {f f' : α → Option β} (h : ∀ a b, f a = some b → f' a = some b) :
    ∀ {l : List α} {r : List β}, l.mapM f = some r → l.mapM f' = some r
  | [], r, hr => by simpa using hr
  | a :: l, r, hr => by
    rw [List.mapM_cons] at hr ⊢
    simp only [Option.bind_eq_bind, Option.bind_eq_some_iff, Option.pure_def] at hr ⊢
    obtain ⟨b, hb, bs, hbs, hr⟩ := hr
    exact ⟨b, h a b hb, bs, mapM_mono h hbs, hr⟩

theorem Geo.Le.loopEdges {g g' : Geo K} (h : g.Le g') {l : ℕ} {p : List (Edge (P3 K))} (hp : g.loopEdges l = some p) :
    g'.loopEdges l = some p := by
  unfold Geo.loopEdges at hp ⊢
  rw [Option.bind_eq_some_iff] at hp ⊢
  obtain ⟨t, ht, hp⟩ := hp
  exact ⟨t, h.loops _ _ ht, mapM_mono (fun a b => h.edge) hp⟩

theorem Geo.Le.patch {g g' : Geo K} (h : g.Le g') {s : ℕ} {p : List (Edge (P3 K))} (hp : g.patch s = some p) :
    g'.patch s = some p := by
  unfold Geo.patch at hp ⊢
  cases hs : g.surfaces s with
  | none => rw [hs] at hp; exact absurd hp (by simp)
  | some v =>
    rw [h.surfaces _ _ hs]
    rw [hs] at hp
    match v with
    | [] => exact absurd hp (by simp)
    | [l] => exact h.loopEdges hp
    | _ :: _ :: _ => exact absurd hp (by simp)

theorem Geo.Le.tags {g g' : Geo K} (h : g.Le g') {s : ℕ} {p : List ℤ} (hp : g.tags s = some p) : g'.tags s = some p := by
  unfold Geo.tags at hp ⊢
  cases hs : g.surfaces s with
  | none => rw [hs] at hp; exact absurd hp (by simp)
  | some v =>
    rw [h.surfaces _ _ hs]
    rw [hs] at hp
    match v with
    | [] => exact absurd hp (by simp)
    | [l] => exact h.loops _ _ hp
    | _ :: _ :: _ => exact absurd hp (by simp)

/-! ### The building blocks keep everything -/

theorem addPoints_le {g : Geo K} (h : g.Fresh) (l : List (P3 K)) : g.Le (g.addPoints l) :=
  ⟨fun _ _ hv => extend_mono h.points hv, fun _ _ h => h, fun _ _ h => h, fun _ _ h => h, fun _ _ h => h, fun _ _ h => h⟩

theorem addPoints_fresh {g : Geo K} (h : g.Fresh) (l : List (P3 K)) : (g.addPoints l).Fresh :=
  ⟨fun _ hid => extend_none le_rfl hid, h.lines, h.loops, h.surfaces, h.surfaceLoops, h.volumes⟩

theorem addLines_le {g : Geo K} (h : g.Fresh) (l) : g.Le (g.addLines l) :=
  ⟨fun _ _ h => h, fun _ _ hv => extend_mono h.lines hv, fun _ _ h => h, fun _ _ h => h, fun _ _ h => h, fun _ _ h => h⟩

theorem addLines_fresh {g : Geo K} (h : g.Fresh) (l) : (g.addLines l).Fresh :=
  ⟨h.points, fun _ hid => extend_none le_rfl hid, fun id hid => h.loops id (by simp only [Geo.addLines] at hid; omega),
    fun id hid => h.surfaces id (by simp only [Geo.addLines] at hid; omega),
    fun id hid => h.surfaceLoops id (by simp only [Geo.addLines] at hid; omega),
    fun id hid => h.volumes id (by simp only [Geo.addLines] at hid; omega)⟩

theorem addLoops_le {g : Geo K} (h : g.Fresh) (l) : g.Le (g.addLoops l) :=
  ⟨fun _ _ h => h, fun _ _ h => h, fun _ _ hv => extend_mono h.loops hv, fun _ _ h => h, fun _ _ h => h, fun _ _ h => h⟩

theorem addLoops_fresh {g : Geo K} (h : g.Fresh) (l) : (g.addLoops l).Fresh :=
  ⟨h.points, fun id hid => h.lines id (by simp only [Geo.addLoops] at hid; omega), fun _ hid => extend_none le_rfl hid,
    fun id hid => h.surfaces id (by simp only [Geo.addLoops] at hid; omega),
    fun id hid => h.surfaceLoops id (by simp only [Geo.addLoops] at hid; omega),
    fun id hid => h.volumes id (by simp only [Geo.addLoops] at hid; omega)⟩

theorem addSurfaces_le {g : Geo K} (h : g.Fresh) (l) : g.Le (g.addSurfaces l) :=
  ⟨fun _ _ h => h, fun _ _ h => h, fun _ _ h => h, fun _ _ hv => extend_mono h.surfaces hv, fun _ _ h => h, fun _ _ h => h⟩

theorem addSurfaces_fresh {g : Geo K} (h : g.Fresh) (l) : (g.addSurfaces l).Fresh :=
  ⟨h.points, fun id hid => h.lines id (by simp only [Geo.addSurfaces] at hid; omega),
    fun id hid => h.loops id (by simp only [Geo.addSurfaces] at hid; omega),
    fun _ hid => extend_none le_rfl hid,
    fun id hid => h.surfaceLoops id (by simp only [Geo.addSurfaces] at hid; omega),
    fun id hid => h.volumes id (by simp only [Geo.addSurfaces] at hid; omega)⟩

theorem addFace_le {g : Geo K} (h : g.Fresh) (l) : g.Le (g.addFace l) :=
  (addLoops_le h _).trans (addSurfaces_le (addLoops_fresh h _) _)

theorem addFace_fresh {g : Geo K} (h : g.Fresh) (l) : (g.addFace l).Fresh :=
  addSurfaces_fresh (addLoops_fresh h _) _

/-! ### Edges of a block -/

/-- The edge of a block of points and lines, relative to the block -/
def relEdge {α : Type*} (pts : List α) (arcs : List (ℕ × Option ℕ × ℕ)) (e : Bool × ℕ) : Option (Edge α) :=
  ((arcs[e.2]?).bind fun x => (pts[x.1]?).bind fun a => (pts[x.2.2]?).bind fun b =>
    match x.2.1 with
    | none => some (a, none, b)
    | some c => (pts[c]?).map fun c => (a, some c, b)).map fun x => if e.1 then x else (x.2.2, x.2.1, x.1)

/-- A line of a block, with the first point of the block having the number `p0` -/
def shift (p0 : ℕ) (a : ℕ × Option ℕ × ℕ) : ℕ × Option ℕ × ℕ := (p0 + a.1, a.2.1.map (p0 + ·), p0 + a.2.2)

theorem edge_block {g : Geo K} {pts : List (P3 K)} {arcs : List (ℕ × Option ℕ × ℕ)} {p0 first : ℕ} (h1 : 1 ≤ first)
    (hp : ∀ j, g.points (p0 + j) = pts[j]?) (hl : ∀ j, g.lines (first + j) = (arcs.map (shift p0))[j]?) (e : Bool × ℕ) :
    g.edge (signed first e) = relEdge pts arcs e := by
  obtain ⟨b, j⟩ := e
  have hn : (signed first (b, j)).natAbs = first + j := by
    unfold signed
    cases b <;> simp <;> omega
  have hs : signed first (b, j) < 0 ↔ b = false := by
    unfold signed
    cases b
    · simp; omega
    · simp; omega
  unfold Geo.edge Geo.endPoints relEdge
  rw [hn, hl, List.getElem?_map]
  cases harc : arcs[j]? with
  | none => simp
  | some x =>
    obtain ⟨x1, x2, x3⟩ := x
    simp only [Option.map_some, Option.bind_some, shift, hp, hs]
    cases pts[x1]? with
    | none => simp
    | some a =>
      cases pts[x3]? with
      | none => simp
      | some b' =>
        cases x2 with
        | none => cases b <;> simp
        | some c =>
          simp only [Option.map_some, hp]
          cases pts[c]? <;> cases b <;> simp

/-! ### A sphere -/

/-- The point of a sphere on a coordinate axis -/
def vertex [Field K] (c : P3 K) (R : K) (v : Fin 3 × Bool) : P3 K :=
  fun k => if k = v.1 then (if v.2 then c k + R else c k - R) else c k

/-- A closed surface: the patches of the surfaces, walked through, every line once in each direction -/
structure Geo.Shell (g : Geo K) (sl : ℕ) (patches : List (List (Edge (P3 K)))) : Prop where
  resolves : ∃ ss, g.surfaceLoops sl = some ss ∧ ss.mapM g.patch = some patches
  closed : ∀ p ∈ patches, Closed p

/-- Every line bounds two of the surfaces, in opposite directions -/
def Geo.Oriented (g : Geo K) (sl : ℕ) : Prop :=
  ∃ ss tags, g.surfaceLoops sl = some ss ∧ ss.mapM g.tags = some tags ∧ tags.flatten.Nodup ∧
    (tags.flatten.map fun l => -l).Perm tags.flatten

/-- Every line bounds two of the surfaces -/
def Geo.Watertight (g : Geo K) (sl : ℕ) : Prop :=
  ∃ ss tags, g.surfaceLoops sl = some ss ∧ ss.mapM g.tags = some tags ∧
    ∀ l ∈ tags.flatten, (tags.flatten.map Int.natAbs).count l.natAbs = 2

theorem Geo.Le.shell {g g' : Geo K} (h : g.Le g') {sl : ℕ} {patches} (hs : g.Shell sl patches) : g'.Shell sl patches := by
  obtain ⟨ss, h1, h2⟩ := hs.resolves
  exact ⟨⟨ss, h.surfaceLoops _ _ h1, mapM_mono (fun a b => h.patch) h2⟩, hs.closed⟩

theorem Geo.Le.oriented {g g' : Geo K} (h : g.Le g') {sl : ℕ} (hs : g.Oriented sl) : g'.Oriented sl := by
  obtain ⟨ss, tags, h1, h2, h3⟩ := hs
  exact ⟨ss, tags, h.surfaceLoops _ _ h1, mapM_mono (fun a b => h.tags) h2, h3⟩

theorem Geo.Le.watertight {g g' : Geo K} (h : g.Le g') {sl : ℕ} (hs : g.Watertight sl) : g'.Watertight sl := by
  obtain ⟨ss, tags, h1, h2, h3⟩ := hs
  exact ⟨ss, tags, h.surfaceLoops _ _ h1, mapM_mono (fun a b => h.tags) h2, h3⟩

theorem signed_injective {first : ℕ} (h : 1 ≤ first) : Function.Injective (signed first) := by
  rintro ⟨a, j⟩ ⟨b, k⟩ he
  unfold signed at he
  cases a <;> cases b <;> simp at he <;> (try omega)
  · simp; omega
  · simp; omega

theorem signed_neg (first : ℕ) (e : Bool × ℕ) : -signed first e = signed first (!e.1, e.2) := by
  obtain ⟨a, j⟩ := e
  unfold signed
  cases a <;> simp

end NuTo.GeoFile
