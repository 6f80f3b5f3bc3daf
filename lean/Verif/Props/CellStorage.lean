/-
C120: every integration point has its own history as long as the cells have different ids.
-/
import Verif.Model.CellStorage
import Verif.Props.DamageLaws
import Verif.Lemmas.MatrixAssembler

namespace NuTo.CellStorage

/-! ### Specification -/

/-- The cells that a call is expected to create. -/
def created (es : List Elem) (r : Rule) (start : Int) : List StoredCell :=
  es.zipIdx.map fun x => ⟨x.1.ref, r.ips, start + x.2⟩

/-- One call of `AddCells`. -/
structure Call where
  elements : List Elem
  rule : Rule
  start : Int

/-- All elements have the shape of the rule, and the ids are ids. -/
def Call.Ok (c : Call) : Prop :=
  (∀ e ∈ c.elements, e.shape = c.rule.shape) ∧ 0 ≤ c.start ∧ c.start + c.elements.length ≤ intMax

/-- The ids of two calls do not overlap. -/
def Call.Apart (c d : Call) : Prop :=
  c.start + c.elements.length ≤ d.start ∨ d.start + d.elements.length ≤ c.start

/-- The storage after some calls. -/
def storage (calls : List Call) : List StoredCell :=
  calls.foldl (fun s c => (addCells s c.elements c.rule c.start).1) []

/-- The equivalent strains that a cell has seen at one of its points. -/
def seenBy (l : List (StoredCell × (Nat → ℝ))) (c : StoredCell) (i : Nat) : List ℝ :=
  (l.filter fun x => x.1 = c).map fun x => x.2 i

/-- The updates of one cell: every point once. -/
def visits (c : StoredCell) (eeq : Nat → ℝ) : List (ℝ × Int × Int) :=
  (List.range c.ips).map fun (i : Nat) => (eeq i, c.id, (i : Int))

/-! ### Adding cells -/

theorem addLoop_ok (r : Rule) : ∀ (es : List Elem) (id : Int) (s : List StoredCell) (g : List Nat),
    (∀ e ∈ es, e.shape = r.shape) → id + es.length ≤ intMax →
    addLoop r es id s g = (s ++ created es r id, .ok (g ++ (List.range es.length).map fun k => s.length + k)) := by
  intro es
  induction es with
  | nil => intro id s g _ _; simp [addLoop, created]
  | cons e es ih =>
    intro id s g hs hid
    have hlen : ((e :: es).length : Int) = es.length + 1 := by simp
    rw [hlen] at hid
    have hne : id ≠ intMax := by omega
    rw [addLoop, if_neg hne, mkCell, if_neg (by rw [hs e List.mem_cons_self]; simp)]
    dsimp only
    rw [ih (id + 1) _ _ (fun e he => hs e (List.mem_cons_of_mem _ he)) (by omega)]
    have h1 : created (e :: es) r id = ⟨e.ref, r.ips, id⟩ :: created es r (id + 1) := by
      simp only [created, List.zipIdx_cons, List.map_cons, Nat.zero_add]
      congr 1
      · simp
      · rw [show es.zipIdx 1 = es.zipIdx.map fun x => (x.1, x.2 + 1) from by
          rw [List.zipIdx_succ]]
        rw [List.map_map]
        refine List.map_congr_left fun x _ => ?_
        simp only [Function.comp, Nat.cast_add, Nat.cast_one]
        congr 1
        ring
    rw [h1]
    refine Prod.ext (by simp) ?_
    simp only [List.length_cons, List.range_succ_eq_map, List.map_cons, List.map_map, List.append_assoc, List.length_append,
      List.length_nil, List.singleton_append, Nat.zero_add, Nat.add_zero]
    congr 3
    refine List.map_congr_left fun x _ => ?_
    simp only [Function.comp]
    omega

/-- C120: `AddCells` appends one cell per element, in the order of the elements, with consecutive ids; the group consists of
exactly these, the cells of earlier calls stay. -/
theorem C120_added (s : List StoredCell) (c : Call) (hs : ∀ e ∈ c.elements, e.shape = c.rule.shape)
    (hid : c.start + c.elements.length ≤ intMax) :
    ∃ g, addCells s c.elements c.rule c.start = (s ++ created c.elements c.rule c.start, .ok g) ∧
      g.map (fun k => (s ++ created c.elements c.rule c.start)[k]?) = (created c.elements c.rule c.start).map some ∧
      g.Nodup ∧ ∀ k ∈ g, s.length ≤ k := by
  refine ⟨_, addLoop_ok c.rule c.elements c.start s [] hs hid, ?_, ?_, ?_⟩
  · refine List.ext_getElem? fun k => ?_
    have hl : (created c.elements c.rule c.start).length = c.elements.length := by simp [created]
    by_cases hk : k < c.elements.length
    · simp [hk, hl, List.getElem?_append_right]
    · simp [hk, hl]
  · rw [List.nil_append]
    exact (List.nodup_range).map fun a b h => by simpa using h
  · intro k hk
    simp only [List.nil_append, List.mem_map] at hk
    obtain ⟨a, _, rfl⟩ := hk
    omega

/-- C120: an element of another shape is refused; the storage keeps the cells of the elements before it. -/
theorem C120_refused (s : List StoredCell) (r : Rule) (es fs : List Elem) (e : Elem) (start : Int)
    (hs : ∀ f ∈ es, f.shape = r.shape) (he : e.shape ≠ r.shape) (hid : start + es.length < intMax) :
    addCells s (es ++ e :: fs) r start = (s ++ created es r start, .throw) := by
  have key : ∀ (es : List Elem) (id : Int) (s : List StoredCell) (g : List Nat), (∀ f ∈ es, f.shape = r.shape) →
      id + es.length < intMax → addLoop r (es ++ e :: fs) id s g = ((addLoop r es id s g).1, .throw) := by
    intro es
    induction es with
    | nil =>
      intro id s g _ hid
      simp only [List.length_nil, Nat.cast_zero, add_zero] at hid
      simp [addLoop, mkCell, he, hid.ne]
    | cons f es ih =>
      intro id s g hs hid
      have hlen : ((f :: es).length : Int) = es.length + 1 := by simp
      rw [hlen] at hid
      have hne : id ≠ intMax := by omega
      have hm : mkCell f r id = .ok ⟨f.ref, r.ips, id⟩ := by rw [mkCell, if_neg (by rw [hs f List.mem_cons_self]; simp)]
      rw [List.cons_append, addLoop, if_neg hne, hm, addLoop, if_neg hne, hm]
      exact ih _ _ _ (fun g hg => hs g (List.mem_cons_of_mem _ hg)) (by omega)
  rw [addCells, key es start s [] hs hid, addLoop_ok r es start s [] hs hid.le]

theorem storage_snoc (calls : List Call) (c : Call) :
    storage (calls ++ [c]) = (addCells (storage calls) c.elements c.rule c.start).1 := by
  simp [storage]

theorem storage_eq (calls : List Call) (h : ∀ c ∈ calls, c.Ok) :
    storage calls = calls.flatMap fun c => created c.elements c.rule c.start := by
  induction calls using List.reverseRecOn with
  | nil => rfl
  | append_singleton l c ih =>
    have hc := h c (by simp)
    rw [storage_snoc, ih fun d hd => h d (by simp [hd]), addCells, addLoop_ok _ _ _ _ _ hc.1 hc.2.2]
    simp

theorem created_id {es : List Elem} {r : Rule} {start : Int} {x : StoredCell} (h : x ∈ created es r start) :
    start ≤ x.id ∧ x.id < start + es.length := by
  obtain ⟨y, hy, rfl⟩ := List.mem_map.1 h
  have := List.mem_zipIdx hy
  simp only
  omega

/-- C120: if the ids of the calls do not overlap, then all cells have different ids. -/
theorem C120_distinct (calls : List Call) (h : ∀ c ∈ calls, c.Ok) (hd : calls.Pairwise Call.Apart) :
    (storage calls).Pairwise fun x y => x.id ≠ y.id := by
  rw [storage_eq calls h]
  rw [List.pairwise_flatMap]
  refine ⟨fun c _ => ?_, hd.imp fun {c d} hcd x hx y hy => ?_⟩
  · rw [created, List.pairwise_map]
    rw [List.pairwise_iff_getElem]
    intro i j hi hj hij
    simp only [List.getElem_zipIdx, Nat.zero_add]
    omega
  · have h1 := created_id hx
    have h2 := created_id hy
    rcases hcd with h | h <;> omega

/-! ### History -/

theorem apply_run (h : History) (c : StoredCell) (eeq : Nat → ℝ) :
    apply h c eeq = h.run (visits c eeq) := by
  rw [apply, History.run, visits]
  generalize List.range c.ips = l
  induction l generalizing h with
  | nil => rfl
  | cons i l ih =>
    rw [Res.foldlM_cons, List.map_cons, Res.foldlM_cons]
    cases h.update (eeq i) c.id i with
    | ok h' => simp only [Res.bind_ok']; exact ih h'
    | throw => rfl
    | ub => rfl

theorem updateAll_run (h : History) (l : List (StoredCell × (Nat → ℝ))) :
    updateAll h l = h.run (l.flatMap fun x => visits x.1 x.2) := by
  induction l generalizing h with
  | nil => rfl
  | cons x l ih =>
    rw [updateAll, Res.foldlM_cons, List.flatMap_cons, History.run, Res.foldlM_append, apply_run]
    show (h.run _).bind _ = (h.run _).bind _
    cases h.run (visits x.1 x.2) with
    | ok h' => simp only [Res.bind_ok']; exact ih h'
    | throw => rfl
    | ub => rfl

theorem visits_at (c : StoredCell) (eeq : Nat → ℝ) (i : Nat) (hi : i < c.ips) :
    seen (visits c eeq) c.id i = [eeq i] := by
  have key : ∀ n : Nat, seen ((List.range n).map fun (k : Nat) => (eeq k, c.id, (k : Int))) c.id i =
      if i < n then [eeq i] else [] := by
    intro n
    induction n with
    | zero => rfl
    | succ n ih =>
      simp only [seen] at ih ⊢
      rw [List.range_succ, List.map_append, List.filter_append, List.map_append, ih]
      by_cases h : i < n
      · have : n ≠ i := by omega
        simp [h, this, Nat.lt_succ_of_lt h]
      · by_cases h' : n = i
        · subst h'; simp
        · have : ¬ i < n + 1 := by omega
          simp [h, h', this]
  rw [visits, key, if_pos hi]

theorem seen_eq {S : List StoredCell} (hS : S.Pairwise fun x y => x.id ≠ y.id) (l : List (StoredCell × (Nat → ℝ)))
    (hl : ∀ x ∈ l, x.1 ∈ S) (c : StoredCell) (hc : c ∈ S) (i : Nat) (hi : i < c.ips) :
    seen (l.flatMap fun x => visits x.1 x.2) c.id i = seenBy l c i := by
  have hinj : ∀ x ∈ S, x.id = c.id → x = c := by
    intro x hx h
    by_contra hne
    haveI : Std.Symm fun x y : StoredCell => x.id ≠ y.id := ⟨fun _ _ h => h.symm⟩
    exact hS.forall hx hc hne h
  induction l with
  | nil => rfl
  | cons x l ih =>
    have ih := ih fun y hy => hl y (List.mem_cons_of_mem _ hy)
    have hsplit : seen ((x :: l).flatMap fun x => visits x.1 x.2) c.id i =
        seen (visits x.1 x.2) c.id i ++ seen (l.flatMap fun x => visits x.1 x.2) c.id i := by
      simp only [seen, List.flatMap_cons, List.filter_append, List.map_append]
    rw [hsplit, ih]
    by_cases hx : x.1 = c
    · have h2 : seenBy (x :: l) c i = x.2 i :: seenBy l c i := by
        simp only [seenBy, List.filter_cons, hx, decide_true, if_true, List.map_cons]
      rw [h2, hx, visits_at c x.2 i hi]
      rfl
    · have hid : x.1.id ≠ c.id := fun h => hx (hinj _ (hl x List.mem_cons_self) h)
      have h2 : seenBy (x :: l) c i = seenBy l c i := by
        simp only [seenBy, List.filter_cons, hx, decide_false, Bool.false_eq_true, if_false]
      have h3 : seen (visits x.1 x.2) c.id i = [] := by
        rw [seen, List.filter_eq_nil_iff.2, List.map_nil]
        intro u hu
        obtain ⟨k, _, rfl⟩ := List.mem_map.1 hu
        simp [hid]
      rw [h2, h3, List.nil_append]

/-- C120: if the ids are different and the history data large enough, then the history variable of a point is the largest
equivalent strain that this cell has seen at this point, in whatever order and how often the cells are updated.

Partial: the default ids of several calls are not different, see `C120_default_counterexample`. -/
theorem C120_own_partial (S : List StoredCell) (hS : S.Pairwise fun x y => x.id ≠ y.id) (h : History)
    (hr : ∀ c ∈ S, 0 ≤ c.id ∧ c.id < h.rows ∧ c.ips ≤ h.cols) (l : List (StoredCell × (Nat → ℝ))) (hl : ∀ x ∈ l, x.1 ∈ S) :
    ∃ h', updateAll h l = .ok h' ∧ h'.rows = h.rows ∧ h'.cols = h.cols ∧
      ∀ c ∈ S, ∀ i < c.ips, h'.val c.id.toNat i = (seenBy l c i).foldl max (h.val c.id.toNat i) := by
  rw [updateAll_run]
  obtain ⟨h', h1, h2, h3, h4⟩ := C36_maximum h
    (l.flatMap fun x => visits x.1 x.2) (by
      intro u hu
      obtain ⟨x, hx, hu⟩ := List.mem_flatMap.1 hu
      obtain ⟨i, hi, rfl⟩ := List.mem_map.1 hu
      obtain ⟨a, b, c⟩ := hr _ (hl x hx)
      have := List.mem_range.1 hi
      exact ⟨a, b, by simp, by simp only; omega⟩)
  refine ⟨h', h1, h2, h3, fun c hc i hi => ?_⟩
  rw [h4]
  congr 1
  have := (hr c hc).1
  rw [show ((c.id.toNat : Nat) : Int) = c.id from by omega]
  exact seen_eq hS l hl c hc i hi

/-- C120: with the default ids, two calls of `AddCells` make their first cells share the history: a point of the second group
whose strains were always zero carries the history of the first group. -/
theorem C120_default_counterexample : ∃ (calls : List Call), (∀ c ∈ calls, c.Ok ∧ c.start = defaultStart) ∧
    ∃ c d, storage calls = [c, d] ∧ c ≠ d ∧
      ∀ x : ℝ, 0 < x → ∃ h', updateAll (History.resize 1 1) [(c, fun _ => x), (d, fun _ => 0)] = .ok h' ∧
        h'.get d.id 0 = .ok x := by
  refine ⟨[⟨[⟨0, 0⟩], ⟨0, 1⟩, 0⟩, ⟨[⟨1, 1⟩], ⟨1, 1⟩, 0⟩], ?_, ⟨0, 1, 0⟩, ⟨1, 1, 0⟩, rfl, by decide, fun x hx => ?_⟩
  · intro c hc
    simp only [List.mem_cons, List.not_mem_nil, or_false] at hc
    rcases hc with rfl | rfl <;> simp [Call.Ok, intMax, defaultStart]
  · rw [updateAll_run]
    obtain ⟨h', h1, h2, h3, h4⟩ := C36_maximum (History.resize 1 1)
      ([((⟨0, 1, 0⟩ : StoredCell), fun _ => x), (⟨1, 1, 0⟩, fun _ => (0 : ℝ))].flatMap
        fun y => visits y.1 y.2) (by
        simp [visits, List.range_succ, History.InRange, History.resize])
    refine ⟨h', h1, ?_⟩
    have h5 := h4 0 0
    rw [History.get, if_pos (by rw [h2, h3]; simp [History.resize])]
    congr 1
    show h'.val 0 0 = x
    rw [h5]
    simp [seen, visits, List.range_succ, History.resize, hx.le]

/-- C120: a point of a cell beyond the allocated history data makes the update undefined; so the constructor from the material
alone, which allocates one point, is enough for one cell with one point only. -/
theorem C120_allocation (h : History) (c : StoredCell) (eeq : Nat → ℝ) (hp : 0 < c.ips)
    (hn : ¬ (0 ≤ c.id ∧ c.id < h.rows ∧ 0 < h.cols)) : updateAll h [(c, eeq)] = .ub := by
  rw [updateAll, Res.foldlM_cons, apply]
  obtain ⟨k, hk⟩ : ∃ k, c.ips = k + 1 := ⟨c.ips - 1, by omega⟩
  rw [hk, List.range_succ_eq_map, Res.foldlM_cons]
  have : h.update (eeq 0) c.id ((0 : Nat) : Int) = .ub := by
    rw [History.update, History.kappa, History.get, if_neg (by
      simp only [Nat.cast_zero, le_refl, true_and, Nat.cast_pos]
      exact hn)]
    rfl
  rw [this]
  rfl

/-! ### Example -/

/-- Two calls with ids 0, 1 and 2: hypotheses of C120_distinct and C120_own_partial. -/
example : ∃ calls : List Call, (∀ c ∈ calls, c.Ok) ∧ calls.Pairwise Call.Apart ∧ (storage calls).length = 3 ∧
    ∀ c ∈ storage calls, 0 ≤ c.id ∧ c.id < (History.resize 3 4).rows ∧ c.ips ≤ (History.resize 3 4).cols := by
  refine ⟨[⟨[⟨0, 0⟩, ⟨1, 0⟩], ⟨0, 4⟩, 0⟩, ⟨[⟨2, 1⟩], ⟨1, 1⟩, 2⟩], ?_, ?_, rfl, ?_⟩
  · simp [Call.Ok, intMax]
  · simp [Call.Apart]
  · have : storage [⟨[⟨0, 0⟩, ⟨1, 0⟩], ⟨0, 4⟩, 0⟩, ⟨[⟨2, 1⟩], ⟨1, 1⟩, 2⟩] = [⟨0, 4, 0⟩, ⟨1, 4, 1⟩, ⟨2, 1, 2⟩] := rfl
    rw [this]
    simp [History.resize]

end NuTo.CellStorage
