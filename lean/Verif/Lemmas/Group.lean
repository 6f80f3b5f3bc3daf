import Verif.Model.Group

namespace NuTo

theorem lowerBoundAux_spec (a : List Nat) (x : Nat) (hs : a.Pairwise (· < ·)) :
    ∀ (first len : Nat), first + len ≤ a.length →
      (∀ i (h : i < a.length), i < first → a[i] < x) →
      (∀ i (h : i < a.length), first + len ≤ i → x ≤ a[i]) →
      lowerBoundAux a x first len ≤ a.length ∧
      (∀ i (h : i < a.length), i < lowerBoundAux a x first len → a[i] < x) ∧
      (∀ i (h : i < a.length), lowerBoundAux a x first len ≤ i → x ≤ a[i]) := by
  have hmono : ∀ i j (hi : i < a.length) (hj : j < a.length), i < j → a[i] < a[j] := by
    intro i j hi hj hij
    exact List.pairwise_iff_getElem.mp hs i j hi hj hij
  intro first len
  induction len using Nat.strongRecOn generalizing first with
  | ind len ih =>
    intro hle hlo hhi
    unfold lowerBoundAux
    by_cases h0 : len = 0
    · subst h0; simp only [dite_true]
      exact ⟨by omega, hlo, by simpa using hhi⟩
    · simp only [h0, dite_false]
      have hlt : first + len / 2 < a.length := by omega
      have hget : a.getD (first + len / 2) 0 = a[first + len / 2] := by
        simp [List.getD_eq_getElem?_getD, List.getElem?_eq_getElem hlt]
      rw [hget]
      split
      · rename_i hlt2
        apply ih
        · omega
        · omega
        · intro i hi hlt3
          by_cases he : i = first + len / 2
          · subst he; exact hlt2
          · have := hmono i (first + len / 2) hi hlt (by omega)
            omega
        · intro i hi h5
          exact hhi i hi (by omega)
      · rename_i hge
        apply ih
        · omega
        · omega
        · exact hlo
        · intro i hi h5
          by_cases he : i = first + len / 2
          · subst he; omega
          · have := hmono (first + len / 2) i hlt hi (by omega)
            omega

theorem lowerBound_spec (a : List Nat) (x : Nat) (hs : a.Pairwise (· < ·)) :
    lowerBound a x ≤ a.length ∧
      (∀ i (h : i < a.length), i < lowerBound a x → a[i] < x) ∧
      (∀ i (h : i < a.length), lowerBound a x ≤ i → x ≤ a[i]) := by
  apply lowerBoundAux_spec a x hs 0 a.length
  · omega
  · intro i h h2; omega
  · intro i h h2; omega

theorem getElem?_lowerBound_iff (a : List Nat) (x : Nat) (hs : a.Pairwise (· < ·)) :
    a[lowerBound a x]? = some x ↔ x ∈ a := by
  obtain ⟨h1, h2, h3⟩ := lowerBound_spec a x hs
  constructor
  · intro h; exact List.mem_of_getElem? h
  · intro h
    obtain ⟨i, hi, rfl⟩ := List.getElem_of_mem h
    have hge : lowerBound a a[i] ≤ i := by
      apply Nat.le_of_not_lt
      intro hc
      have := h2 i hi hc
      omega
    have hlt : lowerBound a a[i] < a.length := by omega
    have h4 := h3 _ hlt (Nat.le_refl _)
    by_cases he : lowerBound a a[i] = i
    · rw [he]; simp
    · have := List.pairwise_iff_getElem.mp hs (lowerBound a a[i]) i hlt hi (by omega)
      omega

theorem sortedContains_iff (a : List Nat) (x : Nat) (hs : a.Pairwise (· < ·)) :
    sortedContains a x = true ↔ x ∈ a := by
  unfold sortedContains
  rw [beq_iff_eq]; exact getElem?_lowerBound_iff a x hs

theorem pairwise_lt_insertIdx (a : List Nat) (x k : Nat) (hs : a.Pairwise (· < ·))
    (hk : k ≤ a.length)
    (h1 : ∀ i (h : i < a.length), i < k → a[i] < x)
    (h2 : ∀ i (h : i < a.length), k ≤ i → x < a[i]) :
    (a.insertIdx k x).Pairwise (· < ·) := by
  induction a generalizing k with
  | nil =>
    have : k = 0 := by simpa using hk
    subst this; simp
  | cons b t ih =>
    cases k with
    | zero =>
      simp only [List.insertIdx_zero, List.pairwise_cons]
      refine ⟨?_, List.pairwise_cons.mp hs⟩
      intro c hc
      obtain ⟨i, hi, rfl⟩ := List.getElem_of_mem hc
      exact h2 i hi (Nat.zero_le _)
    | succ k =>
      simp only [List.insertIdx_succ_cons, List.pairwise_cons]
      have hs' := List.pairwise_cons.mp hs
      have hb : b < x := h1 0 (by simp) (by omega)
      refine ⟨?_, ?_⟩
      · intro c hc
        have hk' : k ≤ t.length := by simpa using hk
        rw [List.mem_insertIdx hk'] at hc
        rcases hc with rfl | hc
        · exact hb
        · exact hs'.1 c hc
      · apply ih k hs'.2 (by simpa using hk)
        · intro i h hlt
          exact h1 (i+1) (by simpa using h) (by omega)
        · intro i h hlt
          exact h2 (i+1) (by simpa using h) (by omega)

/-- consistency of the two containers of a group -/
structure Group.Inv (g : Group) : Prop where
  sorted : g.index.Pairwise (· < ·)
  same : ∀ x, x ∈ g.index ↔ x ∈ g.data
  nodup : g.data.Nodup

namespace Group

theorem inv_empty : Inv empty := ⟨List.Pairwise.nil, fun _ => Iff.rfl, List.nodup_nil⟩

theorem contains_iff {g : Group} (h : Inv g) (x : Nat) : g.contains x = true ↔ x ∈ g.data := by
  unfold contains; rw [sortedContains_iff _ _ h.sorted]; exact h.same x

theorem data_add {g : Group} (h : Inv g) (x : Nat) :
    (g.add x).data = if x ∈ g.data then g.data else g.data ++ [x] := by
  unfold add sortedAdd
  have := getElem?_lowerBound_iff g.index x h.sorted
  by_cases hx : x ∈ g.data
  · have hi := (h.same x).mpr hx
    simp [this.mpr hi, hx]
  · have hi : ¬ x ∈ g.index := fun hc => hx ((h.same x).mp hc)
    have : ¬ g.index[lowerBound g.index x]? = some x := fun hc => hi (this.mp hc)
    simp [this, hx]

theorem inv_add {g : Group} (h : Inv g) (x : Nat) : Inv (g.add x) := by
  obtain ⟨h1, h2, h3⟩ := lowerBound_spec g.index x h.sorted
  have hiff := getElem?_lowerBound_iff g.index x h.sorted
  by_cases hx : x ∈ g.data
  · have hi := (h.same x).mpr hx
    have : g.add x = g := by
      unfold add sortedAdd; simp [hiff.mpr hi]
    rw [this]; exact h
  · have hi : ¬ x ∈ g.index := fun hc => hx ((h.same x).mp hc)
    have hn : ¬ g.index[lowerBound g.index x]? = some x := fun hc => hi (hiff.mp hc)
    have : g.add x = ⟨g.data ++ [x], g.index.insertIdx (lowerBound g.index x) x⟩ := by
      unfold add sortedAdd; simp [hn]
    rw [this]
    refine ⟨?_, ?_, ?_⟩
    · apply pairwise_lt_insertIdx _ _ _ h.sorted h1 h2
      intro i hi' hle
      have := h3 i hi' hle
      rcases Nat.lt_or_eq_of_le this with hlt | heq
      · exact hlt
      · exact absurd (heq ▸ List.getElem_mem hi') hi
    · intro y
      simp only [List.mem_insertIdx h1, List.mem_append, List.mem_singleton, h.same y]
      exact Or.comm
    · simp only [List.nodup_append, h.nodup]
      simp
      intro a ha hc
      exact hx (hc ▸ ha)

theorem inv_foldl_add (xs : List Nat) (g : Group) (h : Inv g) : Inv (xs.foldl add g) := by
  induction xs generalizing g with
  | nil => exact h
  | cons x xs ih => exact ih _ (inv_add h x)

theorem data_foldl_add (xs : List Nat) (hn : xs.Nodup) (g : Group) (h : Inv g) :
    (xs.foldl add g).data = g.data ++ xs.filter (fun x => x ∉ g.data) := by
  induction xs generalizing g with
  | nil => simp
  | cons x xs ih =>
    have hn' := List.nodup_cons.mp hn
    rw [List.foldl_cons, ih hn'.2 _ (inv_add h x), data_add h]
    by_cases hx : x ∈ g.data
    · simp [hx]
    · simp only [hx, if_false]
      rw [List.append_assoc]
      congr 1
      simp only [hx, not_false_eq_true, decide_true, List.filter_cons_of_pos, List.singleton_append]
      congr 1
      apply List.filter_congr
      intro y hy
      have : y ≠ x := fun hc => hn'.1 (hc ▸ hy)
      simp [this]

theorem foldl_cond (p : Nat → Bool) (xs : List Nat) (g : Group) :
    xs.foldl (fun g t => if p t then g.add t else g) g = (xs.filter p).foldl add g := by
  induction xs generalizing g with
  | nil => rfl
  | cons x xs ih =>
    by_cases hp : p x
    · simp [hp, ih]
    · simp [hp, ih]

theorem foldl_cond' (p : Nat → Bool) (xs : List Nat) (g : Group) :
    xs.foldl (fun g t => if p t then g else g.add t) g = (xs.filter (fun x => !p x)).foldl add g := by
  rw [← foldl_cond]
  congr 1; funext g t; cases p t <;> rfl

theorem inv_unite {a b : Group} (ha : Inv a) : Inv (unite a b) := inv_foldl_add _ _ ha

theorem data_unite {a b : Group} (ha : Inv a) (hb : Inv b) :
    (unite a b).data = a.data ++ b.data.filter (fun x => x ∉ a.data) :=
  data_foldl_add _ hb.nodup _ ha

theorem inv_difference {a b : Group} : Inv (difference a b) := by
  unfold difference; rw [foldl_cond']; exact inv_foldl_add _ _ inv_empty

theorem data_difference {a b : Group} (ha : Inv a) (hb : Inv b) :
    (difference a b).data = a.data.filter (fun x => x ∉ b.data) := by
  unfold difference
  rw [foldl_cond', data_foldl_add _ (ha.nodup.filter _) _ inv_empty]
  rw [show ∀ l : List Nat, empty.data ++ l.filter (fun x => x ∉ empty.data) = l by
    intro l; simp [empty]]
  apply List.filter_congr
  intro x _
  by_cases hx : x ∈ b.data
  · simp [hx, (contains_iff hb x).mpr hx]
  · have : b.contains x = false := by
      rw [Bool.eq_false_iff]; intro hc; exact hx ((contains_iff hb x).mp hc)
    simp [hx, this]

theorem inv_intersection {a b : Group} : Inv (intersection a b) := by
  unfold intersection; rw [foldl_cond]; exact inv_foldl_add _ _ inv_empty

theorem data_intersection {a b : Group} (ha : Inv a) (hb : Inv b) :
    (intersection a b).data = a.data.filter (fun x => x ∈ b.data) := by
  unfold intersection
  rw [foldl_cond, data_foldl_add _ (ha.nodup.filter _) _ inv_empty]
  rw [show ∀ l : List Nat, empty.data ++ l.filter (fun x => x ∉ empty.data) = l by
    intro l; simp [empty]]
  apply List.filter_congr
  intro x _
  by_cases hx : x ∈ b.data
  · simp [hx, (contains_iff hb x).mpr hx]
  · have : b.contains x = false := by
      rw [Bool.eq_false_iff]; intro hc; exact hx ((contains_iff hb x).mp hc)
    simp [hx, this]

theorem data_symmetricDifference {a b : Group} (ha : Inv a) (hb : Inv b) :
    (symmetricDifference a b).data =
      a.data.filter (fun x => x ∉ b.data) ++ b.data.filter (fun x => x ∉ a.data) := by
  unfold symmetricDifference
  rw [data_difference (inv_unite ha) inv_intersection, data_unite ha hb,
    data_intersection ha hb, List.filter_append]
  congr 1
  · apply List.filter_congr
    intro x hx; simp [hx]
  · rw [List.filter_filter]
    apply List.filter_congr
    intro x hx
    by_cases hxa : x ∈ a.data <;> simp [hxa, hx]

end Group
end NuTo
