import Verif.Model.Basic
import Mathlib.Order.Basic
import Mathlib.Tactic.ByContra

namespace NuTo.OMap
variable {κ α : Type _} [LinearOrder κ]

theorem find?_set (m : OMap κ α) (k : κ) (v : α) (j : κ) :
    (m.set k v).find? j = if j = k then some v else m.find? j := by
  induction m with
  | nil => simp [set, find?]
  | cons e t ih =>
    obtain ⟨k', v'⟩ := e
    simp only [set]
    split
    · rename_i h
      simp only [find?]
    · split
      · rename_i h1 h2
        subst h2
        simp only [find?]
        by_cases hj : j = k <;> simp [hj]
      · rename_i h1 h2
        simp only [find?, ih]
        by_cases hj : j = k'
        · have : j ≠ k := fun hc => h2 (hc ▸ hj)
          simp [hj] at *
          intro hc; exact absurd hc.symm h2
        · simp [hj]

theorem mem_set {m : OMap κ α} {k : κ} {v : α} {e : κ × α} (h : e ∈ m.set k v) :
    e = (k, v) ∨ e ∈ m := by
  induction m with
  | nil => simpa [set] using h
  | cons e' t ih =>
    obtain ⟨k', v'⟩ := e'
    simp only [set] at h
    split at h
    · simpa using h
    · split at h
      · rcases List.mem_cons.mp h with h | h
        · exact Or.inl h
        · exact Or.inr (List.mem_cons_of_mem _ h)
      · rcases List.mem_cons.mp h with h | h
        · exact Or.inr (h ▸ List.mem_cons_self)
        · rcases ih h with h | h
          · exact Or.inl h
          · exact Or.inr (List.mem_cons_of_mem _ h)

theorem sorted_set {m : OMap κ α} (hm : m.Sorted) (k : κ) (v : α) : (m.set k v).Sorted := by
  induction m with
  | nil => simp [set, Sorted]
  | cons e t ih =>
    obtain ⟨k', v'⟩ := e
    have hm' := List.pairwise_cons.mp hm
    simp only [set]
    split
    · rename_i h
      refine List.pairwise_cons.mpr ⟨?_, hm⟩
      intro a ha
      rcases List.mem_cons.mp ha with rfl | ha
      · exact h
      · exact lt_trans h (hm'.1 a ha)
    · split
      · rename_i h1 h2
        subst h2
        exact List.pairwise_cons.mpr ⟨hm'.1, hm'.2⟩
      · rename_i h1 h2
        refine List.pairwise_cons.mpr ⟨?_, ih hm'.2⟩
        intro a ha
        rcases mem_set ha with rfl | ha
        · exact lt_of_le_of_ne (not_lt.mp h1) (fun hc => h2 hc.symm)
        · exact hm'.1 a ha

theorem find?_eq_none_of_lt {m : OMap κ α} {k : κ} (h : ∀ e ∈ m, k < e.1) : m.find? k = none := by
  induction m with
  | nil => rfl
  | cons e t ih =>
    obtain ⟨k', v'⟩ := e
    have h1 : k < k' := h _ List.mem_cons_self
    simp only [find?, ne_of_lt h1, if_false]
    exact ih fun e he => h e (List.mem_cons_of_mem _ he)

theorem mem_of_find? {m : OMap κ α} {k : κ} {v : α} (h : m.find? k = some v) : (k, v) ∈ m := by
  induction m with
  | nil => simp [find?] at h
  | cons e t ih =>
    obtain ⟨k', v'⟩ := e
    simp only [find?] at h
    split at h
    · rename_i hk
      simp at h; subst hk; subst h; exact List.mem_cons_self
    · exact List.mem_cons_of_mem _ (ih h)

theorem find?_of_mem {m : OMap κ α} (hm : m.Sorted) {k : κ} {v : α} (h : (k, v) ∈ m) :
    m.find? k = some v := by
  induction m with
  | nil => simp at h
  | cons e t ih =>
    obtain ⟨k', v'⟩ := e
    have hm' := List.pairwise_cons.mp hm
    rcases List.mem_cons.mp h with h | h
    · have h1 : k = k' := congrArg Prod.fst h
      have h2 : v = v' := congrArg Prod.snd h
      simp [find?, h1, h2]
    · have := hm'.1 _ h
      simp only at this
      simp [find?, (ne_of_lt this).symm, ih hm'.2 h]

theorem ext_find? {m n : OMap κ α} (hm : m.Sorted) (hn : n.Sorted)
    (h : ∀ k, m.find? k = n.find? k) : m = n := by
  induction m generalizing n with
  | nil =>
    cases n with
    | nil => rfl
    | cons e t =>
      have := h e.1
      simp [find?] at this
  | cons e t ih =>
    cases n with
    | nil =>
      have := h e.1
      simp [find?] at this
    | cons f s =>
      obtain ⟨k, v⟩ := e
      obtain ⟨k', v'⟩ := f
      have hm' := List.pairwise_cons.mp hm
      have hn' := List.pairwise_cons.mp hn
      have hk : k = k' := by
        by_contra hne
        rcases lt_or_gt_of_ne hne with hlt | hlt
        · have h1 := h k
          have : find? s k = none := find?_eq_none_of_lt fun e he => lt_trans hlt (hn'.1 e he)
          simp [find?, hne, this] at h1
        · have h1 := h k'
          have : find? t k' = none := find?_eq_none_of_lt fun e he => lt_trans hlt (hm'.1 e he)
          simp [find?, Ne.symm hne, this] at h1
      subst hk
      have hv : v = v' := by simpa [find?] using h k
      subst hv
      congr 1
      apply ih hm'.2 hn'.2
      intro j
      by_cases hj : j = k
      · subst hj
        rw [find?_eq_none_of_lt fun e he => hm'.1 e he, find?_eq_none_of_lt fun e he => hn'.1 e he]
      · simpa [find?, hj] using h j

theorem find?_isSome_iff {m : OMap κ α} {k : κ} : (m.find? k).isSome ↔ k ∈ m.keys := by
  induction m with
  | nil => simp [find?, keys]
  | cons e t ih =>
    obtain ⟨k', v'⟩ := e
    simp only [find?, keys, List.map_cons, List.mem_cons]
    by_cases h : k = k'
    · simp [h]
    · simp only [h, if_false, false_or]; exact ih

theorem nodup_keys {m : OMap κ α} (hm : m.Sorted) : m.keys.Nodup := by
  induction m with
  | nil => simp [keys]
  | cons e t ih =>
    have hm' := List.pairwise_cons.mp hm
    simp only [keys, List.map_cons, List.nodup_cons]
    refine ⟨?_, ih hm'.2⟩
    intro hc
    obtain ⟨a, ha, hae⟩ := List.mem_map.mp hc
    exact absurd (hm'.1 a ha) (by rw [hae]; exact lt_irrefl _)

end NuTo.OMap
