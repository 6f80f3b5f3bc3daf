/-
C49: the pvd collection is well-formed after every plot.
-/
import Verif.Model.Visualize
import Mathlib.Data.List.Induction

namespace NuTo.Visualize

/-- One call of `Plot`: the formatted time and what the visualizers export. -/
abbrev PlotCall := List Char × (List Char → List Char)

/-- Specification: the pvd file of a visualizer after these calls: one entry per call, in order. -/
def pvdAfter (name : List Char) (calls : List PlotCall) : List Char :=
  pvdHeader ++ (calls.zipIdx.flatMap fun ci => pvdEntry ci.1.1 (vtuName name ci.2)) ++ pvdFooter

/-- Specification: the sequence of calls. -/
def plots (p : PostProcess) (calls : List PlotCall) : PostProcess :=
  calls.foldl (fun (p : PostProcess) (c : PlotCall) => p.plot c.1 c.2) p

theorem toDigits_inj (a b : Nat) (h : Nat.toDigits 10 a = Nat.toDigits 10 b) : a = b := by
  rw [← Nat.ofDigitChars_ten_toDigits (n := a), h, Nat.ofDigitChars_ten_toDigits]

theorem vtu_ne_pvd (m n : List Char) (k : Nat) : vtuName m k ≠ pvdName n := by
  intro h
  have h1 : (vtuName m k).getLast? = some 'u' := by
    rw [vtuName, List.getLast?_append]; rfl
  have h2 : (pvdName n).getLast? = some 'd' := by
    rw [pvdName, List.getLast?_append]; rfl
  rw [h, h2] at h1
  exact absurd h1 (by decide)

theorem pvdName_inj (m n : List Char) (h : pvdName m = pvdName n) : m = n := List.append_cancel_right h

theorem vtuName_inj (n : List Char) (j k : Nat) (h : vtuName n j = vtuName n k) : j = k := by
  rw [vtuName, vtuName, List.append_assoc, List.append_assoc] at h
  exact toDigits_inj _ _ (List.append_cancel_right (List.append_cancel_left h))

/-- What a new entry does to a well-formed file. -/
theorem addToPvdFile_some (pre time vtu : List Char) :
    addToPvdFile (some (pre ++ pvdFooter)) vtu time = pre ++ pvdEntry time vtu ++ pvdFooter := by
  rw [addToPvdFile]
  rw [if_pos (by rw [List.length_append]; omega), writeAt, List.length_append, Nat.add_sub_cancel, List.take_left]
  have : (pre ++ pvdFooter).drop (pre.length + (pvdEntry time vtu ++ pvdFooter).length) = [] := by
    rw [List.drop_eq_nil_iff, List.length_append, List.length_append]; omega
  rw [this, List.append_nil, List.append_assoc]

theorem addToPvdFile_none (time vtu : List Char) :
    addToPvdFile none vtu time = pvdHeader ++ pvdEntry time vtu ++ pvdFooter := by
  rw [addToPvdFile]
  rw [List.append_assoc]

theorem plotOne_other (step : Nat) (time : List Char) (vtu : List Char → List Char) (d : Dir) (m n : List Char)
    (h : m ≠ n) : plotOne step time vtu d m (pvdName n) = d (pvdName n) := by
  rw [plotOne]
  rw [Dir.set, if_neg fun e => h (pvdName_inj _ _ e).symm, Dir.set, if_neg fun e => vtu_ne_pvd _ _ _ e.symm]

theorem plotOne_self (step : Nat) (time : List Char) (vtu : List Char → List Char) (d : Dir) (n : List Char) :
    plotOne step time vtu d n (pvdName n) = some (addToPvdFile (d (pvdName n)) (vtuName n step) time) := by
  rw [plotOne]
  rw [Dir.set, if_pos rfl, Dir.set, if_neg fun e => vtu_ne_pvd _ _ _ e.symm]

theorem plot_pvd (names : List (List Char)) (hn : names.Nodup) (step : Nat) (time : List Char)
    (vtu : List Char → List Char) (d : Dir) (n : List Char) :
    names.foldl (plotOne step time vtu) d (pvdName n) =
      if n ∈ names then some (addToPvdFile (d (pvdName n)) (vtuName n step) time) else d (pvdName n) := by
  induction names generalizing d with
  | nil => rfl
  | cons m t ih =>
    obtain ⟨hm, ht⟩ := List.nodup_cons.mp hn
    rw [List.foldl_cons, ih ht]
    by_cases e : n = m
    · subst e
      rw [if_neg hm, if_pos List.mem_cons_self, plotOne_self]
    · rw [plotOne_other _ _ _ _ _ _ fun h => e h.symm]
      simp [e]

theorem plots_names (p : PostProcess) (calls : List PlotCall) :
    (plots p calls).names = p.names ∧ (plots p calls).step = p.step + calls.length := by
  induction calls generalizing p with
  | nil => exact ⟨rfl, rfl⟩
  | cons c t ih =>
    obtain ⟨h1, h2⟩ := ih (p.plot c.1 c.2)
    refine ⟨h1, ?_⟩
    rw [plots, List.foldl_cons]
    exact h2.trans (by rw [List.length_cons]; show p.step + 1 + t.length = _; omega)

theorem plots_concat (p : PostProcess) (calls : List PlotCall) (c : PlotCall) :
    plots p (calls ++ [c]) = (plots p calls).plot c.1 c.2 := by
  rw [plots, List.foldl_append]; rfl

/-- C49: after any number of `Plot` calls into a new result directory, the pvd file of every visualizer
consists of the header, one entry per call in call order with its time and file name, and the footer; before
the first call there is no file. -/
theorem C49_pvd (names : List (List Char)) (hn : names.Nodup) (name : List Char) (hname : name ∈ names)
    (calls : List PlotCall) :
    (plots (PostProcess.make names) calls).dir (pvdName name) =
      if calls = [] then none else some (pvdAfter name calls) := by
  induction calls using List.reverseRecOn with
  | nil => rfl
  | append_singleton calls c ih =>
    obtain ⟨h1, h2⟩ := plots_names (PostProcess.make names) calls
    have h2' : (plots (PostProcess.make names) calls).step = calls.length := by
      rw [h2]; exact Nat.zero_add _
    rw [plots_concat, PostProcess.plot]
    dsimp only
    rw [h1, h2']
    change names.foldl (plotOne _ _ _) _ _ = _
    have hne : calls ++ [c] ≠ [] := by simp
    rw [plot_pvd names hn, if_pos hname, ih, if_neg hne]
    by_cases hc : calls = []
    · subst hc
      rw [if_pos rfl, addToPvdFile_none]
      simp [pvdAfter]
    · rw [if_neg hc, pvdAfter, addToPvdFile_some, pvdAfter, List.zipIdx_append, List.flatMap_append]
      simp

/-- C49: the entries of one visualizer name different files. -/
theorem C49_names_differ (name : List Char) (i j : Nat) (h : i ≠ j) : vtuName name i ≠ vtuName name j :=
  fun e => h (vtuName_inj _ _ _ e)

theorem vtuName_eq_cases (m n : List Char) (j k : Nat) (h : vtuName m j = vtuName n k) (hne : m ≠ n) :
    ∃ d, d ≠ [] ∧ (∀ c ∈ d, c.isDigit) ∧ (m = n ++ d ∨ n = m ++ d) := by
  rw [vtuName, vtuName] at h
  have h' := List.append_cancel_right h
  have hd : ∀ (k : Nat) (c : Char), c ∈ Nat.toDigits 10 k → c.isDigit :=
    fun k c hc => Nat.isDigit_of_mem_toDigits (by decide) (by decide) hc
  rcases List.append_eq_append_iff.mp h' with ⟨d, e1, e2⟩ | ⟨d, e1, e2⟩
  · refine ⟨d, fun e => hne (by rw [e1, e, List.append_nil]), fun c hc => hd j c ?_, Or.inr e1⟩
    rw [e2]; exact List.mem_append_left _ hc
  · refine ⟨d, fun e => hne (by rw [e1, e, List.append_nil]), fun c hc => hd k c ?_, Or.inl e1⟩
    rw [e2]; exact List.mem_append_left _ hc

theorem plotOne_vtu (step : Nat) (time : List Char) (vtu : List Char → List Char) (d : Dir) (m f : List Char)
    (h : vtuName m step ≠ f) (hp : ∀ n, pvdName n ≠ f) : plotOne step time vtu d m f = d f := by
  rw [plotOne]
  rw [Dir.set, if_neg fun e => hp m e.symm, Dir.set, if_neg fun e => h e.symm]

theorem plot_vtu (names : List (List Char)) (step : Nat) (time : List Char)
    (vtu : List Char → List Char) (d : Dir) (n : List Char) (hn : names.Nodup) (hname : n ∈ names)
    (hne : ∀ m ∈ names, m ≠ n → vtuName m step ≠ vtuName n step) :
    names.foldl (plotOne step time vtu) d (vtuName n step) = some (vtu n) := by
  induction names generalizing d with
  | nil => cases hname
  | cons m t ih =>
    obtain ⟨hm, ht⟩ := List.nodup_cons.mp hn
    rw [List.foldl_cons]
    rcases List.mem_cons.mp hname with rfl | hmem
    · have key : ∀ (l : List (List Char)) (d : Dir), (∀ m ∈ l, vtuName m step ≠ vtuName n step) →
          l.foldl (plotOne step time vtu) d (vtuName n step) = d (vtuName n step) := by
        intro l
        induction l with
        | nil => intro d _; rfl
        | cons a l ih' =>
          intro d hl
          rw [List.foldl_cons, ih' _ fun x hx => hl x (List.mem_cons_of_mem _ hx),
            plotOne_vtu _ _ _ _ _ _ (hl a List.mem_cons_self) fun n' => (vtu_ne_pvd _ _ _).symm]
      rw [key t _ fun x hx => hne x (List.mem_cons_of_mem _ hx) fun e => hm (e ▸ hx)]
      rw [plotOne]
      rw [Dir.set, if_neg (vtu_ne_pvd _ _ _), Dir.set, if_pos rfl]
    · exact ih _ ht hmem fun x hx => hne x (List.mem_cons_of_mem _ hx)

theorem plot_vtu_other (names : List (List Char)) (step : Nat) (time : List Char)
    (vtu : List Char → List Char) (d : Dir) (f : List Char) (hp : ∀ n, pvdName n ≠ f)
    (hne : ∀ m ∈ names, vtuName m step ≠ f) : names.foldl (plotOne step time vtu) d f = d f := by
  induction names generalizing d with
  | nil => rfl
  | cons m t ih =>
    rw [List.foldl_cons, ih _ fun x hx => hne x (List.mem_cons_of_mem _ hx),
      plotOne_vtu _ _ _ _ _ _ (hne m List.mem_cons_self) hp]

/-- C49: the file named by entry `k` contains what was exported for this visualizer in call `k`, provided the name
of no other visualizer differs only by digits at the end.  Otherwise see the counterexample. -/
theorem C49_files_partial (names : List (List Char)) (hn : names.Nodup) (name : List Char) (hname : name ∈ names)
    (hdig : ∀ m ∈ names, ∀ d : List Char, d ≠ [] → (∀ c ∈ d, c.isDigit) → m ≠ name ++ d ∧ name ≠ m ++ d)
    (calls : List PlotCall) (k : Nat) (c : PlotCall) (hk : calls[k]? = some c) :
    (plots (PostProcess.make names) calls).dir (vtuName name k) = some (c.2 name) := by
  have hdiff : ∀ m ∈ names, m ≠ name → ∀ j, vtuName m j ≠ vtuName name k := by
    intro m hm hne j e
    obtain ⟨d, hd, hd', h | h⟩ := vtuName_eq_cases m name j k e hne
    · exact (hdig m hm d hd hd').1 h
    · exact (hdig m hm d hd hd').2 h
  induction calls using List.reverseRecOn with
  | nil => cases hk
  | append_singleton calls c' ih =>
    obtain ⟨h1, h2⟩ := plots_names (PostProcess.make names) calls
    have h2' : (plots (PostProcess.make names) calls).step = calls.length := by
      rw [h2]; exact Nat.zero_add _
    rw [plots_concat, PostProcess.plot]
    dsimp only
    rw [h1, h2']
    change names.foldl (plotOne _ _ _) _ _ = _
    by_cases hlt : k < calls.length
    · rw [List.getElem?_append_left hlt] at hk
      rw [plot_vtu_other names _ _ _ _ _ (fun n => (vtu_ne_pvd _ _ _).symm), ih hk]
      intro m hm
      by_cases e : m = name
      · subst e
        exact C49_names_differ _ _ _ (by omega)
      · exact hdiff m hm e _
    · have hkl : k = calls.length := by
        have := (List.getElem?_eq_some_iff.mp hk).1
        rw [List.length_append] at this
        simp only [List.length_cons, List.length_nil] at this
        omega
      subst hkl
      rw [List.getElem?_append_right (le_refl _), Nat.sub_self] at hk
      cases hk
      exact plot_vtu names _ _ _ _ _ hn hname fun m hm hne => hdiff m hm hne _

/-- C49 fails for two visualizers `a` and `a1`: step 11 of `a` and step 1 of `a1` are the same file, so after
twelve calls the second entry of `a1.pvd` shows the data of `a`. -/
theorem C49_files_counterexample (calls : List PlotCall) (hl : calls.length = 12) :
    vtuName "a".toList 11 = vtuName "a1".toList 1 ∧
    ∃ c, calls[11]? = some c ∧
      (plots (PostProcess.make ["a".toList, "a1".toList]) calls).dir (vtuName "a1".toList 1) = some (c.2 "a".toList) := by
  have hv : vtuName "a".toList 11 = vtuName "a1".toList 1 := by decide +kernel
  refine ⟨hv, ?_⟩
  obtain ⟨pre, c, rfl⟩ : ∃ pre c, calls = pre ++ [c] := by
    rcases List.eq_nil_or_concat calls with rfl | ⟨pre, c, rfl⟩
    · cases hl
    · exact ⟨pre, c, List.concat_eq_append⟩
  have hp : pre.length = 11 := by
    rw [List.length_append] at hl
    simp only [List.length_cons, List.length_nil] at hl
    omega
  refine ⟨c, by rw [List.getElem?_append_right (by omega), hp]; rfl, ?_⟩
  obtain ⟨h1, h2⟩ := plots_names (PostProcess.make ["a".toList, "a1".toList]) pre
  have h2' : (plots (PostProcess.make ["a".toList, "a1".toList]) pre).step = 11 := by
    rw [h2, hp]; rfl
  rw [plots_concat, PostProcess.plot]
  dsimp only
  rw [h1, h2', ← hv]
  exact plot_vtu ["a".toList, "a1".toList] 11 _ _ _ "a".toList (by decide +kernel) (by decide +kernel)
    (by decide +kernel)

example : ∀ m ∈ ["volume".toList, "surface".toList], ∀ d : List Char, d ≠ [] → (∀ c ∈ d, c.isDigit) →
    m ≠ "volume".toList ++ d ∧ "volume".toList ≠ m ++ d := by
  intro m hm d hd _
  simp only [List.mem_cons, List.not_mem_nil, or_false] at hm
  rcases hm with rfl | rfl
  · exact ⟨fun e => hd (List.append_right_eq_self.mp e.symm), fun e => hd (List.append_right_eq_self.mp e.symm)⟩
  · constructor
    · intro e
      have := congrArg List.head? e
      rw [List.head?_append] at this
      exact absurd (Option.some.inj this) (by decide +kernel)
    · intro e
      have := congrArg List.head? e
      rw [List.head?_append] at this
      exact absurd (Option.some.inj this) (by decide +kernel)

example : ["volume".toList, "surface".toList].Nodup := by decide +kernel

end NuTo.Visualize
