/-
C112: the files of a `PostProcess`.
-/
import Verif.Model.ResultFiles
import Verif.Lemmas.OMap
import Verif.Props.Pvd

namespace NuTo.ResultFiles

open Visualize (addToPvdFile vtuName pvdName pvdEntry pvdHeader pvdFooter)

variable {α : Type}

/-! ### What the caller knows (the last call comes first) -/

/-- Calls and whether they threw -/
abbrev Trace (α : Type) := List (Call α × Bool)

/-- The number of successful calls of `Plot` -/
def plotsDone : Trace α → Nat
  | [] => 0
  | (.plot _ _, false) :: earlier => plotsDone earlier + 1
  | _ :: earlier => plotsDone earlier

/-- The directory of the last successful `ResultDirectory` -/
def dirOf : Trace α → Option Path
  | [] => none
  | (.resultDirectory p, false) :: _ => p
  | _ :: earlier => dirOf earlier

/-- A visualizer of this name was defined. -/
def isDefined (name : Text) : Trace α → Bool
  | [] => false
  | (.defineVisualizer n, false) :: earlier => n = name || isDefined name earlier
  | _ :: earlier => isDefined name earlier

/-- What was added to the visualizer of this name, in the order of the calls -/
def infoOf (name : Text) : Trace α → Info α
  | [] => {}
  | (.addDof n x, false) :: earlier =>
    let i := infoOf name earlier
    if n = name then { i with dofs := i.dofs ++ [x] } else i
  | (.addCellFunction n x, false) :: earlier =>
    let i := infoOf name earlier
    if n = name then { i with cellFunctions := i.cellFunctions ++ [x] } else i
  | (.addPointFunction n x, false) :: earlier =>
    let i := infoOf name earlier
    if n = name then { i with pointFunctions := i.pointFunctions ++ [x] } else i
  | _ :: earlier => infoOf name earlier

/-- The plots of this visualizer since the directory was set: time and number of the plot -/
def entries (name : Text) : Trace α → List (Text × Nat)
  | [] => []
  | (.resultDirectory _, false) :: _ => []
  | (.plot time _, false) :: earlier =>
    if isDefined name earlier then entries name earlier ++ [(time, plotsDone earlier)] else entries name earlier
  | _ :: earlier => entries name earlier

/-- No `Plot` was left by an exception after the directory was set. -/
def clean : Trace α → Prop
  | [] => True
  | (.plot _ _, true) :: earlier => dirOf earlier = none ∧ clean earlier
  | _ :: earlier => clean earlier

/-- A collection file with these entries -/
def collection (name : Text) (es : List (Text × Nat)) : Text :=
  pvdHeader ++ (es.flatMap fun e => pvdEntry e.1 (vtuName name e.2)) ++ pvdFooter

/-- Existing entries are in existing directories. -/
def Wf (d : Disk) : Prop := ∀ p x, d (p ++ [x]) ≠ none → d p = some .directory

/-! ### The file system -/

theorem put_same (d : Disk) (p : Path) (e : Entry) : d.put p e p = some e := if_pos rfl

theorem put_other (d : Disk) {p q : Path} (e : Entry) (h : q ≠ p) : d.put p e q = d q := if_neg h

theorem append_ne (p : Path) (x : Text) : p ≠ p ++ [x] := fun h => by
  have := congrArg List.length h
  simp at this

theorem name_inj {p : Path} {x y : Text} (h : p ++ [x] = p ++ [y]) : x = y := by simpa using h

theorem wf_removeAll {d : Disk} (h : Wf d) (p : Path) : Wf (d.removeAll p) := by
  intro q x hq
  unfold Disk.removeAll at hq ⊢
  by_cases h1 : p <+: q ++ [x]
  · rw [if_pos h1] at hq
    exact absurd rfl hq
  · rw [if_neg h1] at hq
    rw [if_neg fun h2 => h1 (h2.trans (List.prefix_append _ _))]
    exact h q x hq

theorem wf_put_directory {d : Disk} (h : Wf d) {p : Path} (hp : p ≠ []) (hd : d p.dropLast = some .directory) :
    Wf (d.put p .directory) := by
  intro q x hq
  by_cases h1 : q = p
  · rw [h1, put_same]
  · rw [put_other _ _ h1]
    by_cases h2 : q ++ [x] = p
    · rw [← h2, List.dropLast_concat] at hd
      exact hd
    · rw [put_other _ _ h2] at hq
      exact h q x hq

theorem write_eq {d d' : Disk} {dir : Path} {name c : Text} (h : d.write dir name c = some d') :
    d dir = some .directory ∧ d (dir ++ [name]) ≠ some .directory ∧ d' = d.put (dir ++ [name]) (.file c) := by
  unfold Disk.write at h
  by_cases hc : d dir = some .directory ∧ d (dir ++ [name]) ≠ some .directory
  · rw [if_pos hc] at h
    exact ⟨hc.1, hc.2, (Option.some.inj h).symm⟩
  · rw [if_neg hc] at h
    cases h

theorem wf_write {d d' : Disk} {dir : Path} {name c : Text} (hw : Wf d) (h : d.write dir name c = some d') : Wf d' := by
  obtain ⟨h1, h2, rfl⟩ := write_eq h
  intro q x hq
  by_cases e : q ++ [x] = dir ++ [name]
  · have e' : q = dir := by
      have := congrArg List.dropLast e
      simpa using this
    rw [e', put_other _ _ (append_ne _ _)]
    exact h1
  · rw [put_other _ _ e] at hq
    have hd := hw q x hq
    by_cases e2 : q = dir ++ [name]
    · rw [e2] at hd
      exact absurd hd h2
    · rw [put_other _ _ e2]
      exact hd

theorem addToPvd_eq {d d' : Disk} {dir : Path} {name vtu time : Text} (h : addToPvd d dir name vtu time = some d') :
    ∃ old : Option Text, d (dir ++ [pvdName name]) = old.map .file ∧
      d.write dir (pvdName name) (addToPvdFile old vtu time) = some d' := by
  unfold addToPvd at h
  cases hd : d (dir ++ [pvdName name]) with
  | none =>
    rw [hd] at h
    exact ⟨none, rfl, h⟩
  | some e =>
    cases e with
    | directory => rw [hd] at h; cases h
    | file old =>
      rw [hd] at h
      exact ⟨some old, rfl, h⟩

/-! ### `Plot` -/

/-- One visualizer -/
theorem plotOne_spec {dir : Path} {step : Nat} {time : Text} {content : Text → Info α → Option Text} {d d' : Disk}
    {v : Text × Info α} {t : Bool} (h : plotOne dir step time content d v = (d', t)) :
    (Wf d → Wf d') ∧
    (∀ q, q ≠ dir ++ [vtuName v.1 step] → q ≠ dir ++ [pvdName v.1] → d' q = d q) ∧
    (t = false → ∃ c old, content v.1 v.2 = some c ∧ d' (dir ++ [vtuName v.1 step]) = some (.file c) ∧
      d (dir ++ [pvdName v.1]) = Option.map .file old ∧
      d' (dir ++ [pvdName v.1]) = some (.file (addToPvdFile old (vtuName v.1 step) time))) := by
  unfold plotOne at h
  cases hc : content v.1 v.2 with
  | none =>
    rw [hc] at h
    cases h
    exact ⟨id, fun _ _ _ => rfl, fun h => by cases h⟩
  | some c =>
    rw [hc] at h
    dsimp only at h
    cases hw : d.write dir (vtuName v.1 step) c with
    | none =>
      rw [hw] at h
      cases h
      exact ⟨id, fun _ _ _ => rfl, fun h => by cases h⟩
    | some d1 =>
      rw [hw] at h
      dsimp only at h
      obtain ⟨a1, a2, a3⟩ := write_eq hw
      cases hp : addToPvd d1 dir v.1 (vtuName v.1 step) time with
      | none =>
        rw [hp] at h
        cases h
        refine ⟨fun hwf => wf_write hwf hw, fun q h1 _ => ?_, fun h => by cases h⟩
        rw [a3, put_other _ _ h1]
      | some d2 =>
        rw [hp] at h
        cases h
        obtain ⟨old, b1, b2⟩ := addToPvd_eq hp
        obtain ⟨-, -, b3⟩ := write_eq b2
        have hne : dir ++ [vtuName v.1 step] ≠ dir ++ [pvdName v.1] := fun e => Visualize.vtu_ne_pvd _ _ _ (name_inj e)
        refine ⟨fun hwf => wf_write (wf_write hwf hw) b2, fun q h1 h2 => ?_, fun _ => ⟨c, old, rfl, ?_, ?_, ?_⟩⟩
        · rw [b3, put_other _ _ h2, a3, put_other _ _ h1]
        · rw [b3, put_other _ _ hne, a3, put_same]
        · rw [← b1, a3, put_other _ _ hne.symm]
        · rw [b3, put_same]

theorem vtuName_left {m n : Text} {k : Nat} (h : vtuName m k = vtuName n k) : m = n := by
  unfold vtuName at h
  exact List.append_cancel_right (List.append_cancel_right h)

/-- All of them -/
theorem plotAll_spec {dir : Path} {step : Nat} {time : Text} {content : Text → Info α → Option Text}
    (vs : List (Text × Info α)) (hn : (vs.map Prod.fst).Nodup) {d d' : Disk} {t : Bool}
    (h : plotAll dir step time content vs d = (d', t)) :
    (Wf d → Wf d') ∧
    (∀ q, (∀ v ∈ vs, q ≠ dir ++ [vtuName v.1 step] ∧ q ≠ dir ++ [pvdName v.1]) → d' q = d q) ∧
    (t = false → ∀ v ∈ vs, ∃ c old, content v.1 v.2 = some c ∧ d' (dir ++ [vtuName v.1 step]) = some (.file c) ∧
      d (dir ++ [pvdName v.1]) = Option.map .file old ∧
      d' (dir ++ [pvdName v.1]) = some (.file (addToPvdFile old (vtuName v.1 step) time))) := by
  induction vs generalizing d with
  | nil =>
    cases h
    exact ⟨id, fun _ _ => rfl, fun _ v hv => absurd hv List.not_mem_nil⟩
  | cons v vs ih =>
    unfold plotAll at h
    rw [List.map_cons, List.nodup_cons] at hn
    cases h1 : plotOne dir step time content d v with
    | mk d1 t1 =>
      rw [h1] at h
      obtain ⟨a1, a2, a3⟩ := plotOne_spec h1
      cases t1 with
      | true =>
        cases h
        exact ⟨a1, fun q hq => a2 q (hq v List.mem_cons_self).1 (hq v List.mem_cons_self).2, fun h => by cases h⟩
      | false =>
        obtain ⟨b1, b2, b3⟩ := ih hn.2 h
        refine ⟨fun hw => b1 (a1 hw), fun q hq => ?_, fun ht w hw => ?_⟩
        · rw [b2 q fun w hw => hq w (List.mem_cons_of_mem _ hw), a2 q (hq v List.mem_cons_self).1 (hq v List.mem_cons_self).2]
        · rcases List.mem_cons.1 hw with rfl | hw
          · obtain ⟨c, old, c1, c2, c3, c4⟩ := a3 rfl
            have hother : ∀ u ∈ vs, u.1 ≠ w.1 := fun u hu e => hn.1 (e ▸ List.mem_map_of_mem hu)
            refine ⟨c, old, c1, ?_, c3, ?_⟩
            · rw [b2 _ fun u hu => ⟨fun e => hother u hu (vtuName_left (name_inj e)).symm,
                fun e => Visualize.vtu_ne_pvd _ _ _ (name_inj e)⟩, c2]
            · rw [b2 _ fun u hu => ⟨fun e => Visualize.vtu_ne_pvd _ _ _ (name_inj e).symm,
                fun e => hother u hu (Visualize.pvdName_inj _ _ (name_inj e)).symm⟩, c4]
          · obtain ⟨c, old, c1, c2, c3, c4⟩ := b3 ht w hw
            refine ⟨c, old, c1, c2, ?_, c4⟩
            have hvw : w.1 ≠ v.1 := fun e => hn.1 (e ▸ List.mem_map_of_mem hw)
            rw [← c3, a2 _ (fun e => Visualize.vtu_ne_pvd _ _ _ (name_inj e).symm)
              fun e => hvw (Visualize.pvdName_inj _ _ (name_inj e))]

/-! ### `ResultDirectory` -/

/-- C112: `ResultDirectory` with the name of a directory or a free name in a directory creates an empty directory, and all that
was below this path before is gone, whoever has written it; nothing else changes. -/
theorem C112_directory {d d' : Disk} (hw : Wf d) {s s' : PostProcess α} {p : Path}
    (h : resultDirectory d s (some p) = (d', s', false)) :
    s' = { s with resultDir := some p } ∧ d' p = some .directory ∧ (∀ q, p <+: q → q ≠ p → d' q = none) ∧
      (∀ q, ¬ p <+: q → d' q = d q) ∧ Wf d' := by
  have below : ∀ r : List Text, d p = none → d (p ++ r) = none := by
    intro r hp
    induction r using List.reverseRecOn with
    | nil => rwa [List.append_nil]
    | append_singleton r x ih =>
      by_contra hne
      rw [← List.append_assoc] at hne
      rw [hw _ _ hne] at ih
      cases ih
  have hself : p <+: p := List.prefix_rfl
  have main : ∀ e : Disk, Wf e → e p = none → (∀ q, p <+: q → e q = none) → (∀ q, ¬ p <+: q → e q = d q) →
      (match e.createDirectory p with
        | none => (e, s, true)
        | some d' => (d', { s with resultDir := some p }, false)) = (d', s', false) →
      s' = { s with resultDir := some p } ∧ d' p = some .directory ∧ (∀ q, p <+: q → q ≠ p → d' q = none) ∧
      (∀ q, ¬ p <+: q → d' q = d q) ∧ Wf d' := by
    intro e he hp h1 h2 h3
    unfold Disk.createDirectory at h3
    by_cases hc : e p.dropLast = some .directory
    · rw [if_pos hc] at h3
      dsimp only at h3
      cases h3
      have hp' : p ≠ [] := by
        rintro rfl
        rw [show ([] : Path).dropLast = [] from rfl, hp] at hc
        cases hc
      refine ⟨rfl, put_same _ _ _, fun q hq hne => ?_, fun q hq => ?_, wf_put_directory he hp' hc⟩
      · rw [put_other _ _ hne, h1 q hq]
      · rw [put_other _ _ fun (e' : q = p) => hq (e' ▸ hself), h2 q hq]
    · rw [if_neg hc] at h3
      cases h3
  unfold resultDirectory at h
  by_cases hd : d p = some .directory
  · simp only [if_pos hd] at h
    have hp : d.removeAll p p = none := if_pos hself
    rw [hp] at h
    exact main _ (wf_removeAll hw p) hp (fun q hq => if_pos hq) (fun q hq => if_neg hq) h
  · simp only [if_neg hd] at h
    cases hp : d p with
    | none =>
      rw [hp] at h
      refine main d hw hp (fun q hq => ?_) (fun q _ => rfl) h
      obtain ⟨r, rfl⟩ := hq
      exact below r hp
    | some e =>
      cases e with
      | directory => exact absurd hp hd
      | file c => rw [hp] at h; cases h

/-- C112: it throws exactly if the name is empty, is the name of a file or is not in an existing directory, and then changes
nothing. -/
theorem C112_directory_throws {d : Disk} (hw : Wf d) (s : PostProcess α) (p : Option Path) (hp : p ≠ some []) :
    ((resultDirectory d s p).2.2 = true ↔
      p = none ∨ ∃ q, p = some q ∧ ((∃ c, d q = some (.file c)) ∨ d q.dropLast ≠ some .directory)) ∧
    ((resultDirectory d s p).2.2 = true → resultDirectory d s p = (d, s, true)) := by
  cases p with
  | none => exact ⟨⟨fun _ => .inl rfl, fun _ => rfl⟩, fun _ => rfl⟩
  | some p =>
    have hp' : p ≠ [] := fun e => hp (congrArg some e)
    obtain ⟨r, x, rfl⟩ : ∃ r x, p = r ++ [x] := ⟨p.dropLast, p.getLast hp', (List.dropLast_append_getLast hp').symm⟩
    have hdl : (r ++ [x]).dropLast = r := List.dropLast_concat
    unfold resultDirectory
    by_cases hd : d (r ++ [x]) = some .directory
    · simp only [if_pos hd]
      have hnone : d.removeAll (r ++ [x]) (r ++ [x]) = none := if_pos List.prefix_rfl
      have hr : d r = some .directory := hw r x (by rw [hd]; exact fun h => by cases h)
      have hpre : ¬ (r ++ [x]) <+: r := fun h => by
        have := h.length_le
        rw [List.length_append, List.length_singleton] at this
        omega
      have hr' : d.removeAll (r ++ [x]) r = some .directory := (if_neg hpre).trans hr
      rw [hnone]
      dsimp only
      unfold Disk.createDirectory
      rw [hdl, if_pos hr']
      refine ⟨⟨fun h => absurd h Bool.false_ne_true, ?_⟩, fun h => absurd h Bool.false_ne_true⟩
      rintro (h | ⟨q, h1, h2⟩)
      · cases h
      · rw [← Option.some.inj h1, hdl, hr, hd] at h2
        rcases h2 with ⟨c, h2⟩ | h2
        · cases h2
        · exact absurd rfl h2
    · simp only [if_neg hd]
      cases hc : d (r ++ [x]) with
      | some e =>
        cases e with
        | directory => exact absurd hc hd
        | file c => exact ⟨⟨fun _ => .inr ⟨_, rfl, .inl ⟨c, hc⟩⟩, fun _ => rfl⟩, fun _ => rfl⟩
      | none =>
        dsimp only
        unfold Disk.createDirectory
        rw [hdl]
        by_cases hr : d r = some .directory
        · rw [if_pos hr]
          refine ⟨⟨fun h => absurd h Bool.false_ne_true, ?_⟩, fun h => absurd h Bool.false_ne_true⟩
          rintro (h | ⟨q, h1, h2⟩)
          · cases h
          · rw [← Option.some.inj h1, hdl, hr, hc] at h2
            rcases h2 with ⟨c, h2⟩ | h2
            · cases h2
            · exact absurd rfl h2
        · rw [if_neg hr]
          exact ⟨⟨fun _ => .inr ⟨_, rfl, .inr (by rw [hdl]; exact hr)⟩, fun _ => rfl⟩, fun _ => rfl⟩

/-! ### Sessions -/

theorem nodup_keys {m : OMap Text (Info α)} (h : m.Sorted) : (m.map Prod.fst).Nodup := by
  rw [List.Nodup, List.pairwise_map]
  exact h.imp fun hab => ne_of_lt hab

theorem mem_find {m : OMap Text (Info α)} {n : Text} {i : Info α} (h : m.find? n = some i) : (n, i) ∈ m := by
  induction m with
  | nil => cases h
  | cons e t ih =>
    obtain ⟨k, v⟩ := e
    unfold OMap.find? at h
    by_cases hk : n = k
    · rw [if_pos hk] at h
      rw [hk, Option.some.inj h]
      exact List.mem_cons_self
    · rw [if_neg hk] at h
      exact List.mem_cons_of_mem _ (ih h)

theorem find_mem {m : OMap Text (Info α)} (hs : m.Sorted) {v : Text × Info α} (h : v ∈ m) : m.find? v.1 = some v.2 := by
  induction m with
  | nil => exact absurd h List.not_mem_nil
  | cons e t ih =>
    obtain ⟨k, w⟩ := e
    unfold OMap.find?
    have hs' := List.pairwise_cons.1 hs
    rcases List.mem_cons.1 h with rfl | h
    · exact if_pos rfl
    · rw [if_neg (ne_of_gt (hs'.1 v h))]
      exact ih hs'.2 h

/-- What the members are after a session that the caller has seen as `tr` -/
structure Agrees (s : PostProcess α) (tr : Trace α) : Prop where
  step : s.step = plotsDone tr
  dir : s.resultDir = dirOf tr
  sorted : s.visualize.Sorted
  info : ∀ name, s.visualize.find? name = if isDefined name tr then some (infoOf name tr) else none
  fresh : ∀ name, isDefined name tr = false → infoOf name tr = {}

theorem agrees_add {d : Disk} {s : PostProcess α} {tr : Trace α} (h : Agrees s tr) (name : Text) (f : Info α → Info α)
    (c : Call α) (hstep : ∀ t, plotsDone ((c, t) :: tr) = plotsDone tr) (hdir : ∀ t, dirOf ((c, t) :: tr) = dirOf tr)
    (hdef : ∀ n t, isDefined n ((c, t) :: tr) = isDefined n tr)
    (hinfo : ∀ n, infoOf n ((c, false) :: tr) = if name = n then f (infoOf n tr) else infoOf n tr)
    (hinfo' : ∀ n, infoOf n ((c, true) :: tr) = infoOf n tr) :
    Agrees (add d s name f).2.1 ((c, (add d s name f).2.2) :: tr) := by
  have hn := h.info name
  unfold add
  cases hd : isDefined name tr with
  | false =>
    rw [hd, if_neg Bool.false_ne_true] at hn
    rw [hn]
    refine ⟨h.step.trans (hstep _).symm, h.dir.trans (hdir _).symm, h.sorted, fun n => ?_, fun n hx => ?_⟩
    · show s.visualize.find? n = _
      rw [hdef, hinfo']
      exact h.info n
    · rw [hinfo']
      rw [hdef] at hx
      exact h.fresh n hx
  | true =>
    rw [hd, if_pos rfl] at hn
    rw [hn]
    refine ⟨h.step.trans (hstep _).symm, h.dir.trans (hdir _).symm, OMap.sorted_set h.sorted _ _, fun n => ?_, fun n hx => ?_⟩
    · show (s.visualize.set name (f (infoOf name tr))).find? n = _
      rw [OMap.find?_set, hdef, hinfo]
      by_cases e : n = name
      · subst e
        rw [if_pos rfl, hd, if_pos rfl, if_pos rfl]
      · rw [if_neg e, if_neg (Ne.symm e)]
        exact h.info n
    · rw [hdef] at hx
      rw [hinfo]
      have e : name ≠ n := by
        rintro rfl
        rw [hd] at hx
        cases hx
      rw [if_neg e]
      exact h.fresh n hx

theorem agrees_call {d : Disk} {s : PostProcess α} {tr : Trace α} (h : Agrees s tr) (c : Call α) :
    Agrees (call d s c).2.1 ((c, (call d s c).2.2) :: tr) := by
  cases c with
  | resultDirectory p =>
    have key : (∃ d', call d s (.resultDirectory p) = (d', s, true)) ∨
        ∃ d', call d s (.resultDirectory p) = (d', { s with resultDir := p }, false) := by
      show (∃ d', resultDirectory d s p = _) ∨ ∃ d', resultDirectory d s p = _
      cases p with
      | none => exact .inl ⟨_, rfl⟩
      | some p =>
        unfold resultDirectory
        dsimp only
        generalize (if d p = some Entry.directory then d.removeAll p else d) = e
        cases e p with
        | none =>
          dsimp only
          cases e.createDirectory p with
          | none => exact .inl ⟨_, rfl⟩
          | some d' => exact .inr ⟨_, rfl⟩
        | some x =>
          cases x with
          | directory => exact .inr ⟨_, rfl⟩
          | file c => exact .inl ⟨_, rfl⟩
    obtain ⟨d', hk⟩ | ⟨d', hk⟩ := key
    · rw [hk]
      exact ⟨h.step, h.dir, h.sorted, h.info, h.fresh⟩
    · rw [hk]
      exact ⟨h.step, rfl, h.sorted, h.info, h.fresh⟩
  | defineVisualizer name =>
    have hn := h.info name
    simp only [call, defineVisualizer, plot]
    cases hd : isDefined name tr with
    | true =>
      rw [hd, if_pos rfl] at hn
      rw [hn]
      exact ⟨h.step, h.dir, h.sorted, h.info, h.fresh⟩
    | false =>
      rw [hd, if_neg Bool.false_ne_true] at hn
      rw [hn]
      refine ⟨h.step, h.dir, OMap.sorted_set h.sorted _ _, fun n => ?_, fun n hx => ?_⟩
      · show (s.visualize.set name {}).find? n = if (decide (name = n) || isDefined n tr) then some (infoOf n tr) else none
        rw [OMap.find?_set]
        by_cases e : n = name
        · subst e
          rw [if_pos rfl, h.fresh n hd]
          simp
        · rw [if_neg e, h.info n]
          simp [Ne.symm e]
      · have : (decide (name = n) || isDefined n tr) = false := hx
        exact h.fresh n (Bool.or_eq_false_iff.1 this).2
  | addDof name x =>
    exact agrees_add h name _ _ (fun t => by cases t <;> rfl) (fun t => by cases t <;> rfl) (fun n t => by cases t <;> rfl)
      (fun n => rfl) (fun n => rfl)
  | addCellFunction name x =>
    exact agrees_add h name _ _ (fun t => by cases t <;> rfl) (fun t => by cases t <;> rfl) (fun n t => by cases t <;> rfl)
      (fun n => rfl) (fun n => rfl)
  | addPointFunction name x =>
    exact agrees_add h name _ _ (fun t => by cases t <;> rfl) (fun t => by cases t <;> rfl) (fun n t => by cases t <;> rfl)
      (fun n => rfl) (fun n => rfl)
  | plot time content =>
    simp only [call, defineVisualizer, plot]
    cases hr : s.resultDir with
    | none => exact ⟨h.step, h.dir, h.sorted, h.info, h.fresh⟩
    | some dir =>
      dsimp only
      cases hp : plotAll dir s.step time content s.visualize d with
      | mk d1 t =>
        cases t with
        | true => exact ⟨h.step, h.dir, h.sorted, h.info, h.fresh⟩
        | false => exact ⟨congrArg (· + 1) h.step, hr.symm.trans h.dir, h.sorted, h.info, h.fresh⟩

/-- C112: the members after any session are those that follow from the calls that did not throw: the number of plots, the last
directory, and for each visualizer what was added, in order. -/
theorem C112_members (d : Disk) (cs : List (Call α)) : Agrees (session d cs).2.1 (session d cs).2.2 := by
  induction cs with
  | nil => exact ⟨rfl, rfl, List.Pairwise.nil, fun _ => rfl, fun _ _ => rfl⟩
  | cons c cs ih => exact agrees_call ih c

/-- C112: which calls throw: names are defined once and before something is added to them, and a directory is set before the
first plot. -/
theorem C112_throws (d : Disk) (cs : List (Call α)) (name : Text) (x : α) :
    ((call (session d cs).1 (session d cs).2.1 (.defineVisualizer name)).2.2 = isDefined name (session d cs).2.2) ∧
    ((call (session d cs).1 (session d cs).2.1 (.addDof name x)).2.2 = !isDefined name (session d cs).2.2) ∧
    ((call (session d cs).1 (session d cs).2.1 (.addCellFunction name x)).2.2 = !isDefined name (session d cs).2.2) ∧
    ((call (session d cs).1 (session d cs).2.1 (.addPointFunction name x)).2.2 = !isDefined name (session d cs).2.2) ∧
    (∀ time content, dirOf (session d cs).2.2 = none →
      call (session d cs).1 (session d cs).2.1 (.plot time content) = ((session d cs).1, (session d cs).2.1, true)) := by
  have h := C112_members d cs
  have hn := h.info name
  refine ⟨?_, ?_, ?_, ?_, fun time content hd => ?_⟩
  · simp only [call, defineVisualizer, plot]
    cases hd : isDefined name (session d cs).2.2 <;> rw [hd] at hn
    · rw [if_neg Bool.false_ne_true] at hn; rw [hn]
    · rw [if_pos rfl] at hn; rw [hn]
  · simp only [call, add]
    cases hd : isDefined name (session d cs).2.2 <;> rw [hd] at hn
    · rw [if_neg Bool.false_ne_true] at hn; rw [hn]; rfl
    · rw [if_pos rfl] at hn; rw [hn]; rfl
  · simp only [call, add]
    cases hd : isDefined name (session d cs).2.2 <;> rw [hd] at hn
    · rw [if_neg Bool.false_ne_true] at hn; rw [hn]; rfl
    · rw [if_pos rfl] at hn; rw [hn]; rfl
  · simp only [call, add]
    cases hd : isDefined name (session d cs).2.2 <;> rw [hd] at hn
    · rw [if_neg Bool.false_ne_true] at hn; rw [hn]; rfl
    · rw [if_pos rfl] at hn; rw [hn]; rfl
  · simp only [call, defineVisualizer, plot]
    rw [h.dir, hd]

theorem call_disk {d : Disk} (s : PostProcess α) (c : Call α) (h1 : ∀ p, c ≠ .resultDirectory p)
    (h2 : ∀ t f, c ≠ .plot t f) : (call d s c).1 = d := by
  cases c with
  | resultDirectory p => exact absurd rfl (h1 p)
  | plot t f => exact absurd rfl (h2 t f)
  | defineVisualizer name =>
    simp only [call, defineVisualizer, plot]
    cases s.visualize.find? name <;> rfl
  | addDof name x => simp only [call, add]; cases s.visualize.find? name <;> rfl
  | addCellFunction name x => simp only [call, add]; cases s.visualize.find? name <;> rfl
  | addPointFunction name x => simp only [call, add]; cases s.visualize.find? name <;> rfl

/-- The disk after `ResultDirectory` has thrown -/
theorem wf_resultDirectory {d : Disk} (hw : Wf d) (s : PostProcess α) (p : Option Path) : Wf (resultDirectory d s p).1 := by
  cases h : resultDirectory d s p with
  | mk d' r =>
    obtain ⟨s', t⟩ := r
    cases p with
    | none => cases h; exact hw
    | some p =>
      cases t with
      | false => exact (C112_directory hw h).2.2.2.2
      | true =>
        unfold resultDirectory at h
        dsimp only at h
        have he : Wf (if d p = some Entry.directory then d.removeAll p else d) := by
          by_cases hd : d p = some .directory
          · rw [if_pos hd]; exact wf_removeAll hw p
          · rw [if_neg hd]; exact hw
        generalize (if d p = some Entry.directory then d.removeAll p else d) = e at h he
        cases hc : e p with
        | some x =>
          rw [hc] at h
          cases x with
          | directory => cases h
          | file c => cases h; exact he
        | none =>
          rw [hc] at h
          dsimp only at h
          cases hk : e.createDirectory p with
          | none => rw [hk] at h; cases h; exact he
          | some e' => rw [hk] at h; cases h

theorem wf_call {d : Disk} (hw : Wf d) {s : PostProcess α} (hs : s.visualize.Sorted) (c : Call α) : Wf (call d s c).1 := by
  by_cases h1 : ∃ p, c = .resultDirectory p
  · obtain ⟨p, rfl⟩ := h1
    exact wf_resultDirectory hw s p
  · by_cases h2 : ∃ t f, c = .plot t f
    · obtain ⟨t, f, rfl⟩ := h2
      simp only [call, defineVisualizer, plot]
      cases hr : s.resultDir with
      | none => exact hw
      | some dir =>
        dsimp only
        cases hp : plotAll dir s.step t f s.visualize d with
        | mk d1 b =>
          have := (plotAll_spec _ (nodup_keys hs) hp).1 hw
          cases b <;> exact this
    · rw [call_disk s c (fun p e => h1 ⟨p, e⟩) fun t f e => h2 ⟨t, f, e⟩]
      exact hw

theorem wf_session {d : Disk} (hw : Wf d) (cs : List (Call α)) : Wf (session d cs).1 := by
  induction cs with
  | nil => exact hw
  | cons c cs ih => exact wf_call ih (C112_members d cs).sorted c

/-- C112: a successful plot writes for each visualizer what it exports to the file of the current step in the result directory,
also if it is not the first plot of this directory. -/
theorem C112_written (d : Disk) (cs : List (Call α)) (time : Text) (content : Text → Info α → Option Text)
    (hok : (call (session d cs).1 (session d cs).2.1 (.plot time content)).2.2 = false) :
    ∃ dir, dirOf (session d cs).2.2 = some dir ∧ ∀ name, isDefined name (session d cs).2.2 = true →
      ∃ c, content name (infoOf name (session d cs).2.2) = some c ∧
        (call (session d cs).1 (session d cs).2.1 (.plot time content)).1
          (dir ++ [vtuName name (plotsDone (session d cs).2.2)]) = some (.file c) := by
  have h := C112_members d cs
  generalize session d cs = r at h hok ⊢
  obtain ⟨e, s, tr⟩ := r
  dsimp only at h hok ⊢
  simp only [call, plot] at hok ⊢
  cases hr : s.resultDir with
  | none => rw [hr] at hok; cases hok
  | some dir =>
    rw [hr] at hok
    dsimp only at hok ⊢
    refine ⟨dir, h.dir ▸ hr, fun name hn => ?_⟩
    cases hp : plotAll dir s.step time content s.visualize e with
    | mk d1 b =>
      rw [hp] at hok
      cases b with
      | true => cases hok
      | false =>
        dsimp only
        have hi := h.info name
        rw [hn, if_pos rfl] at hi
        obtain ⟨c, old, c1, c2, -, -⟩ := (plotAll_spec _ (nodup_keys h.sorted) hp).2.2 rfl _ (mem_find hi)
        exact ⟨c, c1, by rw [← h.step]; exact c2⟩

/-- C112: a plot, successful or not, changes only files of the current step and the collections of the visualizers. -/
theorem C112_untouched (d : Disk) (cs : List (Call α)) (time : Text) (content : Text → Info α → Option Text) (q : Path)
    (hq : ∀ dir name, dirOf (session d cs).2.2 = some dir → isDefined name (session d cs).2.2 = true →
      q ≠ dir ++ [vtuName name (plotsDone (session d cs).2.2)] ∧ q ≠ dir ++ [pvdName name]) :
    (call (session d cs).1 (session d cs).2.1 (.plot time content)).1 q = (session d cs).1 q := by
  have h := C112_members d cs
  generalize session d cs = r at h hq ⊢
  obtain ⟨e, s, tr⟩ := r
  dsimp only at h hq ⊢
  simp only [call, defineVisualizer, plot]
  cases hr : s.resultDir with
  | none => rfl
  | some dir =>
    dsimp only
    cases hp : plotAll dir s.step time content s.visualize e with
    | mk d1 b =>
      have key := (plotAll_spec _ (nodup_keys h.sorted) hp).2.1 q fun v hv => by
        have hv' := find_mem h.sorted hv
        have hdef : isDefined v.1 tr = true := by
          by_contra hne
          rw [h.info, if_neg hne] at hv'
          cases hv'
        rw [h.step]
        exact hq dir v.1 (h.dir ▸ hr) hdef
      cases b <;> exact key

theorem collection_append (name : Text) (es : List (Text × Nat)) (e : Text × Nat) :
    addToPvdFile (if es = [] then none else some (collection name es)) (vtuName name e.2) e.1 = collection name (es ++ [e]) := by
  by_cases h : es = []
  · rw [if_pos h, h, Visualize.addToPvdFile_none]
    simp [collection]
  · rw [if_neg h]
    unfold collection
    rw [Visualize.addToPvdFile_some]
    simp

/-- C112: as long as no plot is left by an exception, the collection of each visualizer in the result directory lists exactly
the plots since the directory was set, in order, with their times and the files written by them. -/
theorem C112_collection_partial {d : Disk} (hw : Wf d) (cs : List (Call α)) (hroot : Call.resultDirectory (some []) ∉ cs)
    (hc : clean (session d cs).2.2) (dir : Path) (hd : dirOf (session d cs).2.2 = some dir) (name : Text) :
    (session d cs).1 (dir ++ [pvdName name]) =
      if entries name (session d cs).2.2 = [] then none
      else some (.file (collection name (entries name (session d cs).2.2))) := by
  induction cs with
  | nil => cases hd
  | cons c cs ih =>
    have hm := C112_members d cs
    have hwf := wf_session hw cs
    have htr : (session d (c :: cs)).2.2 =
        (c, (call (session d cs).1 (session d cs).2.1 c).2.2) :: (session d cs).2.2 := rfl
    have hdk : (session d (c :: cs)).1 = (call (session d cs).1 (session d cs).2.1 c).1 := rfl
    rw [htr] at hc hd ⊢
    rw [hdk]
    generalize session d cs = r at *
    obtain ⟨e, s, tr⟩ := r
    dsimp only at hm hwf ih hc hd ⊢
    replace ih := ih fun h => hroot (List.mem_cons_of_mem _ h)
    have same : ∀ b, (∀ p, c ≠ .resultDirectory p) → (∀ t f, c ≠ .plot t f) →
        clean ((c, b) :: tr) = clean tr ∧ dirOf ((c, b) :: tr) = dirOf tr ∧ entries name ((c, b) :: tr) = entries name tr := by
      intro b h1 h2
      cases c with
      | resultDirectory p => exact absurd rfl (h1 p)
      | plot t f => exact absurd rfl (h2 t f)
      | defineVisualizer n => cases b <;> exact ⟨rfl, rfl, rfl⟩
      | addDof n x => cases b <;> exact ⟨rfl, rfl, rfl⟩
      | addCellFunction n x => cases b <;> exact ⟨rfl, rfl, rfl⟩
      | addPointFunction n x => cases b <;> exact ⟨rfl, rfl, rfl⟩
    by_cases h1 : ∃ p, c = .resultDirectory p
    · obtain ⟨p, rfl⟩ := h1
      show (resultDirectory e s p).1 _ = _
      have hbool : (call e s (.resultDirectory p)).2.2 = (resultDirectory e s p).2.2 := rfl
      rw [hbool] at hc hd ⊢
      cases hr : resultDirectory e s p with
      | mk d' r =>
        obtain ⟨s', t⟩ := r
        rw [hr] at hc hd
        cases t with
        | false =>
          have hp : p = some dir := hd
          rw [hp] at hr
          have hne : dir ++ [pvdName name] ≠ dir := (append_ne _ _).symm
          show d' _ = if ([] : List (Text × Nat)) = [] then none else _
          rw [if_pos rfl, (C112_directory hwf hr).2.2.1 _ (List.prefix_append _ _) hne]
        | true =>
          have hc' : clean tr := hc
          have hd' : dirOf tr = some dir := hd
          show d' _ = if entries name tr = [] then none else _
          have hih := ih hc' hd'
          have hp : p ≠ some [] := fun h => hroot (h ▸ List.mem_cons_self)
          have := (C112_directory_throws hwf s p hp).2 (by rw [hr])
          rw [hr] at this
          rw [show d' = e from congrArg Prod.fst this]
          exact hih
    · by_cases h2 : ∃ t f, c = .plot t f
      · obtain ⟨t, f, rfl⟩ := h2
        show (plot e s t f).1 _ = _
        have hbool : (call e s (.plot t f)).2.2 = (plot e s t f).2.2 := rfl
        rw [hbool] at hc hd ⊢
        have hd' : dirOf tr = some dir := by
          cases hb : (plot e s t f).2.2 <;> rw [hb] at hd <;> exact hd
        have hsd : s.resultDir = some dir := hm.dir.trans hd'
        cases hp : plotAll dir s.step t f s.visualize e with
        | mk d1 b =>
          cases b with
          | true =>
            have hplot : plot e s t f = (d1, s, true) := by
              unfold plot
              rw [hsd]
              dsimp only
              rw [hp]
            rw [hplot] at hc
            have hc' : dirOf tr = none ∧ clean tr := hc
            rw [hd'] at hc'
            cases hc'.1
          | false =>
            have hplot : plot e s t f = (d1, { s with step := s.step + 1 }, false) := by
              unfold plot
              rw [hsd]
              dsimp only
              rw [hp, ← hsd]
            rw [hplot] at hc ⊢
            have hih := ih (show clean tr from hc) hd'
            show d1 _ = if (if isDefined name tr then entries name tr ++ [(t, plotsDone tr)] else entries name tr) = [] then none
              else some (Entry.file (collection name
                (if isDefined name tr then entries name tr ++ [(t, plotsDone tr)] else entries name tr)))
            obtain ⟨-, a2, a3⟩ := plotAll_spec _ (nodup_keys hm.sorted) hp
            cases hdef : isDefined name tr with
            | false =>
              rw [if_neg Bool.false_ne_true]
              rw [a2 _ fun v hv => ⟨fun e => Visualize.vtu_ne_pvd _ _ _ (name_inj e).symm, fun e => ?_⟩]
              · exact hih
              · have hv' := find_mem hm.sorted hv
                rw [← Visualize.pvdName_inj _ _ (name_inj e), hm.info, hdef, if_neg Bool.false_ne_true] at hv'
                cases hv'
            | true =>
              rw [if_pos rfl]
              have hi := hm.info name
              rw [hdef, if_pos rfl] at hi
              obtain ⟨c, old, -, -, c3, c4⟩ := a3 rfl _ (mem_find hi)
              have hold : old = if entries name tr = [] then none else some (collection name (entries name tr)) := by
                rw [hih] at c3
                by_cases hen : entries name tr = []
                · rw [if_pos hen] at c3 ⊢
                  cases old with
                  | none => rfl
                  | some o => cases c3
                · rw [if_neg hen] at c3 ⊢
                  cases old with
                  | none => cases c3
                  | some o =>
                    have := Option.some.inj c3
                    rw [Entry.file.inj this]
              have hne : entries name tr ++ [(t, plotsDone tr)] ≠ [] := by simp
              rw [c4, if_neg hne, hold, ← collection_append, hm.step]
      · have h1' : ∀ p, c ≠ .resultDirectory p := fun p e => h1 ⟨p, e⟩
        have h2' : ∀ t f, c ≠ .plot t f := fun t f e => h2 ⟨t, f, e⟩
        obtain ⟨s1, s2, s3⟩ := same (call e s c).2.2 h1' h2'
        rw [s1] at hc
        rw [s2] at hd
        rw [s3, call_disk s c h1' h2']
        exact ih hc hd

/-! ### Examples and counterexamples -/

/-- An empty disk -/
def start : Disk := fun p => if p = [] then some .directory else none

theorem wf_start : Wf start := by
  intro p x h
  unfold start at h
  rw [if_neg (by simp)] at h
  exact absurd rfl h

/-- The visualizers export their names and the number of functions of the dofs. -/
def plain (name : Text) (i : Info Nat) : Option Text := some (name ++ Nat.toDigits 10 i.dofs.length)

/-- The second visualizer throws. -/
def failing (name : Text) (i : Info Nat) : Option Text := if name = ['b'] then none else plain name i

/-- Two plots with two visualizers (the last call comes first); one of the names is defined twice. -/
def calls : List (Call Nat) :=
  [.plot ['2'] plain, .addDof ['b'] 7, .defineVisualizer ['a'], .plot ['1'] plain, .defineVisualizer ['b'],
    .defineVisualizer ['a'], .resultDirectory (some [['r']])]

/-- The hypotheses of `C112_collection_partial` hold, and the collection has two entries. -/
example : Wf start ∧ Call.resultDirectory (some []) ∉ calls ∧ clean (session start calls).2.2 ∧
    dirOf (session start calls).2.2 = some [['r']] ∧
    entries ['a'] (session start calls).2.2 = [(['1'], 0), (['2'], 1)] ∧
    (session start calls).1 [['r'], vtuName ['b'] 1] = some (.file ['b', '1']) := by
  refine ⟨wf_start, by simp [calls], ?_, by decide +kernel, by decide +kernel, by decide +kernel⟩
  have h : (session start calls).2.2.map Prod.snd = [false, false, true, false, false, false, false] := by decide +kernel
  generalize hs : (session start calls).2.2 = tr at h ⊢
  have hcs : tr.map Prod.fst = calls := by rw [← hs]; rfl
  have : ∀ tr : Trace Nat, (∀ c ∈ tr, ∀ t f, c ≠ (.plot t f, true)) → clean tr := by
    intro tr
    induction tr with
    | nil => exact fun _ => trivial
    | cons c tr ih =>
      intro hc
      have := ih fun c' h' => hc c' (List.mem_cons_of_mem _ h')
      obtain ⟨c, t⟩ := c
      cases c <;> cases t <;> first | exact this | exact absurd rfl (hc _ List.mem_cons_self _ _)
  refine this tr ?_
  have hz : tr = calls.zip [false, false, true, false, false, false, false] := by
    rw [← hcs, ← h, List.zip_map', List.map_id']
  intro c hc t f e
  rw [hz, e] at hc
  simp [calls] at hc

/-- C112 fails if a plot is left by an exception: the visualizers before the failing one already have their entries, the step is
not increased, and a second attempt adds another entry for the same file, whose first content is overwritten. -/
theorem C112_retry_counterexample :
    (session start [.plot ['2'] plain, .plot ['1'] failing, .defineVisualizer ['b'], .defineVisualizer ['a'],
      .resultDirectory (some [['r']])]).1 [['r'], pvdName ['a']] =
        some (.file (collection ['a'] [(['1'], 0), (['2'], 0)])) := by decide +kernel

/-- C112 fails if two objects use the same directory: setting the directory of the second one removes the results of the first
one, whose next collection starts with its second plot. -/
theorem C112_shared_counterexample :
    let r := session start [.plot ['1'] plain, .defineVisualizer ['a'], .resultDirectory (some [['r']])]
    let d := (resultDirectory r.1 ({} : PostProcess Nat) (some [['r']])).1
    let e := (plot d r.2.1 ['2'] plain).1
    r.1 [['r'], vtuName ['a'] 0] = some (.file ['a', '0']) ∧ d [['r'], vtuName ['a'] 0] = none ∧
      e [['r'], pvdName ['a']] = some (.file (collection ['a'] [(['2'], 1)])) := by decide +kernel

end NuTo.ResultFiles
