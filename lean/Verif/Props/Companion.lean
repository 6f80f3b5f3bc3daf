import Verif.Model.Companion
import Mathlib.Tactic.FieldSimp
import Mathlib.Tactic.Linarith
import Mathlib.Tactic.NormNum

/-!
C12: constraint equations made from directions, components and values.
-/
namespace NuTo
open Companion

/-- a nodal vector `u` (component ↦ value) satisfies an equation at a time: dependent term plus independent terms = rhs -/
def SatisfiedBy (e : Equation ℝ) (u : Nat → Int → ℝ) (time : ℝ) : Prop :=
  e.dep.coef * u e.dep.node e.dep.comp + (e.ind.map fun t => t.coef * u t.node t.comp).sum = e.rhs time

/-- C12 (Component): one equation per named component, in order, each satisfied exactly if that component has the value; an
exception exactly if a named component does not exist. -/
theorem C12_component (st : NodeStore ℝ) (node : Nat) (ds : List Dir) (rhs : ℝ → ℝ) :
    (component st node ds rhs = .throw ↔ ∃ d ∈ ds, ((st node).numValues : Int) ≤ d.index) ∧
    ((∀ d ∈ ds, d.index < (st node).numValues) → ∃ eqs, component st node ds rhs = .ok eqs ∧
      eqs.map (fun e => e.dep.comp) = ds.map Dir.index ∧
      ∀ e ∈ eqs, e.dep.node = node ∧ ∀ u time, SatisfiedBy e u time ↔ u node e.dep.comp = rhs time) := by
  have hok : ∀ (ds : List Dir) (acc : List (Equation ℝ)), (∀ d ∈ ds, d.index < (st node).numValues) →
      Res.foldlM (componentStep st node rhs) acc ds = .ok (acc ++ ds.map fun d => ⟨⟨node, d.index, 1⟩, [], rhs⟩) := by
    intro ds
    induction ds with
    | nil => intro acc _; simp
    | cons d ds ih =>
      intro acc hd
      have h1 : ¬ d.index ≥ ((st node).numValues : Int) := not_le.mpr (hd d (by simp))
      rw [Res.foldlM_cons]
      simp only [componentStep, Equation.mk', Term.mk']
      rw [if_neg h1]
      simp only [Res.bind_ok']
      rw [ih _ (fun d' h => hd d' (by simp [h]))]
      simp
  have hth : ∀ (ds : List Dir) (acc : List (Equation ℝ)), (∃ d ∈ ds, ((st node).numValues : Int) ≤ d.index) →
      Res.foldlM (componentStep st node rhs) acc ds = .throw := by
    intro ds
    induction ds with
    | nil => intro acc h; simp at h
    | cons d ds ih =>
      intro acc h
      rw [Res.foldlM_cons]
      simp only [componentStep, Equation.mk', Term.mk']
      by_cases h1 : d.index ≥ ((st node).numValues : Int)
      · rw [if_pos h1]; rfl
      · rw [if_neg h1]
        simp only [Res.bind_ok']
        apply ih
        obtain ⟨d', hd', hx⟩ := h
        rcases List.mem_cons.mp hd' with rfl | hd'
        · exact absurd hx h1
        · exact ⟨d', hd', hx⟩
  constructor
  · constructor
    · intro h
      by_contra hn
      push Not at hn
      unfold component at h
      rw [hok ds [] hn] at h
      cases h
    · exact hth ds []
  · intro h
    refine ⟨_, hok ds [] h, by simp, ?_⟩
    intro e he
    simp only [List.nil_append, List.mem_map] at he
    obtain ⟨d, _, rfl⟩ := he
    refine ⟨rfl, fun u time => ?_⟩
    simp [SatisfiedBy]

/-- C12 (Component over a group): the equations of every node, node after node. -/
theorem C12_component_group (st : NodeStore ℝ) (nodes : List Nat) (ds : List Dir) (rhs : ℝ → ℝ)
    (h : ∀ n ∈ nodes, ∀ d ∈ ds, d.index < (st n).numValues) :
    ∃ eqs, componentGroup st nodes ds rhs = .ok eqs ∧
      eqs.map (fun e => (e.dep.node, e.dep.comp)) = nodes.flatMap (fun n => ds.map fun d => (n, d.index)) ∧
      ∀ e ∈ eqs, ∀ u time, SatisfiedBy e u time ↔ u e.dep.node e.dep.comp = rhs time := by
  have key : ∀ (nodes : List Nat) (acc : List (Equation ℝ)), (∀ n ∈ nodes, ∀ d ∈ ds, d.index < (st n).numValues) →
      ∃ eqs, Res.foldlM (componentGroupStep st ds rhs) acc nodes = .ok (acc ++ eqs) ∧
      eqs.map (fun e => (e.dep.node, e.dep.comp)) = nodes.flatMap (fun n => ds.map fun d => (n, d.index)) ∧
      ∀ e ∈ eqs, ∀ u time, SatisfiedBy e u time ↔ u e.dep.node e.dep.comp = rhs time := by
    intro nodes
    induction nodes with
    | nil => intro acc _; exact ⟨[], by simp⟩
    | cons n nodes ih =>
      intro acc hn
      obtain ⟨es, h1, h2, h3⟩ := (C12_component st n ds rhs).2 (hn n (by simp))
      obtain ⟨eqs, g1, g2, g3⟩ := ih (acc ++ es) (fun n' h' => hn n' (by simp [h']))
      refine ⟨es ++ eqs, ?_, ?_, ?_⟩
      · rw [Res.foldlM_cons]
        simp only [componentGroupStep]
        rw [h1]
        simp only [Res.bind_ok']
        rw [g1, List.append_assoc]
      · rw [List.map_append, g2, List.flatMap_cons]
        congr 1
        have : es.map (fun e => (e.dep.node, e.dep.comp)) = es.map (fun e => (n, e.dep.comp)) := by
          apply List.map_congr_left
          intro e he
          rw [(h3 e he).1]
        rw [this]
        have h4 := congrArg (List.map fun c => (n, c)) h2
        simpa [List.map_map, Function.comp_def] using h4
      · intro e he u time
        rcases List.mem_append.mp he with he | he
        · rw [(h3 e he).2 u time, (h3 e he).1]
        · exact g3 e he u time
  obtain ⟨eqs, h1, h2, h3⟩ := key nodes [] h
  exact ⟨eqs, by simpa [componentGroup] using h1, h2, h3⟩

/-- C12 (Value): single value nodes only, and the value is fixed. -/
theorem C12_value (st : NodeStore ℝ) (node : Nat) (rhs : ℝ → ℝ) :
    (value st node rhs = .throw ↔ (st node).numValues ≠ 1) ∧
    ((st node).numValues = 1 → ∃ e, value st node rhs = .ok e ∧
      ∀ u time, SatisfiedBy e u time ↔ u node 0 = rhs time) := by
  by_cases h : (st node).numValues = 1
  · have : value st node rhs = .ok ⟨⟨node, 0, 1⟩, [], rhs⟩ := by
      simp [value, h, component, componentStep, Equation.mk', Term.mk', Dir.index]
    refine ⟨by simp [this, h], fun _ => ⟨_, this, fun u time => by simp [SatisfiedBy]⟩⟩
  · refine ⟨by simp [value, h], fun h' => absurd h' h⟩

theorem C12_value_group (st : NodeStore ℝ) (nodes : List Nat) (rhs : ℝ → ℝ) (h : ∀ n ∈ nodes, (st n).numValues = 1) :
    ∃ eqs, valueGroup st nodes rhs = .ok eqs ∧ eqs.map (fun e => (e.dep.node, e.dep.comp)) = nodes.map (fun n => (n, 0)) ∧
      ∀ e ∈ eqs, ∀ u time, SatisfiedBy e u time ↔ u e.dep.node 0 = rhs time := by
  have key : ∀ (nodes : List Nat) (acc : List (Equation ℝ)), (∀ n ∈ nodes, (st n).numValues = 1) →
      Res.foldlM (valueGroupStep st rhs) acc nodes = .ok (acc ++ nodes.map fun n => ⟨⟨n, 0, 1⟩, [], rhs⟩) := by
    intro nodes
    induction nodes with
    | nil => intro acc _; simp
    | cons n nodes ih =>
      intro acc hn
      have h1 : value st n rhs = .ok ⟨⟨n, 0, 1⟩, [], rhs⟩ := by
        simp [value, hn n (by simp), component, componentStep, Equation.mk', Term.mk', Dir.index]
      rw [Res.foldlM_cons]
      simp only [valueGroupStep]
      rw [h1]
      simp only [Res.bind_ok']
      rw [ih _ (fun n' h' => hn n' (by simp [h']))]
      simp
  refine ⟨_, key nodes [] h, by simp, ?_⟩
  intro e he u time
  simp only [List.nil_append, List.mem_map] at he
  obtain ⟨n, _, rfl⟩ := he
  simp [SatisfiedBy]

/-- length of a direction vector -/
noncomputable def vecNorm (d : List ℝ) : ℝ := Real.sqrt (d.map fun x => x * x).sum

theorem sum_sq_ge (d : List ℝ) (m : Nat) (hm : m < d.length) : d.getD m 0 * d.getD m 0 ≤ (d.map fun x => x * x).sum := by
  induction d generalizing m with
  | nil => simp at hm
  | cons x d ih =>
    have hnn : ∀ l : List ℝ, 0 ≤ (l.map fun x => x * x).sum := by
      intro l; apply List.sum_nonneg; intro y hy
      obtain ⟨z, _, rfl⟩ := List.mem_map.mp hy; exact mul_self_nonneg z
    cases m with
    | zero => simp only [List.getD_cons_zero, List.map_cons, List.sum_cons]; have := hnn d; linarith
    | succ m =>
      simp only [List.getD_cons_succ, List.map_cons, List.sum_cons]
      have := ih m (by simpa using hm)
      nlinarith [mul_self_nonneg x]

theorem direction_run (st : NodeStore ℝ) (node : Nat) (n : List ℝ) (m : Nat) (l : List Nat) (e : Equation ℝ)
    (h : ∀ i ∈ l, i < (st node).numValues) :
    Res.foldlM (directionStep st node n m) e l = .ok ⟨e.dep, e.ind ++ (l.filter fun i => |n.getD i 0| > 0 ∧ i ≠ m).map fun i =>
      ⟨node, (i : Int), -n.getD i 0 / n.getD m 0⟩, e.rhs⟩ := by
  induction l generalizing e with
  | nil => simp
  | cons i l ih =>
    rw [Res.foldlM_cons]
    have hstep : directionStep st node n m e i = .ok (if |n.getD i 0| > 0 ∧ i ≠ m then
        e.addTerm ⟨node, (i : Int), -n.getD i 0 / n.getD m 0⟩ else e) := by
      unfold directionStep
      split
      · have hi : ¬ ((i : Int) ≥ ((st node).numValues : Int)) := by
          have := h i (by simp); omega
        simp only [Term.mk']
        rw [if_neg hi]; rfl
      · rfl
    rw [hstep]
    simp only [Res.bind_ok']
    rw [ih _ (fun j hj => h j (by simp [hj])), List.filter_cons]
    by_cases hc : |n.getD i 0| > 0 ∧ i ≠ m
    · rw [if_pos hc, if_pos (by simpa using hc)]
      simp [Equation.addTerm]
    · rw [if_neg hc, if_neg (by simpa using hc)]

/-- sum over the other components, as the equation is really built: the terms enter with a minus sign -/
theorem C12_direction_actual_partial (st : NodeStore ℝ) (node : Nat) (d : List ℝ) (m : Nat) (rhs : ℝ → ℝ)
    (hm : IsArgMaxAbs d m) (hd : |d.getD m 0| ≥ 1 / 1000000) (hn : d.length ≤ (st node).numValues) :
    ∃ e, direction st node d m rhs = .ok e ∧ e.dep.node = node ∧ e.dep.comp = m ∧ (∀ t ∈ e.ind, t.comp ≠ m) ∧
      ∀ u time, SatisfiedBy e u time ↔
        d.getD m 0 / vecNorm d * u node m - (((List.range d.length).filter (· ≠ m)).map fun i =>
          d.getD i 0 / vecNorm d * u node i).sum = rhs time := by
  have hd0 : d.getD m 0 ≠ 0 := by
    intro h0; rw [h0, abs_zero] at hd; norm_num at hd
  have hz : 0 < (d.map fun x => x * x).sum :=
    lt_of_lt_of_le (mul_self_pos.mpr hd0) (sum_sq_ge d m hm.1)
  have hs : 0 < vecNorm d := Real.sqrt_pos.mpr hz
  have hnorm : normalize d = d.map fun x => x / vecNorm d := by
    unfold normalize; simp only; rw [if_pos hz]; rfl
  have hget : ∀ i, (normalize d).getD i 0 = d.getD i 0 / vecNorm d := by
    intro i
    rw [hnorm]
    simp only [List.getD_eq_getElem?_getD, List.getElem?_map]
    cases d[i]? <;> simp
  have hmk : Equation.mk' st node (m : Int) (fun time => rhs time / (normalize d).getD m 0) =
      .ok ⟨⟨node, m, 1⟩, [], fun time => rhs time / (normalize d).getD m 0⟩ := by
    have : ¬ ((m : Int) ≥ ((st node).numValues : Int)) := by have := hm.1; omega
    simp only [Equation.mk', Term.mk']
    rw [if_neg this]; rfl
  have hne : d ≠ [] := by intro h; rw [h] at hm; exact absurd hm.1 (by simp)
  have hdir : direction st node d m rhs = .ok ⟨⟨node, m, 1⟩,
      [] ++ ((List.range d.length).filter fun i => |(normalize d).getD i 0| > 0 ∧ i ≠ m).map fun i =>
        ⟨node, (i : Int), -(normalize d).getD i 0 / (normalize d).getD m 0⟩,
      fun time => rhs time / (normalize d).getD m 0⟩ := by
    unfold direction Res.require
    rw [if_pos hne, if_neg (not_lt.mpr hd)]
    simp only
    rw [hmk]
    simp only [Res.bind_ok']
    exact direction_run st node (normalize d) m _ _ (fun i hi => by have := List.mem_range.mp hi; omega)
  refine ⟨_, hdir, rfl, rfl, ?_, ?_⟩
  · intro t ht
    simp only [List.nil_append, List.mem_map] at ht
    obtain ⟨i, hi, rfl⟩ := ht
    have := (List.mem_filter.mp hi).2
    simp at this
    simpa using this.2
  · intro u time
    unfold SatisfiedBy
    simp only [List.nil_append, List.map_map, one_mul]
    have hnm : (normalize d).getD m 0 ≠ 0 := by rw [hget]; exact div_ne_zero hd0 (ne_of_gt hs)
    have hsum : ((List.range d.length).filter fun i => |(normalize d).getD i 0| > 0 ∧ i ≠ m).map
        ((fun t : Term ℝ => t.coef * u t.node t.comp) ∘ fun i : Nat =>
          ⟨node, (i : Int), -(normalize d).getD i 0 / (normalize d).getD m 0⟩) =
        ((List.range d.length).filter fun i => |(normalize d).getD i 0| > 0 ∧ i ≠ m).map
          (fun i => -(normalize d).getD i 0 / (normalize d).getD m 0 * u node i) := rfl
    rw [hsum]
    have hred : ∀ l : List Nat, ((l.filter fun i => |(normalize d).getD i 0| > 0 ∧ i ≠ m).map
          (fun i => -(normalize d).getD i 0 / (normalize d).getD m 0 * u node i)).sum =
        -((l.filter (· ≠ m)).map fun i => d.getD i 0 / vecNorm d * u node i).sum / (normalize d).getD m 0 := by
      intro l
      induction l with
      | nil => simp
      | cons i l ih =>
        rw [List.filter_cons, List.filter_cons]
        by_cases hi : i = m
        · rw [if_neg (by simp [hi]), if_neg (by simp [hi]), ih]
        · by_cases h0 : |(normalize d).getD i 0| > 0
          · rw [if_pos (by simpa using ⟨by simpa using h0, hi⟩), if_pos (by simpa using hi)]
            rw [List.map_cons, List.sum_cons, ih, List.map_cons, List.sum_cons, ← hget i]
            field_simp
            ring
          · have : (normalize d).getD i 0 = 0 := by simpa using h0
            rw [if_neg (by rw [this]; simp), if_pos (by simpa using hi), ih, List.map_cons, List.sum_cons, ← hget i, this]
            simp
    rw [hred, ← hget m]
    generalize (((List.range d.length).filter (· ≠ m)).map fun i => d.getD i 0 / vecNorm d * u node i).sum = S
    constructor
    · intro h
      field_simp at h
      linarith
    · intro h
      field_simp
      linarith

/-- C12 (Direction) for directions along a coordinate axis: the projection is prescribed.  Missing: all other directions,
see `C12_direction_sign_counterexample`. -/
theorem C12_direction_axis_partial (st : NodeStore ℝ) (node : Nat) (d : List ℝ) (m : Nat) (rhs : ℝ → ℝ)
    (hm : IsArgMaxAbs d m) (hd : |d.getD m 0| ≥ 1 / 1000000) (hn : d.length ≤ (st node).numValues)
    (hax : ∀ i, i ≠ m → d.getD i 0 = 0) :
    ∃ e, direction st node d m rhs = .ok e ∧ ∀ u time, SatisfiedBy e u time ↔
        ((List.range d.length).map fun i => d.getD i 0 / vecNorm d * u node i).sum = rhs time := by
  obtain ⟨e, h1, _, _, _, h2⟩ := C12_direction_actual_partial st node d m rhs hm hd hn
  refine ⟨e, h1, fun u time => ?_⟩
  rw [h2]
  have h0 : ∀ l : List Nat, ((l.filter (· ≠ m)).map fun i => d.getD i 0 / vecNorm d * u node i).sum = 0 := by
    intro l
    induction l with
    | nil => simp
    | cons i l ih =>
      rw [List.filter_cons]
      by_cases hi : i = m
      · rw [if_neg (by simp [hi])]; exact ih
      · rw [if_pos (by simpa using hi), List.map_cons, List.sum_cons, ih, hax i hi]; simp
  have h3 : ∀ l : List Nat, l.Nodup → m ∈ l → (l.map fun i => d.getD i 0 / vecNorm d * u node i).sum =
      d.getD m 0 / vecNorm d * u node m := by
    intro l
    induction l with
    | nil => simp
    | cons i l ih =>
      intro hnd hmem
      rw [List.map_cons, List.sum_cons]
      have hnd' := List.nodup_cons.mp hnd
      by_cases hi : i = m
      · subst hi
        have : ∀ l : List Nat, i ∉ l → (l.map fun i => d.getD i 0 / vecNorm d * u node i).sum = 0 := by
          intro l
          induction l with
          | nil => simp
          | cons j l ih2 =>
            intro hj
            simp only [List.mem_cons, not_or] at hj
            rw [List.map_cons, List.sum_cons, ih2 hj.2, hax j (Ne.symm hj.1)]; simp
        rw [this l hnd'.1, add_zero]
      · rcases List.mem_cons.mp hmem with h | h
        · exact absurd h.symm hi
        · rw [ih hnd'.2 h, hax i hi]; simp
  rw [h0, sub_zero, h3 _ List.nodup_range (List.mem_range.mpr hm.1)]

/-- a node with two components -/
def exStore12 : NodeStore ℝ := fun _ => ⟨[[0, 0]], [0, 1]⟩

/-- C12 is false as stated: for d = (1,1) and value 0 the equation is satisfied by u = (1,1), whose projection on d is √2, and
it is not satisfied by u = (1,-1), whose projection is 0 -- for whichever of the two maximal entries is chosen. -/
theorem C12_direction_sign_counterexample (m : Nat) (hm : IsArgMaxAbs [1, 1] m) :
    ∃ e, direction exStore12 7 [1, 1] m (fun _ => 0) = .ok e ∧
      SatisfiedBy e (fun _ _ => 1) 0 ∧ ¬ SatisfiedBy e (fun _ c => if c = 0 then 1 else -1) 0 ∧
      (1 / vecNorm [1, 1] * 1 + 1 / vecNorm [1, 1] * 1 ≠ 0) ∧ (1 / vecNorm [1, 1] * 1 + 1 / vecNorm [1, 1] * -1 = 0) := by
  have hlt : m < 2 := hm.1
  have hv : vecNorm [1, 1] > 0 := Real.sqrt_pos.mpr (by norm_num)
  have h2 : m = 0 ∨ m = 1 := by omega
  obtain ⟨e, h1, _, _, _, h3⟩ := C12_direction_actual_partial exStore12 7 [1, 1] m (fun _ => 0) hm
    (by rcases h2 with rfl | rfl <;> norm_num) (by simp [exStore12, Node.numValues])
  refine ⟨e, h1, (h3 _ _).mpr ?_, ?_, ?_, by ring⟩
  · rcases h2 with rfl | rfl <;> simp [List.range_succ]
  · rw [h3]
    rcases h2 with rfl | rfl
    · simp [List.range_succ]
      have : (vecNorm [1, 1])⁻¹ > 0 := inv_pos.mpr hv
      linarith
    · simp [List.range_succ]
      have : (vecNorm [1, 1])⁻¹ > 0 := inv_pos.mpr hv
      linarith
  · have : (1 / vecNorm [1, 1] * 1 + 1 / vecNorm [1, 1] * 1 : ℝ) > 0 := by positivity
    exact ne_of_gt this

/-- C12: a direction all of whose entries are below 1e-6 is rejected. -/
theorem C12_direction_rejects (st : NodeStore ℝ) (node : Nat) (d : List ℝ) (m : Nat) (rhs : ℝ → ℝ) (hm : IsArgMaxAbs d m)
    (h : ∀ x ∈ d, |x| < 1 / 1000000) : direction st node d m rhs = .throw := by
  have hne : d ≠ [] := by intro h; rw [h] at hm; exact absurd hm.1 (by simp)
  have : |d.getD m 0| < 1 / 1000000 := by
    apply h
    rw [List.getD_eq_getElem?_getD, List.getElem?_eq_getElem hm.1]
    exact List.getElem_mem hm.1
  unfold direction Res.require
  rw [if_pos hne, if_pos this]

/-- C12 (Direction over a group): one equation per node, as for the single node. -/
theorem C12_direction_group_partial (st : NodeStore ℝ) (nodes : List Nat) (d : List ℝ) (m : Nat) (rhs : ℝ → ℝ)
    (hm : IsArgMaxAbs d m) (hd : |d.getD m 0| ≥ 1 / 1000000) (hn : ∀ n ∈ nodes, d.length ≤ (st n).numValues) :
    ∃ eqs, directionGroup st nodes d m rhs = .ok eqs ∧
      eqs.map (fun e => (e.dep.node, e.dep.comp)) = nodes.map (fun n => (n, (m : Int))) ∧
      ∀ e ∈ eqs, ∀ u time, SatisfiedBy e u time ↔
        d.getD m 0 / vecNorm d * u e.dep.node m - (((List.range d.length).filter (· ≠ m)).map fun i =>
          d.getD i 0 / vecNorm d * u e.dep.node i).sum = rhs time := by
  have key : ∀ (nodes : List Nat) (acc : List (Equation ℝ)), (∀ n ∈ nodes, d.length ≤ (st n).numValues) →
      ∃ eqs, Res.foldlM (directionGroupStep st d m rhs) acc nodes = .ok (acc ++ eqs) ∧
      eqs.map (fun e => (e.dep.node, e.dep.comp)) = nodes.map (fun n => (n, (m : Int))) ∧
      ∀ e ∈ eqs, ∀ u time, SatisfiedBy e u time ↔
        d.getD m 0 / vecNorm d * u e.dep.node m - (((List.range d.length).filter (· ≠ m)).map fun i =>
          d.getD i 0 / vecNorm d * u e.dep.node i).sum = rhs time := by
    intro nodes
    induction nodes with
    | nil => intro acc _; exact ⟨[], by simp⟩
    | cons n nodes ih =>
      intro acc hn
      obtain ⟨e, h1, h2, h3, _, h4⟩ := C12_direction_actual_partial st n d m rhs hm hd (hn n (by simp))
      obtain ⟨eqs, g1, g2, g3⟩ := ih (acc ++ [e]) (fun n' h' => hn n' (by simp [h']))
      refine ⟨e :: eqs, ?_, ?_, ?_⟩
      · rw [Res.foldlM_cons]
        simp only [directionGroupStep]
        rw [h1]
        simp only [Res.bind_ok']
        rw [g1, List.append_assoc, List.singleton_append]
      · rw [List.map_cons, List.map_cons, g2, h2, h3]
      · intro e' he' u time
        rcases List.mem_cons.mp he' with rfl | he'
        · rw [h4, h2]
        · exact g3 e' he' u time
  obtain ⟨eqs, h1, h2, h3⟩ := key nodes [] hn
  exact ⟨eqs, by simpa [directionGroup] using h1, h2, h3⟩

/-- C12: a direction that is too small is rejected for every group that is not empty. -/
theorem C12_direction_group_rejects (st : NodeStore ℝ) (nodes : List Nat) (d : List ℝ) (m : Nat) (rhs : ℝ → ℝ) (hm : IsArgMaxAbs d m)
    (h : ∀ x ∈ d, |x| < 1 / 1000000) : directionGroup st nodes d m rhs = if nodes = [] then .ok [] else .throw := by
  cases nodes with
  | nil => simp [directionGroup]
  | cons n nodes =>
    unfold directionGroup
    rw [Res.foldlM_cons]
    simp only [directionGroupStep]
    rw [C12_direction_rejects st n d m rhs hm h, if_neg (by simp)]
    rfl

/-- C12 (RhsRamp): rejected for end time zero, otherwise linear through 0 and the end value. -/
theorem C12_ramp (timeEnd valueEnd : ℝ) :
    (rhsRamp timeEnd valueEnd = .throw ↔ timeEnd = 0) ∧
    (timeEnd ≠ 0 → ∃ f, rhsRamp timeEnd valueEnd = .ok f ∧ f 0 = 0 ∧ f timeEnd = valueEnd ∧
      ∀ s t, f (s + t) = f s + f t) := by
  unfold rhsRamp
  split
  · simp_all
  · rename_i h
    refine ⟨by simp [h], fun _ => ⟨_, rfl, by simp, by field_simp, fun s t => by ring⟩⟩

/-- hypotheses of the direction theorems are satisfiable: d = (3, -4), m = 1 and d = (0, 2), m = 1 -/
example : IsArgMaxAbs [3, -4] 1 ∧ |([3, -4] : List ℝ).getD 1 0| ≥ 1 / 1000000 ∧
    [(3 : ℝ), -4].length ≤ (exStore12 7).numValues ∧ IsArgMaxAbs [0, 2] 1 ∧
    (∀ i, i ≠ 1 → ([0, 2] : List ℝ).getD i 0 = 0) ∧ IsArgMaxAbs [1, 1] 0 := by
  refine ⟨⟨by simp, ?_⟩, by norm_num, by simp [exStore12, Node.numValues], ⟨by simp, ?_⟩, ?_, ⟨by simp, ?_⟩⟩
  · intro x hx; simp at hx; rcases hx with rfl | rfl <;> norm_num [abs_of_pos]
  · intro x hx; simp at hx; rcases hx with rfl | rfl <;> norm_num [abs_of_pos]
  · intro i hi
    match i, hi with
    | 0, _ => rfl
    | i + 2, _ => simp
  · intro x hx; simp at hx; rw [hx]; simp

/-- hypotheses of the component and value theorems -/
example : (∀ n ∈ [1, 2], ∀ d ∈ [Dir.Y, Dir.X], d.index < (exStore12 n).numValues) ∧
    ((fun _ => ⟨[[0]], [0]⟩ : NodeStore ℝ) 3).numValues = 1 := by
  constructor
  · intro n _ d hd; simp at hd; rcases hd with rfl | rfl <;> simp [exStore12, Node.numValues, Dir.index]
  · rfl

end NuTo
