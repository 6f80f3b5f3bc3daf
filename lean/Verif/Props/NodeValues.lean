import Verif.Model.NodeSelection
import Verif.Lemmas.Group
import Mathlib.Data.List.GetD
import Mathlib.Algebra.Field.Rat

/-!
C70: the values of a node are independent cells (instance, component) and its dof numbers independent cells (component): what is
read is what was written last, new instances are zero, nothing else changes.
-/
set_option linter.unusedSectionVars false

namespace NuTo
namespace SimpleNode
variable {K : Type _} [Zero K]

/-- calls that change a node -/
inductive Op (K : Type _) where
  | setValues (v : List K) (inst : Int)
  | setValue (component : Int) (x : K) (inst : Int)
  | setDofNumber (component number : Int)
  | allocate (n : Int)

/-- the model of a call -/
def apply (s : SimpleNode K) : Op K → Res (SimpleNode K)
  | .setValues v i => s.setValues v i
  | .setValue c x i => s.setValue c x i
  | .setDofNumber c n => s.setDofNumber c n
  | .allocate n => s.allocateInstances n

/-- what a user thinks of: a number of instances, a table of values, a table of dof numbers -/
structure Table (K : Type _) where
  num : Nat
  value : Nat → Nat → K
  number : Nat → Int

/-- the calls a user may make on a node of dimension `dim` -/
def Legal (dim : Nat) (t : Table K) : Op K → Prop
  | .setValues v i => 0 ≤ i ∧ i < t.num ∧ v.length = dim
  | .setValue c _ i => 0 ≤ i ∧ i < t.num ∧ 0 ≤ c ∧ c < dim
  | .setDofNumber c _ => 0 ≤ c ∧ c < dim
  | .allocate n => 0 < n

/-- the effect a user expects -/
def Table.apply (t : Table K) : Op K → Table K
  | .setValues v i => { t with value := fun j c => if (j : Int) = i then v.getD c 0 else t.value j c }
  | .setValue c x i => { t with value := fun j k => if (j : Int) = i ∧ (k : Int) = c then x else t.value j k }
  | .setDofNumber c n => { t with number := fun k => if (k : Int) = c then n else t.number k }
  | .allocate n => { t with num := n.toNat, value := fun j k => if j < t.num then t.value j k else 0 }

/-- all reads of the node give the table -/
structure Reads (dim : Nat) (s : SimpleNode K) (t : Table K) : Prop where
  instances : s.numInstances = t.num
  values : ∀ i : Int, 0 ≤ i → i < t.num →
    ∃ v, s.getValues i = .ok v ∧ v.length = dim ∧ ∀ c < dim, v.getD c 0 = t.value i.toNat c
  numbers : ∀ c : Int, 0 ≤ c → c < dim → s.getDofNumber c = .ok (t.number c.toNat)
  outside : ∀ i : Int, (i < 0 ∨ (t.num : Int) ≤ i) → s.getValues i = .ub
  outsideNumbers : ∀ c : Int, (c < 0 ∨ (dim : Int) ≤ c) → s.getDofNumber c = .ub

theorem getValues_eq_ok {s : SimpleNode K} {i : Int} {v : List K} :
    s.getValues i = .ok v ↔ 0 ≤ i ∧ s.values[i.toNat]? = some v := by
  unfold getValues
  by_cases h : 0 ≤ i
  · simp only [h, if_true, true_and]
    split <;> simp_all
  · simp [h]

theorem getDofNumber_eq_ok {s : SimpleNode K} {i : Int} {v : Int} :
    s.getDofNumber i = .ok v ↔ 0 ≤ i ∧ s.dofNumbers[i.toNat]? = some v := by
  unfold getDofNumber
  by_cases h : 0 ≤ i
  · simp only [h, if_true, true_and]
    split <;> simp_all
  · simp [h]

theorem reads_iff (dim : Nat) (s : SimpleNode K) (t : Table K) : Reads dim s t ↔
    s.values.length = t.num ∧ s.dofNumbers.length = dim ∧
    (∀ (i : Nat) v, s.values[i]? = some v → v.length = dim ∧ ∀ c < dim, v.getD c 0 = t.value i c) ∧
    (∀ c < dim, s.dofNumbers[c]? = some (t.number c)) := by
  constructor
  · intro h
    have hl : s.dofNumbers.length = dim := by
      apply le_antisymm
      · by_contra hc
        have := h.outsideNumbers dim (Or.inr le_rfl)
        rw [getDofNumber_eq_ok.mpr ⟨Int.natCast_nonneg _, List.getElem?_eq_getElem (by simpa using hc)⟩] at this
        cases this
      · cases dim with
        | zero => exact Nat.zero_le _
        | succ k =>
          have := (getDofNumber_eq_ok.mp (h.numbers k (Int.natCast_nonneg _) (by omega))).2
          have := (List.getElem?_eq_some_iff.mp this).1
          simp at this; omega
    refine ⟨h.instances, hl, fun i v hv => ?_, fun c hc => ?_⟩
    · have hi : i < s.values.length := (List.getElem?_eq_some_iff.mp hv).1
      obtain ⟨w, h1, h2, h3⟩ := h.values i (Int.natCast_nonneg _) (by have := h.instances; unfold numInstances at this; omega)
      have : w = v := by
        have := (getValues_eq_ok.mp h1).2
        simp only [Int.toNat_natCast] at this
        exact Option.some_injective _ (this.symm.trans hv)
      subst this
      exact ⟨h2, by simpa using h3⟩
    · have := (getDofNumber_eq_ok.mp (h.numbers c (Int.natCast_nonneg _) (by omega))).2
      simpa using this
  · rintro ⟨h1, h2, h3, h4⟩
    refine ⟨h1, fun i hi hlt => ?_, fun c hc hlt => ?_, fun i hi => ?_, fun c hc => ?_⟩
    · have hlt' : i.toNat < s.values.length := by omega
      obtain ⟨k1, k2⟩ := h3 i.toNat _ (List.getElem?_eq_getElem hlt')
      exact ⟨_, getValues_eq_ok.mpr ⟨hi, List.getElem?_eq_getElem hlt'⟩, k1, k2⟩
    · exact getDofNumber_eq_ok.mpr ⟨hc, h4 c.toNat (by omega)⟩
    · unfold getValues
      split
      · rw [List.getElem?_eq_none (by omega)]
      · rfl
    · unfold getDofNumber
      split
      · rw [List.getElem?_eq_none (by omega)]
      · rfl

theorem getElem?_resize {α : Type _} (l : List α) (n : Nat) (v : α) (i : Nat) (hi : i < n) :
    (resize l n v)[i]? = if i < l.length then l[i]? else some v := by
  unfold resize
  by_cases h : i < l.length
  · rw [if_pos h, List.getElem?_append_left (by simp [hi, h]), List.getElem?_take, if_pos hi]
  · rw [if_neg h, List.getElem?_append_right (by simp; omega), List.getElem?_replicate, if_pos (by simp; omega)]

theorem length_resize {α : Type _} (l : List α) (n : Nat) (v : α) : (resize l n v).length = n := by
  simp [resize]; omega

/-- **C70** One call: a legal call is carried out and every later read sees exactly the expected change; any other call is outside
of the contract (a failed assert). -/
theorem C70_call (dim : Nat) (s : SimpleNode K) (t : Table K) (h : Reads dim s t) (hne : 0 < t.num) (o : Op K) :
    (Legal dim t o → ∃ s', s.apply o = .ok s' ∧ Reads dim s' (t.apply o) ∧ 0 < (t.apply o).num) ∧
    (¬ Legal dim t o → s.apply o = .ub) := by
  obtain ⟨h1, h2, h3, h4⟩ := (reads_iff dim s t).mp h
  cases o with
  | setValues v i =>
    simp only [Legal, apply, setValues, Table.apply]
    constructor
    · rintro ⟨hi, hlt, hv⟩
      have hlt' : i.toNat < s.values.length := by omega
      obtain ⟨k1, k2⟩ := h3 i.toNat _ (List.getElem?_eq_getElem hlt')
      rw [getValues_eq_ok.mpr ⟨hi, List.getElem?_eq_getElem hlt'⟩, Res.bind_ok', Res.require, if_pos (hv.trans k1.symm)]
      refine ⟨_, rfl, (reads_iff _ _ _).mpr ⟨by simpa using h1, h2, fun j w hw => ?_, h4⟩, hne⟩
      simp only [List.getElem?_set] at hw
      by_cases hj : i.toNat = j
      · rw [if_pos hj, if_pos hlt'] at hw
        injection hw with hw; subst hw
        have : (j : Int) = i := by omega
        simp [hv, this]
      · rw [if_neg hj] at hw
        have : ¬ (j : Int) = i := by omega
        simpa [this] using h3 j w hw
    · intro hn
      by_cases hi : 0 ≤ i ∧ i < t.num
      · have hlt' : i.toNat < s.values.length := by omega
        obtain ⟨k1, k2⟩ := h3 i.toNat _ (List.getElem?_eq_getElem hlt')
        rw [getValues_eq_ok.mpr ⟨hi.1, List.getElem?_eq_getElem hlt'⟩, Res.bind_ok', Res.require, if_neg]
        rw [k1]; exact fun hv => hn ⟨hi.1, hi.2, hv⟩
      · rw [h.outside i (by omega)]; rfl
  | setValue c x i =>
    simp only [Legal, apply, setValue, Table.apply]
    constructor
    · rintro ⟨hi, hlt, hc, hcd⟩
      have hlt' : i.toNat < s.values.length := by omega
      obtain ⟨k1, k2⟩ := h3 i.toNat _ (List.getElem?_eq_getElem hlt')
      rw [getValues_eq_ok.mpr ⟨hi, List.getElem?_eq_getElem hlt'⟩, Res.bind_ok', Res.require,
        if_pos ⟨hc, by omega, by omega⟩]
      refine ⟨_, rfl, (reads_iff _ _ _).mpr ⟨by simpa using h1, h2, fun j w hw => ?_, h4⟩, hne⟩
      simp only [List.getElem?_set] at hw
      by_cases hj : i.toNat = j
      · rw [if_pos hj, if_pos hlt'] at hw
        injection hw with hw; subst hw
        have hji : (j : Int) = i := by omega
        refine ⟨by simpa using k1, fun k hk => ?_⟩
        simp only [hji, true_and]
        by_cases hkc : (k : Int) = c
        · have : c.toNat = k := by omega
          rw [if_pos hkc, List.getD_eq_getElem?_getD, List.getElem?_set, if_pos this, if_pos (by omega)]; rfl
        · have : ¬ c.toNat = k := by omega
          rw [if_neg hkc, List.getD_eq_getElem?_getD, List.getElem?_set, if_neg this, ← List.getD_eq_getElem?_getD,
            k2 k hk, hj]
      · rw [if_neg hj] at hw
        have : ¬ (j : Int) = i := by omega
        simpa [this] using h3 j w hw
    · intro hn
      by_cases hi : 0 ≤ i ∧ i < t.num
      · have hlt' : i.toNat < s.values.length := by omega
        obtain ⟨k1, k2⟩ := h3 i.toNat _ (List.getElem?_eq_getElem hlt')
        rw [getValues_eq_ok.mpr ⟨hi.1, List.getElem?_eq_getElem hlt'⟩, Res.bind_ok', Res.require, if_neg]
        rintro ⟨hc, h5, h6⟩
        exact hn ⟨hi.1, hi.2, hc, by omega⟩
      · rw [h.outside i (by omega)]; rfl
  | setDofNumber c n =>
    simp only [Legal, apply, setDofNumber, Table.apply]
    constructor
    · rintro ⟨hc, hcd⟩
      rw [Res.require, if_pos ⟨hc, by omega⟩]
      refine ⟨_, rfl, (reads_iff _ _ _).mpr ⟨h1, by simpa using h2, h3, fun k hk => ?_⟩, hne⟩
      simp only [List.getElem?_set]
      by_cases hkc : c.toNat = k
      · rw [if_pos hkc, if_pos (by omega), if_pos (by omega)]
      · rw [if_neg hkc, if_neg (by omega), h4 k hk]
    · intro hn
      rw [Res.require, if_neg]
      rintro ⟨hc, h5⟩
      exact hn ⟨hc, by omega⟩
  | allocate n =>
    simp only [Legal, apply, allocateInstances, Table.apply]
    constructor
    · intro hn
      rw [Res.require, if_pos hn]
      cases hv : s.values with
      | nil => rw [hv] at h1; simp at h1; omega
      | cons v vs =>
        have hvl : v.length = dim := (h3 0 v (by rw [hv]; rfl)).1
        refine ⟨_, rfl, (reads_iff _ _ _).mpr ⟨length_resize _ _ _, h2, fun j w hw => ?_, h4⟩, by omega⟩
        have hj : j < n.toNat := by
          have := (List.getElem?_eq_some_iff.mp hw).1
          simpa [length_resize] using this
        rw [getElem?_resize _ _ _ _ hj] at hw
        by_cases hjl : j < (v :: vs).length
        · rw [if_pos hjl, ← hv] at hw
          have : j < t.num := by rw [← h1, hv]; exact hjl
          simpa [this] using h3 j w hw
        · rw [if_neg hjl] at hw
          injection hw with hw
          have : ¬ j < t.num := by rw [← h1, hv]; exact hjl
          subst hw
          refine ⟨by simp [hvl], fun c hc => ?_⟩
          simp only [this, if_false, List.getD_eq_getElem?_getD, List.getElem?_replicate]
          split <;> rfl
    · intro hn
      rw [Res.require, if_neg hn]

/-- a sequence of calls, each legal when it is made -/
def LegalSeq (dim : Nat) : Table K → List (Op K) → Prop
  | _, [] => True
  | t, o :: os => Legal dim t o ∧ LegalSeq dim (t.apply o) os

/-- **C70** For every sequence of legal calls, all reads give the table of last writes. -/
theorem C70_history (dim : Nat) (s : SimpleNode K) (t : Table K) (h : Reads dim s t) (hne : 0 < t.num) (os : List (Op K))
    (hl : LegalSeq dim t os) :
    ∃ s', Res.foldlM apply s os = .ok s' ∧ Reads dim s' (os.foldl Table.apply t) := by
  induction os generalizing s t with
  | nil => exact ⟨s, rfl, h⟩
  | cons o os ih =>
    obtain ⟨s1, e, h1, h2⟩ := (C70_call dim s t h hne o).1 hl.1
    obtain ⟨s2, e2, h3⟩ := ih s1 (t.apply o) h1 h2 hl.2
    exact ⟨s2, by rw [Res.foldlM_cons, e, Res.bind_ok', e2], h3⟩

/-- **C70** The constructors: the given values in one instance, or zeros; the dof numbers are -1, except for the constructor from a
single number, which starts with dof number 0. -/
theorem C70_constructors (v : List K) (x : K) (dimension numInstances : Nat) :
    Reads v.length (ofValues v) ⟨1, fun _ c => v.getD c 0, fun _ => -1⟩ ∧
    Reads 1 (ofValue x) ⟨1, fun _ _ => x, fun _ => 0⟩ ∧
    Reads dimension (ofDimension (K := K) dimension numInstances) ⟨numInstances, fun _ _ => 0, fun _ => -1⟩ := by
  refine ⟨?_, ?_, ?_⟩ <;> rw [reads_iff]
  · refine ⟨rfl, by simp [ofValues], fun i w hw => ?_, fun c hc => by simp [ofValues, hc]⟩
    cases i with
    | zero => simp only [ofValues, List.getElem?_cons_zero] at hw; injection hw with hw; subst hw; exact ⟨rfl, fun _ _ => rfl⟩
    | succ k => simp [ofValues] at hw
  · refine ⟨rfl, rfl, fun i w hw => ?_, fun c hc => ?_⟩
    · cases i with
      | zero =>
        simp only [ofValue, List.getElem?_cons_zero] at hw
        injection hw with hw; subst hw
        exact ⟨rfl, fun c hc => by obtain rfl : c = 0 := by omega
                                   rfl⟩
      | succ k => simp [ofValue] at hw
    · obtain rfl : c = 0 := by omega
      rfl
  · refine ⟨by simp [ofDimension], by simp [ofDimension], fun i w hw => ?_, fun c hc => by
      simp [ofDimension, hc]⟩
    simp only [ofDimension, List.getElem?_replicate] at hw
    split at hw
    · injection hw with hw; subst hw
      exact ⟨by simp, fun c hc => by
        simp only [List.getD_eq_getElem?_getD, List.getElem?_replicate]
        split <;> rfl⟩
    · cases hw

/-- **C70** `AllocateDofInstances` over a group of distinct nodes: each of them has the requested number of instances afterwards, the
old values of the instances that are kept, zeros in the new ones; all other nodes are untouched. -/
theorem C70_allocate_all (n : Int) (hn : 0 < n) (nodes : List (SimpleNode K)) (g : Group) (hg : g.data.Nodup)
    (hin : ∀ i ∈ g.data, ∃ s v vs, nodes[i]? = some s ∧ s.values = v :: vs ∧ ∀ w ∈ s.values, w.length = v.length) :
    ∃ nodes', allocateDofInstances n nodes g = .ok nodes' ∧ nodes'.length = nodes.length ∧
      (∀ i, i ∉ g.data → nodes'[i]? = nodes[i]?) ∧
      (∀ i ∈ g.data, ∃ s s', nodes[i]? = some s ∧ nodes'[i]? = some s' ∧ s'.dofNumbers = s.dofNumbers ∧
        s'.numInstances = n.toNat ∧
        ∀ j : Nat, j < n.toNat → ∃ w, s'.values[j]? = some w ∧
          (j < s.numInstances → s.values[j]? = some w) ∧
          (s.numInstances ≤ j → w.length = (s.values.headD []).length ∧ ∀ x ∈ w, x = 0)) := by
  unfold allocateDofInstances
  generalize g.data = l at hg hin
  induction l generalizing nodes with
  | nil => exact ⟨nodes, rfl, rfl, fun _ _ => rfl, fun i hi => by cases hi⟩
  | cons a t ih =>
    obtain ⟨s, v, vs, h1, h2, h3⟩ := hin a List.mem_cons_self
    rw [List.nodup_cons] at hg
    have ha : a < nodes.length := (List.getElem?_eq_some_iff.mp h1).1
    have e : allocateStep n nodes a =
        .ok (nodes.set a { s with values := resize s.values n.toNat (List.replicate v.length 0) }) := by
      simp only [allocateStep, h1, allocateInstances, Res.require, hn, if_true, h2, Res.bind_ok']
    obtain ⟨nodes', k1, k2, k3, k4⟩ := ih (nodes.set a { s with values := resize s.values n.toNat (List.replicate v.length 0) })
      hg.2 (fun i hi => by
        have : a ≠ i := fun h => hg.1 (h ▸ hi)
        rw [List.getElem?_set, if_neg this]
        exact hin i (List.mem_cons_of_mem _ hi))
    refine ⟨nodes', by rw [Res.foldlM_cons, e]; exact k1, by simpa using k2, fun i hi => ?_, fun i hi => ?_⟩
    · rw [List.mem_cons, not_or] at hi
      rw [k3 i hi.2, List.getElem?_set, if_neg (Ne.symm hi.1)]
    · by_cases hia : i = a
      · subst hia
        refine ⟨s, { s with values := resize s.values n.toNat (List.replicate v.length 0) }, h1, by rw [k3 i hg.1, List.getElem?_set, if_pos rfl, if_pos ha], rfl, length_resize _ _ _, fun j hj => ?_⟩
        simp only [getElem?_resize _ _ _ _ hj]
        by_cases hjl : j < s.values.length
        · rw [if_pos hjl]
          exact ⟨_, List.getElem?_eq_getElem hjl, fun _ => List.getElem?_eq_getElem hjl,
            fun h => absurd hjl (by unfold numInstances at h; omega)⟩
        · rw [if_neg hjl]
          refine ⟨_, rfl, fun h => absurd h hjl, fun _ => ⟨by simp [h2], fun x hx => List.eq_of_mem_replicate hx⟩⟩
      · have hit : i ∈ t := by rcases List.mem_cons.mp hi with h | h; exacts [absurd h hia, h]
        obtain ⟨s1, s', q1, q2⟩ := k4 i hit
        refine ⟨s1, s', ?_, q2⟩
        rw [List.getElem?_set, if_neg (Ne.symm hia)] at q1
        exact q1

example : Reads 2 (ofValues [(3 : ℚ), 4]) ⟨1, fun _ c => [(3 : ℚ), 4].getD c 0, fun _ => -1⟩ ∧
    LegalSeq 2 (⟨1, fun _ c => [(3 : ℚ), 4].getD c 0, fun _ => -1⟩ : Table ℚ)
      [.allocate 2, .setValue 1 7 1, .setDofNumber 0 5, .setValues [1, 2] 0] := by
  refine ⟨(C70_constructors [(3 : ℚ), 4] 0 0 0).1, ?_⟩
  simp [LegalSeq, Legal, Table.apply]

end SimpleNode
end NuTo
