import Verif.Lemmas.Numbering
import Verif.Lemmas.SpMat
import Mathlib.Algebra.Order.Field.Basic
import Mathlib.Data.List.Nodup
import Mathlib.Tactic.Linarith

set_option linter.unusedSectionVars false
namespace NuTo
variable {K : Type _}

/-- how many numbers below n do not occur in a duplicate free list -/
theorem count_unlisted (n : Nat) (l : List Nat) (hl : l.Nodup) (hb : ∀ x ∈ l, x < n) :
    ((List.range n).filter fun i => i ∉ l).length = n - l.length := by
  have hp : ((List.range n).filter fun i => i ∈ l).Perm l := by
    rw [List.perm_ext_iff_of_nodup (List.nodup_range.filter _) hl]
    intro a
    simp only [List.mem_filter, List.mem_range, decide_eq_true_eq]
    exact ⟨fun h => h.2, fun h => ⟨hb a h, h⟩⟩
  have h2 := List.length_eq_length_filter_add (l := List.range n) (fun i => decide (i ∈ l))
  rw [hp.length_eq, List.length_range] at h2
  have h3 : ((List.range n).filter fun i => decide (i ∉ l)) = (List.range n).filter fun i => !decide (i ∈ l) := by
    congr 1; funext i; simp
  rw [h3]
  omega

theorem length_le_of_nodup_lt (n : Nat) (l : List Nat) (hl : l.Nodup) (hb : ∀ x ∈ l, x < n) : l.length ≤ n := by
  have hs : l.Subperm (List.range n) := hl.subperm (fun x hx => List.mem_range.mpr (hb x hx))
  simpa using hs.length_le

namespace Constraints

/-- numbers of the dependent dofs in equation order -/
def deps (num : Term K → Nat) (eqs : List (Equation K)) : List Nat := eqs.map fun e => num e.dep
/-- the other numbers, ascending -/
def indeps (num : Term K → Nat) (eqs : List (Equation K)) (n : Nat) : List Nat :=
  (List.range n).filter fun i => i ∉ deps num eqs

theorem jkLoop (st : NodeStore K) (n : Nat) (num : Term K → Nat) (eqs : List (Equation K))
    (h : ∀ e ∈ eqs, e.dep.dofNumber st = .ok (num e.dep : Int) ∧ num e.dep < n) : ∀ (fl : List Bool) (ds : List Nat),
    fl.length = n → ∃ fl', Res.foldlM (jkStep st n) (fl, ds) eqs = .ok (fl', ds ++ deps num eqs) ∧
      ∀ i, i < n → fl'.getD i false = (fl.getD i false || decide (i ∈ deps num eqs)) := by
  induction eqs with
  | nil => intro fl ds _; exact ⟨fl, by simp [deps], by simp [deps]⟩
  | cons e eqs ih =>
    intro fl ds hl
    obtain ⟨h1, h2⟩ := h e (by simp)
    obtain ⟨fl', g1, g2⟩ := ih (fun f hf => h f (by simp [hf])) (fl.set (num e.dep) true) (ds ++ [num e.dep])
      (by simpa using hl)
    refine ⟨fl', ?_, ?_⟩
    · have hs : jkStep st n (fl, ds) e = .ok (fl.set (num e.dep) true, ds ++ [num e.dep]) := by
        unfold jkStep
        rw [h1, Res.bind_ok', if_neg (by omega), if_neg (by omega), if_neg (by omega)]
        simp
      rw [Res.foldlM_cons, hs, Res.bind_ok', g1]
      simp [deps]
    · intro i hi
      rw [g2 i hi]
      by_cases hie : i = num e.dep
      · subst hie
        simp [deps, List.getD_eq_getElem?_getD, hl, h2]
      · have : (fl.set (num e.dep) true).getD i false = fl.getD i false := by
          simp [List.getD_eq_getElem?_getD, List.getElem?_set_ne (Ne.symm hie)]
        rw [this]
        simp [deps, hie]

theorem jk_ok (st : NodeStore K) (c : Constraints K) (dof n : Nat) (num : Term K → Nat)
    (h : ∀ e ∈ c.equations dof, e.dep.dofNumber st = .ok (num e.dep : Int) ∧ num e.dep < n)
    (hd : (deps num (c.equations dof)).Nodup) :
    c.getJKNumbering st dof n = .ok (indeps num (c.equations dof) n ++ deps num (c.equations dof)) := by
  have hb : ∀ x ∈ deps num (c.equations dof), x < n := by
    intro x hx
    obtain ⟨e, he, rfl⟩ := List.mem_map.mp hx
    exact (h e he).2
  have hle := length_le_of_nodup_lt n _ hd hb
  have hlen : (deps num (c.equations dof)).length = c.numEquations dof := by simp [deps, numEquations]
  obtain ⟨fl', g1, g2⟩ := jkLoop st n num (c.equations dof) h (List.replicate n false) [] (by simp)
  unfold getJKNumbering
  simp only [Res.require]
  rw [if_pos (by omega), g1]
  simp only [Res.bind_ok', List.nil_append]
  have hf : ((List.range n).filter fun i => !(fl'.getD i false)) = indeps num (c.equations dof) n := by
    apply List.filter_congr
    intro i hi
    have hi' := List.mem_range.mp hi
    rw [g2 i hi']
    simp [List.getD_eq_getElem?_getD, hi']
  rw [hf, if_pos]
  unfold indeps
  rw [count_unlisted n _ hd hb]
  omega

/-- the reversed permutation maps a number to its position -/
theorem reverse_getElem? (jk : List Nat) (hn : jk.Nodup) (hb : ∀ x ∈ jk, x < jk.length) (g : Nat) (hg : g ∈ jk) :
    (reverse jk)[g]? = some (jk.idxOf g) := by
  have h : reverse jk = Merger.writeAll ((List.range jk.length).map fun i => ((jk.getD i 0 : Int), i))
      (List.replicate jk.length 0) := by
    unfold reverse Merger.writeAll
    rw [List.foldl_map]
    simp
  rw [h, Merger.writeAll_agree _ (fun k => jk.idxOf k) (by
    intro p hp
    obtain ⟨i, hi, rfl⟩ := List.mem_map.mp hp
    have hi' := List.mem_range.mp hi
    simp only [Int.toNat_natCast, List.getD_eq_getElem?_getD, List.getElem?_eq_getElem hi', Option.getD_some]
    exact (hn.idxOf_getElem i hi').symm) _ g (by simpa using hb g hg)]
  rw [if_pos]
  have := List.idxOf_lt_length_of_mem hg
  refine ⟨_, List.mem_map.mpr ⟨jk.idxOf g, List.mem_range.mpr this, rfl⟩, ?_⟩
  simp [List.getD_eq_getElem?_getD, this]

section matrix
variable [Field K] [LinearOrder K]

/-- the triplets added for one equation -/
def termTriplets (num : Term K → Nat) (ind : List Nat) (e : Equation K) : List (Triplet K) :=
  (e.ind.filter fun t => |t.coef| > 1 / 1000000000000000000).map fun t => ⟨num e.dep, ind.idxOf (num t), -t.coef⟩

theorem unitTermLoop (st : NodeStore K) (num : Term K → Nat) (ind rev : List Nat) (dep : Term K)
    (hdep : dep.dofNumber st = .ok (num dep : Int)) (l : List (Term K))
    (h : ∀ t ∈ l, t.dofNumber st = .ok (num t : Int) ∧ rev[num t]? = some (ind.idxOf (num t)) ∧ num t ∈ ind) :
    ∀ ts, Res.foldlM (unitTermStep st rev ind.length dep) ts l =
      .ok (ts ++ (l.filter fun t => |t.coef| > 1 / 1000000000000000000).map fun t =>
        ⟨num dep, ind.idxOf (num t), -t.coef⟩) := by
  induction l with
  | nil => intro ts; simp
  | cons t l ih =>
    intro ts
    obtain ⟨h1, h2, h3⟩ := h t (by simp)
    have hs : unitTermStep st rev ind.length dep ts t = .ok (ts ++ if |t.coef| > 1 / 1000000000000000000 then
        [⟨num dep, ind.idxOf (num t), -t.coef⟩] else []) := by
      unfold unitTermStep
      rw [h1, Res.bind_ok', if_neg (by omega)]
      simp only [Int.toNat_natCast, h2, Res.require, hdep, Res.bind_ok']
      rw [if_pos (List.idxOf_lt_length_of_mem h3)]
      split <;> simp
    rw [Res.foldlM_cons, hs, Res.bind_ok', ih (fun t' ht => h t' (by simp [ht]))]
    congr 1
    rw [List.filter_cons]
    by_cases hc : |t.coef| > 1 / 1000000000000000000
    · rw [if_pos hc, if_pos (by simpa using hc)]; simp
    · rw [if_neg hc, if_neg (by simpa using hc)]; simp

theorem unitLoop (st : NodeStore K) (num : Term K → Nat) (ind rev : List Nat) (eqs : List (Equation K))
    (h : ∀ e ∈ eqs, e.dep.dofNumber st = .ok (num e.dep : Int) ∧
      ∀ t ∈ e.ind, t.dofNumber st = .ok (num t : Int) ∧ rev[num t]? = some (ind.idxOf (num t)) ∧ num t ∈ ind) :
    ∀ ts, Res.foldlM (fun ts (e : Equation K) => Res.foldlM (unitTermStep st rev ind.length e.dep) ts e.ind) ts eqs =
      .ok (ts ++ eqs.flatMap (termTriplets num ind)) := by
  induction eqs with
  | nil => intro ts; simp
  | cons e eqs ih =>
    intro ts
    obtain ⟨h1, h2⟩ := h e (by simp)
    rw [Res.foldlM_cons, unitTermLoop st num ind rev e.dep h1 e.ind h2, Res.bind_ok',
      ih (fun f hf => h f (by simp [hf]))]
    simp [termTriplets]

/-- a constraint set with a proper numbering -/
structure Valid (st : NodeStore K) (eqs : List (Equation K)) (n : Nat) (num : Term K → Nat) : Prop where
  numbered : ∀ e ∈ eqs, ∀ t ∈ e.dep :: e.ind, t.dofNumber st = .ok (num t : Int) ∧ num t < n
  distinct : (eqs.map fun e => num e.dep).Nodup
  indep : ∀ e ∈ eqs, ∀ f ∈ eqs, ∀ t ∈ f.ind, num t ≠ num e.dep

/-- all triplets of the constraint matrix -/
def cTriplets (num : Term K → Nat) (eqs : List (Equation K)) (n : Nat) : List (Triplet K) :=
  ((List.range (indeps num eqs n).length).map fun i => (⟨(indeps num eqs n).getD i 0, i, 1⟩ : Triplet K)) ++
    eqs.flatMap (termTriplets num (indeps num eqs n))

theorem mem_indeps {num : Term K → Nat} {eqs : List (Equation K)} {n g : Nat} :
    g ∈ indeps num eqs n ↔ g < n ∧ ∀ e ∈ eqs, num e.dep ≠ g := by
  simp [indeps, deps]

theorem Valid.length_indeps {st : NodeStore K} {eqs : List (Equation K)} {n : Nat} {num : Term K → Nat}
    (h : Valid st eqs n num) : (indeps num eqs n).length = n - eqs.length := by
  unfold indeps
  rw [count_unlisted n (deps num eqs) h.distinct]
  · simp [deps]
  · intro x hx
    obtain ⟨e, he, rfl⟩ := List.mem_map.mp hx
    exact (h.numbered e he e.dep (by simp)).2

theorem build_ok (st : NodeStore K) (c : Constraints K) (dof n : Nat) (num : Term K → Nat)
    (h : Valid st (c.equations dof) n num) :
    c.buildUnitConstraintMatrix st dof n =
      .ok ⟨n, n - (c.equations dof).length, cTriplets num (c.equations dof) n⟩ := by
  have hlen := h.length_indeps
  unfold buildUnitConstraintMatrix
  cases hf : OMap.find? c.eqs dof with
  | none =>
    have he : c.equations dof = [] := by simp [equations, hf]
    simp only [he, List.length_nil, Nat.sub_zero]
    congr 2
    have : indeps num ([] : List (Equation K)) n = List.range n := by simp [indeps, deps]
    simp only [cTriplets, this, List.flatMap_nil, List.append_nil, List.length_range]
    apply List.map_congr_left
    intro i hi
    simp [List.getD_eq_getElem?_getD, List.mem_range.mp hi]
  | some eqs =>
    have he : c.equations dof = eqs := by simp [equations, hf]
    rw [he] at h hlen ⊢
    have hjk := jk_ok st c dof n num (by
      intro e hm; rw [he] at hm; exact h.numbered e hm e.dep (by simp)) (by rw [he]; exact h.distinct)
    rw [he] at hjk
    simp only [hjk, Res.bind_ok', ← hlen]
    set ind := indeps num eqs n with hind
    have hnd : (ind ++ deps num eqs).Nodup := by
      rw [List.nodup_append]
      refine ⟨List.nodup_range.filter _, h.distinct, ?_⟩
      intro a ha b hb hab
      obtain ⟨e, hm, rfl⟩ := List.mem_map.mp hb
      exact (mem_indeps.mp ha).2 e hm hab.symm
    have hle : eqs.length ≤ n := by
      have := length_le_of_nodup_lt n (deps num eqs) h.distinct (by
        intro x hx
        obtain ⟨e, hm, rfl⟩ := List.mem_map.mp hx
        exact (h.numbered e hm e.dep (by simp)).2)
      simpa [deps] using this
    have htot : (ind ++ deps num eqs).length = n := by
      rw [List.length_append, hlen]; simp [deps]; omega
    have hbound : ∀ x ∈ ind ++ deps num eqs, x < (ind ++ deps num eqs).length := by
      intro x hx
      rw [htot]
      rcases List.mem_append.mp hx with hx | hx
      · exact (mem_indeps.mp hx).1
      · obtain ⟨e, hm, rfl⟩ := List.mem_map.mp hx
        exact (h.numbered e hm e.dep (by simp)).2
    rw [unitLoop st num ind (reverse (ind ++ deps num eqs)) eqs (by
      intro e hm
      refine ⟨(h.numbered e hm e.dep (by simp)).1, ?_⟩
      intro t ht
      have hnum := h.numbered e hm t (by simp [ht])
      have hmem : num t ∈ ind := mem_indeps.mpr ⟨hnum.2, fun f hf => (h.indep f hf e hm t ht).symm⟩
      refine ⟨hnum.1, ?_, hmem⟩
      rw [reverse_getElem? _ hnd hbound _ (by simp [hmem]), List.idxOf_append_of_mem hmem])]
    have htr : ((List.range ind.length).map fun i => (⟨(ind ++ deps num eqs).getD i 0, i, 1⟩ : Triplet K)) =
        (List.range ind.length).map fun i => (⟨ind.getD i 0, i, 1⟩ : Triplet K) := by
      apply List.map_congr_left
      intro i hi
      have := List.mem_range.mp hi
      simp [List.getD_eq_getElem?_getD, List.getElem?_append_left this]
    simp only [Res.bind_ok', htr, SpMat.setFromTriplets, Res.require]
    rw [if_pos]
    · rfl
    · intro t ht
      rcases List.mem_append.mp ht with ht | ht
      · obtain ⟨i, hi, rfl⟩ := List.mem_map.mp ht
        have hi' := List.mem_range.mp hi
        refine ⟨?_, hi'⟩
        simp only [List.getD_eq_getElem?_getD, List.getElem?_eq_getElem hi', Option.getD_some]
        exact (mem_indeps.mp (List.getElem_mem hi')).1
      · obtain ⟨e, hm, ht⟩ := List.mem_flatMap.mp ht
        obtain ⟨u, hu, rfl⟩ := List.mem_map.mp ht
        have hu' := (List.mem_filter.mp hu).1
        refine ⟨(h.numbered e hm e.dep (by simp)).2, ?_⟩
        simp only
        apply List.idxOf_lt_length_of_mem
        exact mem_indeps.mpr ⟨(h.numbered e hm u (by simp [hu'])).2, fun f hf => (h.indep f hf e hm u hu').symm⟩

theorem rhs_ok (toFloat : K → K) (st : NodeStore K) (c : Constraints K) (dof n : Nat) (num : Term K → Nat) (time : K)
    (h : Valid st (c.equations dof) n num) :
    ∃ b, c.getSparseGlobalRhs toFloat st dof n time = .ok b ∧ b.length = n ∧
      (∀ e ∈ c.equations dof, b.getD (num e.dep) 0 = toFloat (e.rhs time)) ∧
      ∀ g, (∀ e ∈ c.equations dof, num e.dep ≠ g) → b.getD g 0 = 0 := by
  unfold getSparseGlobalRhs
  have gen : ∀ (l : List (Equation K)), (∀ e ∈ l, e.dep.dofNumber st = .ok (num e.dep : Int) ∧ num e.dep < n) →
      (l.map fun e => num e.dep).Nodup → ∀ v : List K, v.length = n →
      ∃ b, Res.foldlM (fun (v : List K) (e : Equation K) => (e.dep.dofNumber st).bind fun d =>
          Res.require (0 ≤ d ∧ d < n) (.ok (v.set d.toNat (toFloat (e.rhs time))))) v l = .ok b ∧ b.length = n ∧
        (∀ e ∈ l, b.getD (num e.dep) 0 = toFloat (e.rhs time)) ∧
        ∀ g, (∀ e ∈ l, num e.dep ≠ g) → b.getD g 0 = v.getD g 0 := by
    intro l
    induction l with
    | nil => intro _ _ v hv; exact ⟨v, rfl, hv, by simp, by simp⟩
    | cons e l ih =>
      intro hl hnd v hv
      obtain ⟨h1, h2⟩ := hl e (by simp)
      rw [List.map_cons, List.nodup_cons] at hnd
      obtain ⟨b, g1, g2, g3, g4⟩ := ih (fun f hf => hl f (by simp [hf])) hnd.2
        (v.set (num e.dep) (toFloat (e.rhs time))) (by simpa using hv)
      refine ⟨b, ?_, g2, ?_, ?_⟩
      · rw [Res.foldlM_cons, h1]
        simp only [Res.bind_ok', Res.require]
        rw [if_pos (by omega)]
        simp only [Res.bind_ok', Int.toNat_natCast]
        exact g1
      · intro f hf
        simp only [List.mem_cons] at hf
        rcases hf with rfl | hf
        · rw [g4 (num f.dep) (by
            intro f' hf' heq
            exact hnd.1 (List.mem_map.mpr ⟨f', hf', heq⟩))]
          simp [List.getD_eq_getElem?_getD, hv, h2]
        · exact g3 f hf
      · intro g hg
        rw [g4 g (fun f hf => hg f (by simp [hf]))]
        have := hg e (by simp)
        simp [List.getD_eq_getElem?_getD, List.getElem?_set_ne this]
  obtain ⟨b, h1, h2, h3, h4⟩ := gen (c.equations dof) (fun e he => h.numbered e he e.dep (by simp)) h.distinct
    (List.replicate n 0) (by simp)
  refine ⟨b, h1, h2, h3, ?_⟩
  intro g hg
  rw [h4 g hg]
  simp only [List.getD_eq_getElem?_getD, List.getElem?_replicate]
  split <;> rfl

/-- one row of the constraint matrix times a vector: independent row -/
theorem row_indep (eqs : List (Equation K)) (n : Nat) (num : Term K → Nat)
    (q : List K) (g : Nat) (hg : g ∈ indeps num eqs n) :
    ((cTriplets num eqs n).map fun t => if t.row = g then t.val * q.getD t.col 0 else 0).sum =
      q.getD ((indeps num eqs n).idxOf g) 0 := by
  set ind := indeps num eqs n with hind
  unfold cTriplets
  rw [List.map_append, List.sum_append, DofSpMat.list_sum_zero (eqs.flatMap _), add_zero, List.map_map]
  · have hnd : ind.Nodup := List.nodup_range.filter _
    have hpos := List.idxOf_lt_length_of_mem hg
    have : ((List.range ind.length).map ((fun t : Triplet K => if t.row = g then t.val * q.getD t.col 0 else 0) ∘
        fun i => ⟨ind.getD i 0, i, 1⟩)) =
        (List.range ind.length).map fun i => if i = ind.idxOf g then q.getD (ind.idxOf g) 0 else 0 := by
      apply List.map_congr_left
      intro i hi
      have hi' := List.mem_range.mp hi
      simp only [Function.comp, List.getD_eq_getElem?_getD, List.getElem?_eq_getElem hi', Option.getD_some, one_mul]
      by_cases hii : i = ind.idxOf g
      · subst hii; simp
      · rw [if_neg hii, if_neg]
        intro he
        apply hii
        rw [← he, hnd.idxOf_getElem i hi']
    rw [this]
    have gen : ∀ (m k : Nat) (x : K), k < m → ((List.range m).map fun i => if i = k then x else 0).sum = x := by
      intro m
      induction m with
      | zero => intro k x hk; omega
      | succ m ih =>
        intro k x hk
        rw [List.range_succ, List.map_append, List.sum_append]
        by_cases hkm : k = m
        · subst hkm
          rw [DofSpMat.list_sum_zero]
          · simp
          · intro a ha
            have := List.mem_range.mp ha
            rw [if_neg (by omega)]
        · rw [ih k x (by omega)]
          simp [Ne.symm hkm]
    exact gen _ _ _ hpos
  · intro t ht
    obtain ⟨e, he, ht⟩ := List.mem_flatMap.mp ht
    obtain ⟨u, hu, rfl⟩ := List.mem_map.mp ht
    rw [if_neg]
    simp only
    exact (mem_indeps.mp hg).2 e he

/-- dependent row -/
theorem row_dep (st : NodeStore K) (eqs : List (Equation K)) (n : Nat) (num : Term K → Nat) (h : Valid st eqs n num)
    (q : List K) (e : Equation K) (he : e ∈ eqs) :
    ((cTriplets num eqs n).map fun t => if t.row = num e.dep then t.val * q.getD t.col 0 else 0).sum =
      ((e.ind.filter fun t => |t.coef| > 1 / 1000000000000000000).map fun t =>
        -t.coef * q.getD ((indeps num eqs n).idxOf (num t)) 0).sum := by
  unfold cTriplets
  rw [List.map_append, List.sum_append, DofSpMat.list_sum_zero (List.map _ _), zero_add]
  · have hdist := h.distinct
    generalize indeps num eqs n = ind
    clear h
    induction eqs with
    | nil => simp at he
    | cons f eqs ih =>
      rw [List.map_cons, List.nodup_cons] at hdist
      rw [List.flatMap_cons, List.map_append, List.sum_append]
      simp only [List.mem_cons] at he
      rcases he with rfl | he
      · rw [DofSpMat.list_sum_zero (eqs.flatMap _), add_zero]
        · simp only [termTriplets, List.map_map]
          congr 1
          apply List.map_congr_left
          intro t _
          simp
        · intro t ht
          obtain ⟨f', hf', ht⟩ := List.mem_flatMap.mp ht
          obtain ⟨u, hu, rfl⟩ := List.mem_map.mp ht
          rw [if_neg]
          simp only
          intro heq
          exact hdist.1 (List.mem_map.mpr ⟨f', hf', heq⟩)
      · rw [ih he hdist.2, DofSpMat.list_sum_zero (termTriplets _ _ _), zero_add]
        intro t ht
        obtain ⟨u, hu, rfl⟩ := List.mem_map.mp ht
        rw [if_neg]
        simp only
        intro heq
        exact hdist.1 (List.mem_map.mpr ⟨e, he, heq.symm⟩)
  · intro t ht
    obtain ⟨i, hi, rfl⟩ := List.mem_map.mp ht
    have hi' := List.mem_range.mp hi
    rw [if_neg]
    simp only [List.getD_eq_getElem?_getD, List.getElem?_eq_getElem hi', Option.getD_some]
    intro heq
    exact (mem_indeps.mp (List.getElem_mem hi')).2 e he heq.symm

end matrix
end Constraints
end NuTo
