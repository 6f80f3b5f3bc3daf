import Mathlib.Tactic.Linarith
import Mathlib.Tactic.FieldSimp
import Mathlib.Tactic.Ring
import Mathlib.Tactic.NormNum
import Mathlib.Tactic.Positivity
import Mathlib.Tactic.FinCases
import Mathlib.Data.List.Induction
import Verif.Model.Placement

/-!
C54: the place phase of the take-and-place algorithm.
-/

namespace NuTo.Placement

set_option linter.unusedSectionVars false

variable {K : Type} [Field K] [LinearOrder K] [FloorRing K] [IsStrictOrderedRing K]

/-! ### Size classes -/

theorem doubling_ne_nil (fuel : ℕ) (d e : K) : doubling (fuel + 1) d e ≠ [] := by
  rw [doubling]
  split_ifs <;> simp

/-- The loop of `GetSizeClasses` ends before the fuel does: the last size is not smaller than the end diameter. -/
theorem doubling_enough (fuel : ℕ) (d e : K) (h : e ≤ d * 2 ^ fuel) (hd : 0 < d) (hf : 0 < fuel) :
    ∃ x, (doubling fuel d e).getLast? = some x ∧ e ≤ x := by
  induction fuel generalizing d with
  | zero => omega
  | succ fuel ih =>
    rw [doubling]
    split_ifs with h1
    · have hf' : 0 < fuel := by
        rcases Nat.eq_zero_or_pos fuel with h0 | h0
        · rw [h0] at h
          norm_num at h
          linarith
        · exact h0
      obtain ⟨x, hx, hx'⟩ := ih (d * 2) (by rw [pow_succ] at h; linarith) (by linarith) hf'
      refine ⟨x, ?_, hx'⟩
      rw [List.getLast?_cons, hx]
      rfl
    · exact ⟨d * 2, rfl, not_lt.1 h1⟩

theorem fuel_enough (first last : K) (hlast : 0 < last) : first ≤ last * 2 ^ (⌈first / last⌉₊ + 1) := by
  have h1 : first / last ≤ (⌈first / last⌉₊ : K) := Nat.le_ceil _
  have h2 : ((⌈first / last⌉₊ : ℕ) : K) ≤ 2 ^ (⌈first / last⌉₊ + 1) := by
    have : ⌈first / last⌉₊ ≤ 2 ^ (⌈first / last⌉₊ + 1) :=
      (Nat.le_succ _).trans (Nat.lt_two_pow_self (n := ⌈first / last⌉₊ + 1)).le
    exact_mod_cast this
  have := h1.trans h2
  rw [div_le_iff₀ hlast] at this
  linarith

theorem sizeClasses_enough (first last : K) (hlast : 0 < last) :
    ∃ x, (doubling (⌈first / last⌉₊ + 1) (2 * last) (2 * first)).getLast? = some x ∧ 2 * first ≤ x := by
  refine doubling_enough _ _ _ ?_ (by linarith) (Nat.succ_pos _)
  linarith [fuel_enough first last hlast]

theorem doubling_tail (fuel : ℕ) (d e : K) (h : e ≤ d * 2 ^ fuel) (hd : 0 < d) :
    List.IsChain (fun x y => x = 2 * y) ((doubling fuel d e).reverse.tail ++ [d]) ∧
    ∀ x ∈ (doubling fuel d e).reverse.tail, x < e ∧ 2 * d ≤ x := by
  induction fuel generalizing d with
  | zero => simp [doubling]
  | succ fuel ih =>
    rw [doubling]
    split_ifs with h1
    · cases fuel with
      | zero =>
        norm_num at h
        linarith
      | succ fuel =>
        obtain ⟨i1, i2⟩ := ih (d * 2) (by rw [pow_succ] at h; linarith) (by linarith)
        have hne : (doubling (fuel + 1) (d * 2) e).reverse ≠ [] := by
          rw [Ne, List.reverse_eq_nil_iff]
          exact doubling_ne_nil _ _ _
        rw [List.reverse_cons, List.tail_append_of_ne_nil hne]
        constructor
        · rw [List.isChain_append]
          refine ⟨i1, List.isChain_singleton _, ?_⟩
          intro x hx y hy
          rw [List.getLast?_concat, Option.mem_some_iff] at hx
          rw [List.head?_cons, Option.mem_some_iff] at hy
          rw [← hx, ← hy]
          ring
        · intro x hx
          rcases List.mem_append.1 hx with hx | hx
          · obtain ⟨h2, h3⟩ := i2 x hx
            exact ⟨h2, by linarith⟩
          · rw [List.mem_singleton] at hx
            rw [hx]
            exact ⟨h1, by linarith⟩
    · simp

/-- Every chunk of the list is bounded by the size of its class. -/
def Fits : List K → List ℕ → List K → Prop
  | s :: ss, c :: cs, ds => (∀ d ∈ ds.take c, d ≤ s) ∧ Fits ss cs (ds.drop c)
  | _, _, _ => True

theorem fits_zero (ss : List K) (k : ℕ) (ds : List K) : Fits ss (List.replicate k 0) ds := by
  induction k generalizing ss ds with
  | zero => cases ss <;> trivial
  | succ k ih =>
    cases ss with
    | nil => trivial
    | cons s ss =>
      rw [List.replicate_succ]
      exact ⟨by simp, ih _ _⟩

theorem countLoop_le (d : K) (ds : List K) (t : K) (ts : List K) (count : ℕ) (h : t ≤ d) :
    countLoop (d :: ds) t ts count = countLoop ds t ts (count + 1) := by
  cases ts <;> simp only [countLoop, if_pos h]

theorem countLoop_gt_nil (d : K) (ds : List K) (t : K) (count : ℕ) (h : ¬ t ≤ d) :
    countLoop (d :: ds) t [] count = [count, ds.length + 1] := by
  simp only [countLoop, if_neg h]

theorem countLoop_gt_cons (d : K) (ds : List K) (t t' : K) (ts : List K) (count : ℕ) (h : ¬ t ≤ d) :
    countLoop (d :: ds) t (t' :: ts) count = count :: countLoop ds t' ts 1 := by
  simp only [countLoop, if_neg h]

theorem fits_countLoop (ds : List K) (t : K) (ts : List K) (s : K) (pre : List K) (hpre : ∀ d ∈ pre, d ≤ s)
    (hds : ∀ d ∈ ds, d ≤ s) (hsorted : ds.Pairwise (fun a b => b ≤ a)) :
    Fits (s :: t :: ts) (countLoop ds t ts pre.length) (pre ++ ds) := by
  induction ds generalizing t ts s pre with
  | nil => exact fits_zero _ _ _
  | cons d ds ih =>
    rw [List.pairwise_cons] at hsorted
    by_cases h1 : t ≤ d
    · rw [countLoop_le _ _ _ _ _ h1]
      have := ih t ts s (pre ++ [d]) (by
        intro x hx
        rcases List.mem_append.1 hx with hx | hx
        · exact hpre x hx
        · rw [List.mem_singleton] at hx
          rw [hx]
          exact hds d List.mem_cons_self) (fun x hx => hds x (List.mem_cons_of_mem _ hx)) hsorted.2
      rw [List.length_append, List.length_singleton, List.append_assoc, List.singleton_append] at this
      exact this
    · cases ts with
      | nil =>
        rw [countLoop_gt_nil _ _ _ _ h1]
        rw [not_le] at h1
        refine ⟨?_, ?_, trivial⟩
        · rw [List.take_left]
          exact hpre
        · rw [List.drop_left]
          intro x hx
          rcases List.mem_cons.1 (List.mem_of_mem_take hx) with rfl | hx
          · exact h1.le
          · exact (hsorted.1 x hx).trans h1.le
      | cons t' ts' =>
        rw [countLoop_gt_cons _ _ _ _ _ _ h1]
        rw [not_le] at h1
        refine ⟨?_, ?_⟩
        · rw [List.take_left]
          exact hpre
        · rw [List.drop_left]
          exact ih t' ts' t [d] (by
            intro x hx
            rw [List.mem_singleton] at hx
            rw [hx]
            exact h1.le) (fun x hx => (hsorted.1 x hx).trans h1.le) hsorted.2

theorem length_countLoop (ds : List K) (t : K) (ts : List K) (count : ℕ) :
    (countLoop ds t ts count).length = ts.length + 2 := by
  induction ds generalizing t ts count with
  | nil => simp [countLoop]
  | cons d ds ih =>
    by_cases h1 : t ≤ d
    · rw [countLoop_le _ _ _ _ _ h1, ih]
    · cases ts with
      | nil => rw [countLoop_gt_nil _ _ _ _ h1]; rfl
      | cons t' ts' =>
        rw [countLoop_gt_cons _ _ _ _ _ _ h1, List.length_cons, ih, List.length_cons]

theorem sum_countLoop_le (ds : List K) (t : K) (ts : List K) (count : ℕ) :
    (countLoop ds t ts count).sum ≤ count + ds.length := by
  induction ds generalizing t ts count with
  | nil => simp [countLoop]
  | cons d ds ih =>
    by_cases h1 : t ≤ d
    · rw [countLoop_le _ _ _ _ _ h1]
      have := ih t ts (count + 1)
      rw [List.length_cons]
      omega
    · cases ts with
      | nil =>
        rw [countLoop_gt_nil _ _ _ _ h1]
        simp
      | cons t' ts' =>
        rw [countLoop_gt_cons _ _ _ _ _ _ h1]
        rw [List.sum_cons, List.length_cons]
        have := ih t' ts' 1
        omega

theorem sum_countLoop (ds : List K) (t : K) (ts : List K) (count : ℕ) (prev last : K) (hprev : t ≤ prev)
    (hhalf : List.IsChain (fun x y => x = 2 * y) (t :: ts)) (hlast : ∀ x ∈ t :: ts, last < x)
    (hchain : List.IsChain (fun x y => x ≤ 2 * y) (prev :: ds)) (hend : (prev :: ds).getLast (by simp) = last) :
    (countLoop ds t ts count).sum = count + ds.length := by
  induction ds generalizing t ts count prev with
  | nil =>
    rw [List.getLast_singleton] at hend
    have := hlast t List.mem_cons_self
    rw [hend] at hprev
    exact absurd this (not_lt.2 hprev)
  | cons d ds ih =>
    rw [List.isChain_cons_cons] at hchain
    rw [List.getLast_cons (by simp)] at hend
    by_cases h1 : t ≤ d
    · rw [countLoop_le _ _ _ _ _ h1, ih t ts (count + 1) d h1 hhalf hlast hchain.2 hend, List.length_cons]
      omega
    · cases ts with
      | nil =>
        rw [countLoop_gt_nil _ _ _ _ h1]
        simp
      | cons t' ts' =>
        rw [countLoop_gt_cons _ _ _ _ _ _ h1]
        rw [List.isChain_cons_cons] at hhalf
        rw [List.sum_cons, ih t' ts' 1 d (by linarith [hhalf.1, hchain.1]) hhalf.2
          (fun x hx => hlast x (List.mem_cons_of_mem _ hx)) hchain.2 hend, List.length_cons]
        omega

/-! ### Sub boxes -/

omit [IsStrictOrderedRing K] in
theorem toInt_nonneg {x : K} (h : 0 ≤ x) : toInt x = ⌊x⌋ := if_pos h

theorem mem_intRange {lo hi c : ℤ} : c ∈ intRange lo hi ↔ lo ≤ c ∧ c ≤ hi := by
  have e : intRange lo hi = (List.range (hi + 1 - lo).toNat).map fun k : ℕ => lo + (k : ℤ) := rfl
  rw [e, List.mem_map]
  constructor
  · rintro ⟨k, hk, rfl⟩
    rw [List.mem_range] at hk
    omega
  · rintro ⟨h1, h2⟩
    exact ⟨(c - lo).toNat, by rw [List.mem_range]; omega, by omega⟩

omit [IsStrictOrderedRing K] in
theorem mem_insertParticle (P : Params K) (size : K) (p : Particle K) (c : Fin 3 → ℤ)
    (h : ∀ i, cMin P size p i ≤ c i ∧ c i ≤ cMax P size p i) :
    (boxIndex (nSubBox P size) c, p) ∈ insertParticle P size p := by
  unfold insertParticle
  rw [List.mem_flatMap]
  refine ⟨c 0, mem_intRange.2 (h 0), ?_⟩
  rw [List.mem_flatMap]
  refine ⟨c 1, mem_intRange.2 (h 1), ?_⟩
  rw [List.mem_map]
  refine ⟨c 2, mem_intRange.2 (h 2), ?_⟩
  simp [boxIndex]

/-- A box number with coordinates in range is in the vector. -/
theorem boxIndex_range (n c : Fin 3 → ℤ) (h : ∀ i, 0 ≤ c i ∧ c i < n i) :
    0 ≤ boxIndex n c ∧ boxIndex n c < n 0 * n 1 * n 2 := by
  obtain ⟨a0, b0⟩ := h 0
  obtain ⟨a1, b1⟩ := h 1
  obtain ⟨a2, b2⟩ := h 2
  have p1 : 0 < n 1 := by omega
  have p2 : 0 < n 2 := by omega
  unfold boxIndex
  constructor
  · positivity
  · have h1 : c 1 * n 2 + c 2 < n 1 * n 2 := by nlinarith
    have h2 : (c 0 + 1) * (n 1 * n 2) ≤ n 0 * (n 1 * n 2) :=
      mul_le_mul_of_nonneg_right (by omega) (by positivity)
    nlinarith

/-- A particle is only put into boxes that exist. -/
theorem C54_insert_in_bounds (P : Params K) (size : K) (p : Particle K) :
    ∀ x ∈ insertParticle P size p, 0 ≤ x.1 ∧ x.1 < nSubBox P size 0 * nSubBox P size 1 * nSubBox P size 2 := by
  intro x hx
  unfold insertParticle at hx
  rw [List.mem_flatMap] at hx
  obtain ⟨i0, h0, hx⟩ := hx
  rw [List.mem_flatMap] at hx
  obtain ⟨i1, h1, hx⟩ := hx
  rw [List.mem_map] at hx
  obtain ⟨i2, h2, rfl⟩ := hx
  rw [mem_intRange] at h0 h1 h2
  apply boxIndex_range
  intro i
  unfold cMin cMax at h0 h1 h2
  fin_cases i
  · exact ⟨(le_max_right _ _).trans h0.1, lt_of_le_of_lt (h0.2.trans (min_le_right _ _)) (sub_one_lt _)⟩
  · exact ⟨(le_max_right _ _).trans h1.1, lt_of_le_of_lt (h1.2.trans (min_le_right _ _)) (sub_one_lt _)⟩
  · exact ⟨(le_max_right _ _).trans h2.1, lt_of_le_of_lt (h2.2.trans (min_le_right _ _)) (sub_one_lt _)⟩

/-! ### Specification -/

/-- The sphere lies in the bounding box. -/
def InBox (S : Specimen K) (p : Particle K) : Prop :=
  ∀ i, S.lower i + p.radius ≤ p.pos i ∧ p.pos i + p.radius ≤ S.lower i + S.length i

/-- The sphere lies in the cylinder around the middle of the bounding box, with the requested distance to its surface. -/
def InCylinder (P : Params K) (p : Particle K) : Prop :=
  0 ≤ P.specimen.length 0 / 2 - (p.radius * (1 + P.relativeDistance) + P.absoluteDistance) ∧
  (p.pos 0 - (P.specimen.lower 0 + P.specimen.length 0 / 2)) ^ 2 +
    (p.pos 1 - (P.specimen.lower 1 + P.specimen.length 0 / 2)) ^ 2 ≤
    (P.specimen.length 0 / 2 - (p.radius * (1 + P.relativeDistance) + P.absoluteDistance)) ^ 2

/-- The surfaces of `q` and the earlier placed `p` are at least `q.radius * rel + abs` apart. -/
def Separated (P : Params K) (p q : Particle K) : Prop :=
  (p.radius + q.radius + (q.radius * P.relativeDistance + P.absoluteDistance)) ^ 2 ≤
    (p.pos 0 - q.pos 0) ^ 2 + (p.pos 1 - q.pos 1) ^ 2 + (p.pos 2 - q.pos 2) ^ 2

/-- Assumptions about the parameters. -/
structure Params.Valid (P : Params K) : Prop where
  length : ∀ i, 0 < P.specimen.length i
  shrinkage : 0 ≤ P.shrinkage
  shrinkage' : P.shrinkage < 1
  relative : 0 ≤ P.relativeDistance
  absolute : 0 ≤ P.absoluteDistance

theorem nSubBox_nonneg {P : Params K} (hP : P.Valid) {size : K} (hsize : 0 < size) (i : Fin 3) : 0 ≤ nSubBox P size i := by
  unfold nSubBox
  have h1 := hP.length i
  have h2 : 0 < 1 - P.shrinkage := by linarith [hP.shrinkage']
  positivity

theorem lSubBox_ge {P : Params K} (hP : P.Valid) {size : K} (hsize : 0 < size) (i : Fin 3) (hn : 1 ≤ nSubBox P size i) :
    size / (1 - P.shrinkage) ≤ lSubBox P size i ∧ lSubBox P size i * (nSubBox P size i : K) = P.specimen.length i ∧
      size / (1 - P.shrinkage) ≤ P.specimen.length i := by
  have h1 := hP.length i
  have h2 : 0 < 1 - P.shrinkage := by linarith [hP.shrinkage']
  have hS : 0 < size / (1 - P.shrinkage) := by positivity
  have hn' : (1 : K) ≤ (nSubBox P size i : K) := by exact_mod_cast hn
  have hle : (nSubBox P size i : K) ≤ P.specimen.length i / (size / (1 - P.shrinkage)) := Int.floor_le _
  rw [le_div_iff₀ hS] at hle
  refine ⟨?_, ?_, ?_⟩
  · unfold lSubBox
    rw [le_div_iff₀ (by linarith)]
    linarith
  · unfold lSubBox
    field_simp
  · nlinarith

theorem sq_ge_of_coordinate {a b c r : K} (hr : 0 ≤ r) (h : r ≤ a ∨ r ≤ -a) : r ^ 2 ≤ a ^ 2 + b ^ 2 + c ^ 2 := by
  have h1 : r ^ 2 ≤ a ^ 2 := by
    rcases h with h | h <;> nlinarith
  nlinarith [sq_nonneg b, sq_nonneg c]

/-- A particle that is in no box with the candidate is further away than its radius and the length of a box. -/
theorem far_of_not_mem {P : Params K} (hP : P.Valid) {size : K} (hsize : 0 < size)
    (hn : ∀ i, 1 ≤ nSubBox P size i) (q p : Particle K) (hq : InBox P.specimen q) (hq0 : 0 ≤ q.radius)
    (hp : ∀ i, P.specimen.lower i ≤ p.pos i ∧ p.pos i < P.specimen.lower i + P.specimen.length i)
    (h : ¬ ∀ i, cMin P size q i ≤ cSubBox P size p i ∧ cSubBox P size p i ≤ cMax P size q i) :
    ∃ i, q.radius + lSubBox P size i ≤ q.pos i - p.pos i ∨ q.radius + lSubBox P size i ≤ -(q.pos i - p.pos i) := by
  have h2 : 0 < 1 - P.shrinkage := by linarith [hP.shrinkage']
  have hl : ∀ i, 0 < lSubBox P size i := fun i =>
    lt_of_lt_of_le (div_pos hsize h2) (lSubBox_ge hP hsize i (hn i)).1
  push Not at h
  obtain ⟨i, hi⟩ := h
  refine ⟨i, ?_⟩
  have hx : 0 ≤ (p.pos i - P.specimen.lower i) / lSubBox P size i := div_nonneg (by linarith [(hp i).1]) (hl i).le
  have hc0 : 0 ≤ cSubBox P size p i := by
    unfold cSubBox
    rw [toInt_nonneg hx]
    exact Int.floor_nonneg.2 hx
  have hcn : cSubBox P size p i ≤ nSubBox P size i - 1 := by
    unfold cSubBox
    rw [toInt_nonneg hx]
    have : (p.pos i - P.specimen.lower i) / lSubBox P size i < (nSubBox P size i : K) := by
      rw [div_lt_iff₀ (hl i)]
      have := (lSubBox_ge hP hsize i (hn i)).2.1
      linarith [(hp i).2]
    have := Int.floor_lt.2 this
    omega
  have hfl : ((cSubBox P size p i : ℤ) : K) ≤ (p.pos i - P.specimen.lower i) / lSubBox P size i := by
    unfold cSubBox
    rw [toInt_nonneg hx]
    exact Int.floor_le _
  have hfu : (p.pos i - P.specimen.lower i) / lSubBox P size i < ((cSubBox P size p i : ℤ) : K) + 1 := by
    unfold cSubBox
    rw [toInt_nonneg hx]
    exact Int.lt_floor_add_one _
  rw [le_div_iff₀ (hl i)] at hfl
  rw [div_lt_iff₀ (hl i)] at hfu
  by_cases hlow : cMin P size q i ≤ cSubBox P size p i
  · have hhigh := hi hlow
    unfold cMax at hhigh
    have hy : 0 ≤ (q.pos i + q.radius - P.specimen.lower i) / lSubBox P size i :=
      div_nonneg (by linarith [(hq i).1]) (hl i).le
    rw [toInt_nonneg hy] at hhigh
    have h3 : ⌊(q.pos i + q.radius - P.specimen.lower i) / lSubBox P size i⌋ + 1 < cSubBox P size p i := by
      rcases min_lt_iff.1 hhigh with h4 | h4
      · exact h4
      · omega
    have h4 : (q.pos i + q.radius - P.specimen.lower i) / lSubBox P size i <
        (⌊(q.pos i + q.radius - P.specimen.lower i) / lSubBox P size i⌋ : K) + 1 := Int.lt_floor_add_one _
    have h5 : (⌊(q.pos i + q.radius - P.specimen.lower i) / lSubBox P size i⌋ : K) + 2 ≤ (cSubBox P size p i : K) := by
      have : ⌊(q.pos i + q.radius - P.specimen.lower i) / lSubBox P size i⌋ + 2 ≤ cSubBox P size p i := by omega
      exact_mod_cast this
    rw [div_lt_iff₀ (hl i)] at h4
    right
    nlinarith [hl i]
  · rw [not_le] at hlow
    unfold cMin at hlow
    have hy : 0 ≤ (q.pos i - q.radius - P.specimen.lower i) / lSubBox P size i :=
      div_nonneg (by linarith [(hq i).1]) (hl i).le
    rw [toInt_nonneg hy] at hlow
    have h3 : cSubBox P size p i < ⌊(q.pos i - q.radius - P.specimen.lower i) / lSubBox P size i⌋ - 1 := by
      rcases lt_max_iff.1 hlow with h4 | h4
      · exact h4
      · omega
    have h4 : (⌊(q.pos i - q.radius - P.specimen.lower i) / lSubBox P size i⌋ : K) ≤
        (q.pos i - q.radius - P.specimen.lower i) / lSubBox P size i := Int.floor_le _
    have h5 : (cSubBox P size p i : K) + 2 ≤ (⌊(q.pos i - q.radius - P.specimen.lower i) / lSubBox P size i⌋ : K) := by
      have : cSubBox P size p i + 2 ≤ ⌊(q.pos i - q.radius - P.specimen.lower i) / lSubBox P size i⌋ := by omega
      exact_mod_cast this
    rw [le_div_iff₀ (hl i)] at h4
    left
    nlinarith [hl i]

/-! ### Placing -/

/-- All random numbers are in `[0, 1]`. -/
def Unit (rand : List (V K)) : Prop := ∀ u ∈ rand, ∀ i, 0 ≤ u i ∧ u i ≤ 1

/-- What holds for the placed particles. -/
structure Good (P : Params K) (placed : List (Particle K)) : Prop where
  inBox : ∀ p ∈ placed, InBox P.specimen p
  inCylinder : P.specimen.isCylinder = true → ∀ p ∈ placed, InCylinder P p
  positive : ∀ p ∈ placed, 0 < p.radius
  separated : placed.Pairwise (Separated P)

theorem placeOne_done {P : Params K} (hP : P.Valid) {size radius : K} (hr : 0 < radius) (hsize : 2 * radius ≤ size)
    (hdist : radius * (1 + P.relativeDistance) + P.absoluteDistance ≤ size / (1 - P.shrinkage))
    (boxes : List (ℤ × Particle K)) (placed : List (Particle K)) (hgood : Good P placed)
    (hboxes : ∀ q ∈ placed, ∀ x ∈ insertParticle P size q, x ∈ boxes)
    (tries : ℕ) (rand : List (V K)) (hrand : Unit rand) (p : Particle K) (rest : List (V K))
    (h : placeOne P size boxes radius tries rand = .done p rest) :
    p.radius = radius ∧ Good P (placed ++ [p]) ∧ Unit rest := by
  have hsize0 : 0 < size := by linarith
  induction rand generalizing tries with
  | nil => cases h
  | cons u us ih =>
    have hus : Unit us := fun v hv => hrand v (List.mem_cons_of_mem _ hv)
    rw [placeOne] at h
    dsimp only at h
    cases hcol : collides P (candidate P radius u) with
    | throw => rw [hcol] at h; cases h
    | ub => rw [hcol] at h; cases h
    | ok b =>
      rw [hcol] at h
      cases b with
      | true => exact ih tries hus h
      | false =>
        dsimp only at h
        split_ifs at h with h1 h2 h3
        · exact ih (tries + 1) hus h
        · rw [not_or, not_lt, not_le] at h1
          injection h with hp hrest
          have hn0 := nSubBox_nonneg hP hsize0
          have hn : ∀ i, 1 ≤ nSubBox P size i := by
            have hprod : 0 < nSubBox P size 0 * nSubBox P size 1 * nSubBox P size 2 := lt_of_le_of_lt h1.1 h1.2
            have hne : ∀ i, nSubBox P size i ≠ 0 := by
              intro i hi
              fin_cases i
              all_goals
                simp only [Fin.zero_eta, Fin.mk_one, Fin.reduceFinMk] at hi
                rw [hi] at hprod
                simp at hprod
            intro i
            have := hn0 i
            have := hne i
            omega
          have hL : ∀ i, 2 * radius ≤ P.specimen.length i := by
            intro i
            have h5 := (lSubBox_ge hP hsize0 i (hn i)).2.2
            have h6 : size ≤ size / (1 - P.shrinkage) := by
              rw [le_div_iff₀ (by linarith [hP.shrinkage'])]
              nlinarith [hP.shrinkage]
            linarith
          have hrad : p.radius = radius := by rw [← hp]; rfl
          have hpos : ∀ i, p.pos i = radius + P.specimen.lower i + (P.specimen.length i - 2 * radius) * u i := by
            intro i
            rw [← hp]
            rfl
          have hu := hrand u List.mem_cons_self
          have hin : InBox P.specimen p := by
            intro i
            rw [hrad, hpos]
            have h7 := mul_nonneg (sub_nonneg.2 (hL i)) (hu i).1
            have h8 : (P.specimen.length i - 2 * radius) * u i ≤ (P.specimen.length i - 2 * radius) * 1 :=
              mul_le_mul_of_nonneg_left (hu i).2 (sub_nonneg.2 (hL i))
            constructor <;> linarith
          have hsep : ∀ q ∈ placed, Separated P q p := by
            intro q hq
            by_cases hmem : ∀ i, cMin P size q i ≤ cSubBox P size p i ∧ cSubBox P size p i ≤ cMax P size q i
            · have hx := hboxes q hq _ (mem_insertParticle P size q _ hmem)
              rw [Bool.not_eq_true, List.any_eq_false] at h2
              have h9 := h2 _ hx
              rw [hp] at h9
              simp only [decide_true, Bool.true_and, overlaps, decide_eq_true_eq, not_lt] at h9
              unfold Separated
              unfold dist2 at h9
              nlinarith
            · have hfar := far_of_not_mem hP hsize0 hn q p (hgood.inBox q hq) (hgood.positive q hq).le
                (fun i => ⟨by linarith [(hin i).1, hrad], by linarith [(hin i).2, hrad]⟩) hmem
              obtain ⟨i, hi⟩ := hfar
              have hl := (lSubBox_ge hP hsize0 i (hn i)).1
              unfold Separated
              have hq0 := hgood.positive q hq
              have hR : q.radius + p.radius + (p.radius * P.relativeDistance + P.absoluteDistance) ≤
                  q.radius + lSubBox P size i := by
                rw [hrad]
                linarith
              have hR0 : 0 ≤ q.radius + p.radius + (p.radius * P.relativeDistance + P.absoluteDistance) := by
                rw [hrad]
                have := mul_nonneg hr.le hP.relative
                linarith [hP.absolute]
              have hi' : q.radius + p.radius + (p.radius * P.relativeDistance + P.absoluteDistance) ≤ q.pos i - p.pos i ∨
                  q.radius + p.radius + (p.radius * P.relativeDistance + P.absoluteDistance) ≤ -(q.pos i - p.pos i) :=
                hi.imp hR.trans hR.trans
              fin_cases i
              · exact sq_ge_of_coordinate hR0 hi'
              · have := sq_ge_of_coordinate (b := q.pos 0 - p.pos 0) (c := q.pos 2 - p.pos 2) hR0 hi'
                simp only [Fin.mk_one] at this
                linarith
              · have := sq_ge_of_coordinate (b := q.pos 0 - p.pos 0) (c := q.pos 1 - p.pos 1) hR0 hi'
                simp only [Fin.reduceFinMk] at this
                linarith
          have hcyl : P.specimen.isCylinder = true → InCylinder P p := by
            intro hc
            rw [hp] at hcol
            unfold collides at hcol
            rw [if_pos hc] at hcol
            dsimp only at hcol
            split_ifs at hcol with h10
            injection hcol with h11
            rw [decide_eq_false_iff_not, not_lt] at h11
            rw [not_lt] at h10
            unfold InCylinder
            constructor
            · linarith
            · nlinarith
          refine ⟨hrad, ⟨?_, ?_, ?_, ?_⟩, by rw [← hrest]; exact hus⟩
          · intro q hq
            rcases List.mem_append.1 hq with hq | hq
            · exact hgood.inBox q hq
            · rw [List.mem_singleton] at hq
              rw [hq]
              exact hin
          · intro hc q hq
            rcases List.mem_append.1 hq with hq | hq
            · exact hgood.inCylinder hc q hq
            · rw [List.mem_singleton] at hq
              rw [hq]
              exact hcyl hc
          · intro q hq
            rcases List.mem_append.1 hq with hq | hq
            · exact hgood.positive q hq
            · rw [List.mem_singleton] at hq
              rw [hq, hrad]
              exact hr
          · rw [List.pairwise_append]
            refine ⟨hgood.separated, List.pairwise_singleton _ _, ?_⟩
            intro q hq x hx
            rw [List.mem_singleton] at hx
            rw [hx]
            exact hsep q hq

omit [FloorRing K] [IsStrictOrderedRing K] [LinearOrder K] [Field K] in
theorem Outcome.bind_done {α β : Type} {x : Outcome K α} {f : α → List (V K) → Outcome K β} {b : β} {rest : List (V K)}
    (h : x.bind f = .done b rest) : ∃ a rest', x = .done a rest' ∧ f a rest' = .done b rest := by
  cases x with
  | done a rest' => exact ⟨a, rest', rfl, h⟩
  | throw => cases h
  | ub => cases h
  | more => cases h

theorem placeRadii_done {P : Params K} (hP : P.Valid) {size : K} (radii : List K)
    (hr : ∀ r ∈ radii, 0 < r ∧ 2 * r ≤ size ∧
      r * (1 + P.relativeDistance) + P.absoluteDistance ≤ size / (1 - P.shrinkage))
    (boxes : List (ℤ × Particle K)) (placed : List (Particle K)) (hgood : Good P placed)
    (hboxes : ∀ q ∈ placed, ∀ x ∈ insertParticle P size q, x ∈ boxes)
    (rand : List (V K)) (hrand : Unit rand) (placed' : List (Particle K)) (rest : List (V K))
    (h : placeRadii P size radii boxes placed rand = .done placed' rest) :
    placed'.map Particle.radius = placed.map Particle.radius ++ radii ∧ Good P placed' ∧ Unit rest := by
  induction radii generalizing boxes placed rand with
  | nil =>
    rw [placeRadii] at h
    injection h with h1 h2
    rw [← h1, ← h2]
    exact ⟨by simp, hgood, hrand⟩
  | cons r rs ih =>
    rw [placeRadii] at h
    obtain ⟨p, rest', h1, h2⟩ := Outcome.bind_done h
    obtain ⟨r1, r2, r3⟩ := hr r List.mem_cons_self
    obtain ⟨e1, e2, e3⟩ := placeOne_done hP r1 r2 r3 boxes placed hgood hboxes 0 rand hrand p rest' h1
    obtain ⟨i1, i2, i3⟩ := ih (fun x hx => hr x (List.mem_cons_of_mem _ hx)) _ _ e2 (by
      intro q hq x hx
      rcases List.mem_append.1 hq with hq | hq
      · exact List.mem_append_left _ (hboxes q hq x hx)
      · rw [List.mem_singleton] at hq
        rw [hq] at hx
        exact List.mem_append_right _ hx) rest' e3 h2
    refine ⟨?_, i2, i3⟩
    rw [i1, List.map_append, List.map_singleton, e1, List.append_assoc, List.singleton_append]

theorem placeClasses_done {P : Params K} (hP : P.Valid) (sizes : List K) (counts : List ℕ) (radii : List K)
    (hfits : Fits sizes counts (radii.map (2 * ·)))
    (hr : ∀ r ∈ radii, 0 < r ∧ r * (1 + P.relativeDistance) + P.absoluteDistance ≤ 2 * r / (1 - P.shrinkage))
    (placed : List (Particle K)) (hgood : Good P placed)
    (rand : List (V K)) (hrand : Unit rand) (placed' : List (Particle K)) (rest : List (V K))
    (h : placeClasses P (sizes.zip counts) radii placed rand = .done placed' rest) :
    placed'.map Particle.radius = placed.map Particle.radius ++ radii.take (sizes.zip counts |>.map Prod.snd).sum ∧
      (sizes.zip counts |>.map Prod.snd).sum ≤ radii.length ∧ Good P placed' := by
  induction sizes generalizing counts radii placed rand with
  | nil =>
    rw [List.zip_nil_left, placeClasses] at h
    injection h with h1 h2
    rw [← h1]
    exact ⟨by simp, by simp, hgood⟩
  | cons s ss ih =>
    cases counts with
    | nil =>
      rw [List.zip_nil_right, placeClasses] at h
      injection h with h1 h2
      rw [← h1]
      exact ⟨by simp, by simp, hgood⟩
    | cons c cs =>
      rw [List.zip_cons_cons, placeClasses] at h
      split_ifs at h with hlen
      rw [not_lt] at hlen
      obtain ⟨p', rest', h1, h2⟩ := Outcome.bind_done h
      obtain ⟨f1, f2⟩ := hfits
      have hpos : 0 < 1 - P.shrinkage := by linarith [hP.shrinkage']
      obtain ⟨r1, r2, r3⟩ := placeRadii_done hP (radii.take c) (by
        intro r hrt
        obtain ⟨a1, a2⟩ := hr r (List.mem_of_mem_take hrt)
        have a3 : 2 * r ≤ s := f1 _ (by rw [← List.map_take]; exact List.mem_map_of_mem hrt)
        exact ⟨a1, a3, a2.trans (div_le_div_of_nonneg_right a3 hpos.le)⟩) _ placed hgood
        (fun q hq x hx => List.mem_flatMap.2 ⟨q, hq, hx⟩) rand hrand p' rest' h1
      obtain ⟨i1, i2, i3⟩ := ih cs (radii.drop c) (by rw [List.map_drop]; exact f2)
        (fun r hrd => hr r (List.mem_of_mem_drop hrd)) p' r2 rest' r3 h2
      rw [List.zip_cons_cons, List.map_cons, List.sum_cons]
      rw [List.length_drop] at i2
      refine ⟨?_, by omega, i3⟩
      rw [i1, r1, List.append_assoc, List.take_add]

theorem numPerClass_fits (radii : List K) (hsorted : radii.Pairwise (fun a b => b ≤ a)) (sizes : List K)
    (h : sizeClasses radii = .ok sizes) : Fits sizes (numPerClass radii sizes) (radii.map (2 * ·)) := by
  cases radii with
  | nil => cases h
  | cons r rs =>
    rw [sizeClasses] at h
    dsimp only at h
    split_ifs at h with h1
    have hs := Res.ok.inj h
    have hle : ∀ d ∈ (r :: rs).map (2 * ·), d ≤ 2 * r := by
      intro d hd
      rw [List.mem_map] at hd
      obtain ⟨x, hx, rfl⟩ := hd
      rcases List.mem_cons.1 hx with rfl | hx
      · exact le_rfl
      · have := (List.pairwise_cons.1 hsorted).1 x hx
        linarith
    have hsd : ((r :: rs).map (2 * ·)).Pairwise (fun a b => b ≤ a) := by
      rw [List.pairwise_map]
      exact hsorted.imp fun {a b} hab => by linarith
    generalize (doubling (⌈r / (r :: rs).getLast (List.cons_ne_nil _ _)⌉₊ + 1)
      (2 * (r :: rs).getLast (List.cons_ne_nil _ _)) (2 * r)).reverse.tail = ts at hs
    rw [← hs]
    cases ts with
    | nil =>
      refine ⟨?_, trivial⟩
      intro d hd
      exact hle d (List.mem_of_mem_take hd)
    | cons t ts =>
      exact fits_countLoop _ t ts (2 * r) [] (by simp) hle hsd

theorem numPerClass_sum (radii : List K) (hr : ∀ r ∈ radii, 0 < r)
    (hgap : radii.IsChain fun a b => a ≤ 2 * b) (sizes : List K) (h : sizeClasses radii = .ok sizes) :
    ((sizes.zip (numPerClass radii sizes)).map Prod.snd).sum = radii.length := by
  cases radii with
  | nil => cases h
  | cons r rs =>
    rw [sizeClasses] at h
    dsimp only at h
    split_ifs at h with h1
    have hs := Res.ok.inj h
    have hlast : 0 < (r :: rs).getLast (List.cons_ne_nil _ _) := hr _ (List.getLast_mem _)
    have hfuel : 2 * r ≤ 2 * (r :: rs).getLast (List.cons_ne_nil _ _) *
        2 ^ (⌈r / (r :: rs).getLast (List.cons_ne_nil _ _)⌉₊ + 1) := by
      have := fuel_enough r _ hlast
      linarith
    obtain ⟨t1, t2⟩ := doubling_tail _ _ _ hfuel (by linarith : 0 < 2 * (r :: rs).getLast (List.cons_ne_nil _ _))
    generalize (doubling (⌈r / (r :: rs).getLast (List.cons_ne_nil _ _)⌉₊ + 1)
      (2 * (r :: rs).getLast (List.cons_ne_nil _ _)) (2 * r)).reverse.tail = ts at hs t1 t2
    rw [← hs]
    cases ts with
    | nil => simp [numPerClass]
    | cons t ts =>
      have e1 : countLoop ((r :: rs).map (2 * ·)) t ts 0 = countLoop (rs.map (2 * ·)) t ts 1 := by
        rw [List.map_cons, countLoop_le _ _ _ _ _ (t2 t List.mem_cons_self).1.le]
      have e2 : (countLoop (rs.map (2 * ·)) t ts 1).sum = 1 + (rs.map (2 * ·)).length := by
        refine sum_countLoop _ t ts 1 (2 * r) (2 * (r :: rs).getLast (List.cons_ne_nil _ _))
          (t2 t List.mem_cons_self).1.le ?_ ?_ ?_ ?_
        · exact (List.isChain_append.1 t1).1
        · intro x hx
          have := (t2 x hx).2
          linarith
        · have : List.IsChain (fun x y => x ≤ 2 * y) ((r :: rs).map (2 * ·)) := by
            rw [List.isChain_map]
            exact hgap.imp fun a b hab => by linarith
          exact this
        · have : ((r :: rs).map (2 * ·)).getLast (by simp) = 2 * (r :: rs).getLast (List.cons_ne_nil _ _) :=
            List.getLast_map _
          exact this
      rw [List.map_snd_zip]
      · rw [numPerClass, e1, e2, List.length_map, List.length_cons]
        omega
      · rw [numPerClass, length_countLoop]
        simp

/-- Whatever random numbers are drawn: if the placement ends, all placed spheres lie in the box (in the cylinder, with the
requested distance to its wall), any two keep the requested distance, and the placed spheres have the first radii.
(Missing: distances larger than a sub box and particles that are not placed, see the counterexamples.) -/
theorem C54_placed_partial (P : Params K) (hP : P.Valid) (radii : List K) (hsorted : radii.Pairwise (fun a b => b ≤ a))
    (hr : ∀ r ∈ radii, 0 < r)
    (hdist : ∀ r ∈ radii, r * (1 + P.relativeDistance) + P.absoluteDistance ≤ 2 * r / (1 - P.shrinkage))
    (rand : List (V K)) (hrand : Unit rand) (placed : List (Particle K)) (rest : List (V K))
    (h : placePhase P radii rand = .done placed rest) :
    (∀ p ∈ placed, InBox P.specimen p) ∧ (P.specimen.isCylinder = true → ∀ p ∈ placed, InCylinder P p) ∧
      placed.Pairwise (Separated P) ∧ ∃ k ≤ radii.length, placed.map Particle.radius = radii.take k := by
  unfold placePhase at h
  cases hs : sizeClasses radii with
  | throw => rw [hs] at h; cases h
  | ub => rw [hs] at h; cases h
  | ok sizes =>
    rw [hs] at h
    dsimp only at h
    obtain ⟨h1, h2, h3⟩ := placeClasses_done hP sizes _ radii (numPerClass_fits radii hsorted sizes hs)
      (fun r hrr => ⟨hr r hrr, hdist r hrr⟩) [] ⟨by simp, by simp, by simp, List.Pairwise.nil⟩ rand hrand placed rest h
    exact ⟨h3.inBox, h3.inCylinder, h3.separated, _, h2, h1⟩

/-- Without requested distances nothing has to be assumed about them. -/
theorem C54_placed_no_distance (P : Params K) (hP : P.Valid) (hrel : P.relativeDistance = 0)
    (habs : P.absoluteDistance = 0) (radii : List K) (hsorted : radii.Pairwise (fun a b => b ≤ a))
    (hr : ∀ r ∈ radii, 0 < r)
    (rand : List (V K)) (hrand : Unit rand) (placed : List (Particle K)) (rest : List (V K))
    (h : placePhase P radii rand = .done placed rest) :
    (∀ p ∈ placed, InBox P.specimen p) ∧
      placed.Pairwise fun p q => (p.radius + q.radius) ^ 2 ≤
        (p.pos 0 - q.pos 0) ^ 2 + (p.pos 1 - q.pos 1) ^ 2 + (p.pos 2 - q.pos 2) ^ 2 := by
  obtain ⟨h1, -, h3, -⟩ := C54_placed_partial P hP radii hsorted hr (by
    intro r hrr
    rw [hrel, habs, le_div_iff₀ (by linarith [hP.shrinkage'])]
    have := hr r hrr
    nlinarith [hP.shrinkage]) rand hrand placed rest h
  refine ⟨h1, h3.imp fun {p q} hpq => ?_⟩
  unfold Separated at hpq
  rw [hrel, habs] at hpq
  simpa using hpq

/-- Every particle is placed if no two consecutive diameters differ by more than the factor two. -/
theorem C54_all_placed_partial (P : Params K) (hP : P.Valid) (radii : List K)
    (hsorted : radii.Pairwise (fun a b => b ≤ a)) (hr : ∀ r ∈ radii, 0 < r)
    (hdist : ∀ r ∈ radii, r * (1 + P.relativeDistance) + P.absoluteDistance ≤ 2 * r / (1 - P.shrinkage))
    (hgap : radii.IsChain fun a b => a ≤ 2 * b)
    (rand : List (V K)) (hrand : Unit rand) (placed : List (Particle K)) (rest : List (V K))
    (h : placePhase P radii rand = .done placed rest) : placed.map Particle.radius = radii := by
  unfold placePhase at h
  cases hs : sizeClasses radii with
  | throw => rw [hs] at h; cases h
  | ub => rw [hs] at h; cases h
  | ok sizes =>
    rw [hs] at h
    dsimp only at h
    obtain ⟨h1, -, -⟩ := placeClasses_done hP sizes _ radii (numPerClass_fits radii hsorted sizes hs)
      (fun r hrr => ⟨hr r hrr, hdist r hrr⟩) [] ⟨by simp, by simp, by simp, List.Pairwise.nil⟩ rand hrand placed rest h
    rw [h1, numPerClass_sum radii hr hgap sizes hs]
    simp

/-! ### Outcomes -/

omit [FloorRing K] [IsStrictOrderedRing K] [LinearOrder K] [Field K] in
theorem Outcome.bind_ne_ub {α β : Type} {x : Outcome K α} {f : α → List (V K) → Outcome K β} (hx : x ≠ .ub)
    (hf : ∀ a rest, x = .done a rest → f a rest ≠ .ub) : x.bind f ≠ .ub := by
  cases x with
  | done a rest => exact hf a rest rfl
  | throw => exact fun h => by cases h
  | ub => exact absurd rfl hx
  | more => exact fun h => by cases h

theorem collides_ne_ub (P : Params K) (p : Particle K) : collides P p ≠ .ub := by
  unfold collides
  dsimp only
  split_ifs <;> exact fun h => by cases h

theorem placeOne_ne_ub {P : Params K} (hP : P.Valid) {size radius : K} (hr : 0 < radius) (hsize : 0 < size)
    (hlen : ∀ i, 2 * radius ≤ P.specimen.length i) (hfit : ∀ i, size / (1 - P.shrinkage) ≤ P.specimen.length i)
    (boxes : List (ℤ × Particle K)) (tries : ℕ) (rand : List (V K)) (hrand : Unit rand) :
    placeOne P size boxes radius tries rand ≠ .ub ∧
      ∀ p rest, placeOne P size boxes radius tries rand = .done p rest → Unit rest := by
  induction rand generalizing tries with
  | nil => exact ⟨fun h => (by cases h), fun _ _ h => by cases h⟩
  | cons u us ih =>
    have hus : Unit us := fun v hv => hrand v (List.mem_cons_of_mem _ hv)
    have hu := hrand u List.mem_cons_self
    have h2 : 0 < 1 - P.shrinkage := by linarith [hP.shrinkage']
    have hS : 0 < size / (1 - P.shrinkage) := div_pos hsize h2
    have hn : ∀ i, 1 ≤ nSubBox P size i := by
      intro i
      unfold nSubBox
      rw [Int.le_floor, Int.cast_one, le_div_iff₀ hS, one_mul]
      exact hfit i
    have hl : ∀ i, 0 < lSubBox P size i := fun i => lt_of_lt_of_le hS (lSubBox_ge hP hsize i (hn i)).1
    have hbox : ¬ (boxIndex (nSubBox P size) (cSubBox P size (candidate P radius u)) < 0 ∨
        nSubBox P size 0 * nSubBox P size 1 * nSubBox P size 2 ≤
          boxIndex (nSubBox P size) (cSubBox P size (candidate P radius u))) := by
      rw [not_or, not_lt, not_le]
      apply boxIndex_range
      intro i
      have hpos : (candidate P radius u).pos i = radius + P.specimen.lower i + (P.specimen.length i - 2 * radius) * u i := rfl
      have h7 := mul_nonneg (sub_nonneg.2 (hlen i)) (hu i).1
      have h8 : (P.specimen.length i - 2 * radius) * u i ≤ (P.specimen.length i - 2 * radius) * 1 :=
        mul_le_mul_of_nonneg_left (hu i).2 (sub_nonneg.2 (hlen i))
      have hx : 0 ≤ ((candidate P radius u).pos i - P.specimen.lower i) / lSubBox P size i :=
        div_nonneg (by rw [hpos]; linarith) (hl i).le
      unfold cSubBox
      rw [toInt_nonneg hx]
      refine ⟨Int.floor_nonneg.2 hx, ?_⟩
      rw [Int.floor_lt, div_lt_iff₀ (hl i), hpos]
      have := (lSubBox_ge hP hsize i (hn i)).2.1
      linarith
    rw [placeOne]
    dsimp only
    cases hcol : collides P (candidate P radius u) with
    | throw => exact ⟨fun h => (by cases h), fun _ _ h => by cases h⟩
    | ub => exact absurd hcol (collides_ne_ub P _)
    | ok b =>
      cases b with
      | true => exact ih tries hus
      | false =>
        dsimp only
        rw [if_neg hbox]
        split_ifs
        · exact ⟨fun h => (by cases h), fun _ _ h => by cases h⟩
        · exact ih (tries + 1) hus
        · refine ⟨fun h => (by cases h), fun p rest h => ?_⟩
          injection h with _ h'
          rw [← h']
          exact hus

theorem placeRadii_ne_ub {P : Params K} (hP : P.Valid) {size : K} (radii : List K) (hr : ∀ r ∈ radii, 0 < r)
    (hsize : 0 < size) (hlen : ∀ r ∈ radii, ∀ i, 2 * r ≤ P.specimen.length i)
    (hfit : ∀ i, size / (1 - P.shrinkage) ≤ P.specimen.length i)
    (boxes : List (ℤ × Particle K)) (placed : List (Particle K)) (rand : List (V K)) (hrand : Unit rand) :
    placeRadii P size radii boxes placed rand ≠ .ub ∧
      ∀ p rest, placeRadii P size radii boxes placed rand = .done p rest → Unit rest := by
  induction radii generalizing boxes placed rand with
  | nil =>
    refine ⟨fun h => (by cases h), fun p rest h => ?_⟩
    rw [placeRadii] at h
    injection h with _ h'
    rw [← h']
    exact hrand
  | cons r rs ih =>
    have h1 := placeOne_ne_ub hP (hr r List.mem_cons_self) hsize (hlen r List.mem_cons_self) hfit boxes 0 rand hrand
    have ih' := ih (fun x hx => hr x (List.mem_cons_of_mem _ hx)) (fun x hx => hlen x (List.mem_cons_of_mem _ hx))
    rw [placeRadii]
    refine ⟨Outcome.bind_ne_ub h1.1 fun a rest ha => (ih' _ _ rest (h1.2 a rest ha)).1, fun p rest h => ?_⟩
    obtain ⟨a, rest', e1, e2⟩ := Outcome.bind_done h
    exact (ih' _ _ rest' (h1.2 a rest' e1)).2 p rest e2

theorem placeClasses_ne_ub {P : Params K} (hP : P.Valid) (classes : List (K × ℕ)) (radii : List K)
    (hr : ∀ r ∈ radii, 0 < r) (hlen : ∀ r ∈ radii, ∀ i, 2 * r ≤ P.specimen.length i)
    (hfit : ∀ x ∈ classes, 0 < x.1 ∧ ∀ i, x.1 / (1 - P.shrinkage) ≤ P.specimen.length i)
    (hsum : (classes.map Prod.snd).sum ≤ radii.length)
    (placed : List (Particle K)) (rand : List (V K)) (hrand : Unit rand) :
    placeClasses P classes radii placed rand ≠ .ub := by
  induction classes generalizing radii placed rand with
  | nil => exact fun h => by cases h
  | cons x xs ih =>
    obtain ⟨s, c⟩ := x
    rw [List.map_cons, List.sum_cons] at hsum
    rw [placeClasses, if_neg (by omega)]
    have hx := hfit _ List.mem_cons_self
    have h1 := placeRadii_ne_ub hP (radii.take c) (fun r hrt => hr r (List.mem_of_mem_take hrt)) hx.1
      (fun r hrt => hlen r (List.mem_of_mem_take hrt)) hx.2 (placed.flatMap (insertParticle P s)) placed rand hrand
    refine Outcome.bind_ne_ub h1.1 fun a rest ha => ?_
    exact ih (radii.drop c) (fun r hrd => hr r (List.mem_of_mem_drop hrd))
      (fun r hrd => hlen r (List.mem_of_mem_drop hrd)) (fun y hy => hfit y (List.mem_cons_of_mem _ hy))
      (by rw [List.length_drop]; omega) a rest (h1.2 a rest ha)

theorem numPerClass_sum_le (radii sizes : List K) : (numPerClass radii sizes).sum ≤ radii.length := by
  unfold numPerClass
  split
  · simp
  · simp
  · next t ts =>
    have := sum_countLoop_le (radii.map (2 * ·)) t ts 0
    rw [List.length_map] at this
    omega

theorem sum_snd_zip_le (sizes : List K) (counts : List ℕ) : ((sizes.zip counts).map Prod.snd).sum ≤ counts.sum := by
  induction sizes generalizing counts with
  | nil => simp
  | cons s ss ih =>
    cases counts with
    | nil => simp
    | cons c cs =>
      have := ih cs
      simp only [List.zip_cons_cons, List.map_cons, List.sum_cons]
      omega

/-- No memory outside of the sub boxes is read or written if the specimen is as long, in every direction, as the largest
diameter before the shrinkage. -/
theorem C54_no_ub_partial (P : Params K) (hP : P.Valid) (radii : List K) (hne : radii ≠ [])
    (hsorted : radii.Pairwise (fun a b => b ≤ a)) (hr : ∀ r ∈ radii, 0 < r)
    (hlen : ∀ r ∈ radii, ∀ i, 2 * r / (1 - P.shrinkage) ≤ P.specimen.length i)
    (rand : List (V K)) (hrand : Unit rand) : placePhase P radii rand ≠ .ub := by
  cases radii with
  | nil => exact absurd rfl hne
  | cons r rs =>
    have h2 : 0 < 1 - P.shrinkage := by linarith [hP.shrinkage']
    have hlast : 0 < (r :: rs).getLast (List.cons_ne_nil _ _) := hr _ (List.getLast_mem _)
    have hr0 := hr r List.mem_cons_self
    have hfuel : 2 * r ≤ 2 * (r :: rs).getLast (List.cons_ne_nil _ _) *
        2 ^ (⌈r / (r :: rs).getLast (List.cons_ne_nil _ _)⌉₊ + 1) := by
      have := fuel_enough r _ hlast
      linarith
    obtain ⟨-, t2⟩ := doubling_tail _ _ _ hfuel (by linarith : 0 < 2 * (r :: rs).getLast (List.cons_ne_nil _ _))
    have hs : sizeClasses (r :: rs) = .ok (2 * r :: (doubling (⌈r / (r :: rs).getLast (List.cons_ne_nil _ _)⌉₊ + 1)
        (2 * (r :: rs).getLast (List.cons_ne_nil _ _)) (2 * r)).reverse.tail) := by
      rw [sizeClasses]
      dsimp only
      rw [if_neg (not_le.2 hlast)]
    unfold placePhase
    rw [hs]
    dsimp only
    apply placeClasses_ne_ub hP _ _ hr
    · intro x hx i
      refine le_trans ?_ (hlen x hx i)
      have := hr x hx
      rw [le_div_iff₀ h2]
      nlinarith [hP.shrinkage]
    · intro x hx
      have hx1 := (List.of_mem_zip hx).1
      rcases List.mem_cons.1 hx1 with h3 | h3
      · rw [h3]
        exact ⟨by linarith, hlen r List.mem_cons_self⟩
      · obtain ⟨h4, h5⟩ := t2 _ h3
        refine ⟨by linarith, fun i => ?_⟩
        exact (div_le_div_of_nonneg_right h4.le h2.le).trans (hlen r List.mem_cons_self i)
    · exact (sum_snd_zip_le _ _).trans (numPerClass_sum_le _ _)
    · exact hrand

theorem placeOne_more {P : Params K} (hbox : P.specimen.isCylinder = false) (size radius : K)
    (boxes : List (ℤ × Particle K)) (k tries : ℕ) (ht : tries ≤ P.maxTries) (rand : List (V K))
    (hrand : k + (P.maxTries + 1 - tries) ≤ rand.length) :
    placeOne P size boxes radius tries rand ≠ .more ∧
      ∀ p rest, placeOne P size boxes radius tries rand = .done p rest → k ≤ rest.length := by
  induction rand generalizing tries with
  | nil =>
    rw [List.length_nil] at hrand
    omega
  | cons u us ih =>
    rw [List.length_cons] at hrand
    rw [placeOne]
    have hcol : collides P (candidate P radius u) = .ok false := by
      unfold collides
      rw [hbox]
      rfl
    dsimp only
    rw [hcol]
    dsimp only
    split_ifs with h1 h2 h3
    · exact ⟨fun h => (by cases h), fun _ _ h => by cases h⟩
    · exact ⟨fun h => (by cases h), fun _ _ h => by cases h⟩
    · exact ih (tries + 1) (by omega) (by omega)
    · refine ⟨fun h => (by cases h), fun p rest h => ?_⟩
      injection h with _ h'
      rw [← h']
      omega

omit [FloorRing K] [IsStrictOrderedRing K] [LinearOrder K] [Field K] in
theorem Outcome.bind_ne_more {α β : Type} {x : Outcome K α} {f : α → List (V K) → Outcome K β} (hx : x ≠ .more)
    (hf : ∀ a rest, x = .done a rest → f a rest ≠ .more) : x.bind f ≠ .more := by
  cases x with
  | done a rest => exact hf a rest rfl
  | throw => exact fun h => by cases h
  | more => exact absurd rfl hx
  | ub => exact fun h => by cases h

theorem placeRadii_more {P : Params K} (hbox : P.specimen.isCylinder = false) (size : K) (radii : List K)
    (boxes : List (ℤ × Particle K)) (placed : List (Particle K)) (k : ℕ) (rand : List (V K))
    (hrand : k + radii.length * (P.maxTries + 1) ≤ rand.length) :
    placeRadii P size radii boxes placed rand ≠ .more ∧
      ∀ p rest, placeRadii P size radii boxes placed rand = .done p rest → k ≤ rest.length := by
  induction radii generalizing boxes placed rand with
  | nil =>
    refine ⟨fun h => (by cases h), fun p rest h => ?_⟩
    rw [placeRadii] at h
    injection h with _ h'
    rw [← h']
    rw [List.length_nil] at hrand
    omega
  | cons r rs ih =>
    rw [List.length_cons, Nat.succ_mul] at hrand
    have h1 := placeOne_more hbox size r boxes (k + rs.length * (P.maxTries + 1)) 0 (Nat.zero_le _) rand (by omega)
    rw [placeRadii]
    refine ⟨Outcome.bind_ne_more h1.1 fun a rest ha => (ih _ _ rest (h1.2 a rest ha)).1, fun p rest h => ?_⟩
    obtain ⟨a, rest', e1, e2⟩ := Outcome.bind_done h
    exact (ih _ _ rest' (h1.2 a rest' e1)).2 p rest e2

theorem placeClasses_more {P : Params K} (hbox : P.specimen.isCylinder = false) (classes : List (K × ℕ))
    (radii : List K) (placed : List (Particle K)) (rand : List (V K))
    (hrand : radii.length * (P.maxTries + 1) ≤ rand.length) :
    placeClasses P classes radii placed rand ≠ .more := by
  induction classes generalizing radii placed rand with
  | nil => exact fun h => by cases h
  | cons x xs ih =>
    obtain ⟨s, c⟩ := x
    rw [placeClasses]
    split_ifs with hc
    · exact fun h => by cases h
    · have e : (radii.drop c).length * (P.maxTries + 1) + (radii.take c).length * (P.maxTries + 1) =
          radii.length * (P.maxTries + 1) := by
        rw [← Nat.add_mul]
        congr 1
        rw [List.length_drop, List.length_take]
        omega
      have h1 := placeRadii_more hbox s (radii.take c) (placed.flatMap (insertParticle P s)) placed
        ((radii.drop c).length * (P.maxTries + 1)) rand (by omega)
      exact Outcome.bind_ne_more h1.1 fun a rest ha => ih _ a rest (h1.2 a rest ha)

/-- In a box the placement ends, with a result or an exception, after at most `maxTries + 1` attempts for every particle. -/
theorem C54_terminates_partial (P : Params K) (hbox : P.specimen.isCylinder = false) (radii : List K)
    (rand : List (V K)) (hrand : radii.length * (P.maxTries + 1) ≤ rand.length) : placePhase P radii rand ≠ .more := by
  unfold placePhase
  split
  · exact placeClasses_more hbox _ _ _ _ hrand
  · exact fun h => by cases h
  · exact fun h => by cases h

/-! ### What is not true -/

/-- A cube -/
def cube (L : ℚ) : Specimen ℚ := ⟨fun _ => 0, fun _ => L, false⟩

theorem cube_valid {L rel abs : ℚ} (n : ℕ) (hL : 0 < L) (hrel : 0 ≤ rel) (habs : 0 ≤ abs) :
    Params.Valid (⟨cube L, 0, n, rel, abs⟩ : Params ℚ) :=
  ⟨fun _ => hL, le_rfl, by norm_num, hrel, habs⟩

/-- The run ends and the result passes a check. -/
def Outcome.check {α : Type} (x : Outcome ℚ α) (f : α → Bool) : Bool :=
  match x with
  | .done a _ => f a
  | _ => false

theorem Outcome.of_check {α : Type} {x : Outcome ℚ α} {f : α → Bool} (h : x.check f = true) :
    ∃ a rest, x = .done a rest ∧ f a = true := by
  cases x with
  | done a rest => exact ⟨a, rest, rfl, h⟩
  | throw => cases h
  | ub => cases h
  | more => cases h

/-- A requested distance larger than a sub box is not kept: the second sphere is placed at distance 3 although 6 is
requested. -/
theorem C54_distance_counterexample :
    ∃ (P : Params ℚ) (rand : List (V ℚ)) (placed : List (Particle ℚ)) (rest : List (V ℚ)),
      P.Valid ∧ Unit rand ∧ placePhase P [1 / 2, 1 / 2] rand = .done placed rest ∧
      ¬ placed.Pairwise (Separated P) := by
  have h : (placePhase (⟨cube 10, 0, 10, 0, 5⟩ : Params ℚ) [1 / 2, 1 / 2] [![0, 0, 0], ![1 / 3, 0, 0]]).check
      (fun l => match l with
        | [p, q] => decide (dist2 p q < (p.radius + q.radius + (q.radius * 0 + 5)) ^ 2)
        | _ => false) = true := by decide +kernel
  obtain ⟨placed, rest, h1, h2⟩ := Outcome.of_check h
  refine ⟨_, _, placed, rest, cube_valid 10 (by norm_num) (by norm_num) (by norm_num), ?_, h1, ?_⟩
  · intro u hu i
    simp only [List.mem_cons, List.not_mem_nil, or_false] at hu
    rcases hu with rfl | rfl <;> fin_cases i <;> norm_num
  · intro hp
    match placed, h2, hp with
    | [p, q], h2, hp =>
      have h3 := (List.pairwise_cons.1 hp).1 q List.mem_cons_self
      simp only [decide_eq_true_eq] at h2
      unfold Separated at h3
      unfold dist2 at h2
      simp only at h3
      linarith

/-- Particles are lost if the diameters have a gap: nothing is placed after the first sphere. -/
theorem C54_lost_counterexample :
    ∃ (P : Params ℚ) (rand : List (V ℚ)) (placed : List (Particle ℚ)) (rest : List (V ℚ)),
      P.Valid ∧ Unit rand ∧ placePhase P [8, 1 / 2] rand = .done placed rest ∧ placed.length = 1 := by
  have h : (placePhase (⟨cube 100, 0, 10, 0, 0⟩ : Params ℚ) [8, 1 / 2] [![0, 0, 0]]).check
      (fun l => decide (l.length = 1)) = true := by decide +kernel
  obtain ⟨placed, rest, h1, h2⟩ := Outcome.of_check h
  refine ⟨_, _, placed, rest, cube_valid 10 (by norm_num) (by norm_num) (by norm_num), ?_, h1, of_decide_eq_true h2⟩
  intro u hu i
  simp only [List.mem_cons, List.not_mem_nil, or_false] at hu
  rcases hu with rfl
  fin_cases i <;> norm_num

/-- A diameter larger than the specimen is not rejected: the first lookup reads outside of the (empty) vector of boxes. -/
theorem C54_too_large_counterexample :
    ∃ P : Params ℚ, P.Valid ∧ placePhase P [1] [![0, 0, 0]] = .ub := by
  refine ⟨⟨cube 1, 0, 10, 0, 0⟩, cube_valid 10 (by norm_num) (by norm_num) (by norm_num), ?_⟩
  have h : (match placePhase (⟨cube 1, 0, 10, 0, 0⟩ : Params ℚ) [1] [![0, 0, 0]] with
      | .ub => true
      | _ => false) = true := by decide +kernel
  split at h
  · assumption
  · cases h

/-- With boundary spheres: if the creation ends, there are at most as many spheres as were taken, all of them lie in the box
and any two of them keep the requested distance.  (Missing: the distance to the boundary spheres, see the counterexample.) -/
theorem C54_created_partial (P : Params K) (hP : P.Valid) (boundary : List (Particle K)) (taken : List K)
    (hb : ∀ b ∈ boundary, 0 < b.radius) (ht : ∀ r ∈ taken, 0 < r)
    (hdist : ∀ r, r ∈ boundary.map Particle.radius ∨ r ∈ taken →
      r * (1 - P.shrinkage) * (1 + P.relativeDistance) + P.absoluteDistance ≤ 2 * r)
    (rand : List (V K)) (hrand : Unit rand) (created : List (Particle K)) (rest : List (V K))
    (h : createSpheres P boundary taken rand = .done created rest) :
    created.length ≤ taken.length ∧ (∀ p ∈ created, InBox P.specimen p) ∧ created.Pairwise (Separated P) := by
  have hs : 0 < 1 - P.shrinkage := by linarith [hP.shrinkage']
  unfold createSpheres at h
  dsimp only at h
  have hmem : ∀ r ∈ ((boundary.map Particle.radius ++ taken).mergeSort (fun a b => decide (b ≤ a))).map (· * (1 - P.shrinkage)),
      ∃ q, (q ∈ boundary.map Particle.radius ∨ q ∈ taken) ∧ 0 < q ∧ r = q * (1 - P.shrinkage) := by
    intro r hr
    obtain ⟨q, hq, rfl⟩ := List.mem_map.1 hr
    have hq' := List.mem_append.1 (List.mem_mergeSort.1 hq)
    refine ⟨q, hq', ?_, rfl⟩
    rcases hq' with hq' | hq'
    · obtain ⟨b, hbm, rfl⟩ := List.mem_map.1 hq'
      exact hb b hbm
    · exact ht q hq'
  cases hp : placePhase P
      (((boundary.map Particle.radius ++ taken).mergeSort (fun a b => decide (b ≤ a))).map (· * (1 - P.shrinkage))) rand with
  | throw => rw [hp] at h; cases h
  | ub => rw [hp] at h; cases h
  | more => rw [hp] at h; cases h
  | done placed rest' =>
    rw [hp] at h
    simp only [Outcome.bind, Outcome.done.injEq] at h
    obtain ⟨rfl, -⟩ := h
    obtain ⟨h1, -, h3, k, hk, h4⟩ := C54_placed_partial P hP _ (by
      rw [List.pairwise_map]
      have := List.pairwise_mergeSort (le := fun a b : K => decide (b ≤ a))
        (fun a b c h1 h2 => by simp only [decide_eq_true_eq] at *; exact h2.trans h1)
        (fun a b => by simpa using le_total b a) (boundary.map Particle.radius ++ taken)
      refine this.imp fun h => ?_
      exact mul_le_mul_of_nonneg_right (of_decide_eq_true h) hs.le) (fun r hr => by
        obtain ⟨q, -, hq, rfl⟩ := hmem r hr
        exact mul_pos hq hs) (fun r hr => by
        obtain ⟨q, hq, -, rfl⟩ := hmem r hr
        have := hdist q hq
        rw [← mul_assoc, mul_div_assoc, div_self hs.ne', mul_one]
        exact this) rand hrand placed rest' hp
    refine ⟨?_, fun p hm => h1 p (List.mem_of_mem_drop hm), h3.sublist (List.drop_sublist _ _)⟩
    have h5 := congrArg List.length h4
    rw [List.length_map, List.length_take, List.length_map, List.length_mergeSort, List.length_append, List.length_map] at h5
    rw [List.length_drop]
    omega

/-- The given boundary spheres are moved: a returned sphere can lie exactly on one of them. -/
theorem C54_boundary_counterexample :
    ∃ (P : Params ℚ) (b : Particle ℚ) (rand : List (V ℚ)) (p : Particle ℚ) (rest : List (V ℚ)),
      P.Valid ∧ Unit rand ∧ InBox P.specimen b ∧ createSpheres P [b] [1 / 2] rand = .done [p] rest ∧
      ∀ i, p.pos i = b.pos i := by
  have e : (([⟨fun _ => 5, 1 / 2⟩] : List (Particle ℚ)).map Particle.radius ++ [1 / 2]).mergeSort
      (fun a b => decide (b ≤ a)) = [1 / 2, 1 / 2] :=
    List.mergeSort_of_pairwise (by simp)
  have h : (createSpheres (⟨cube 10, 0, 10, 0, 0⟩ : Params ℚ) [⟨fun _ => 5, 1 / 2⟩] [1 / 2]
      [![0, 0, 0], ![1 / 2, 1 / 2, 1 / 2]]).check (fun l => match l with
        | [p] => decide (∀ i, p.pos i = 5)
        | _ => false) = true := by
    unfold createSpheres
    dsimp only
    rw [e]
    decide +kernel
  obtain ⟨l, rest, h1, h2⟩ := Outcome.of_check h
  match l, h1, h2 with
  | [p], h1, h2 =>
    refine ⟨_, _, _, p, rest, cube_valid 10 (by norm_num) (by norm_num) (by norm_num), ?_, ?_, h1, of_decide_eq_true h2⟩
    · intro u hu i
      simp only [List.mem_cons, List.not_mem_nil, or_false] at hu
      rcases hu with rfl | rfl <;> fin_cases i <;> norm_num
    · intro i
      norm_num [cube]

/-- The hypotheses of `C54_created_partial` can be met: one boundary sphere and one sphere taken. -/
example : ∃ (P : Params ℚ) (b : Particle ℚ) (rand : List (V ℚ)) (p : Particle ℚ) (rest : List (V ℚ)),
    P.Valid ∧ 0 < b.radius ∧ (∀ r, r ∈ [b].map Particle.radius ∨ r ∈ [(1 / 2 : ℚ)] →
      r * (1 - P.shrinkage) * (1 + P.relativeDistance) + P.absoluteDistance ≤ 2 * r) ∧ Unit rand ∧
    createSpheres P [b] [1 / 2] rand = .done [p] rest := by
  have e : (([⟨fun _ => 5, 1 / 2⟩] : List (Particle ℚ)).map Particle.radius ++ [1 / 2]).mergeSort
      (fun a b => decide (b ≤ a)) = [1 / 2, 1 / 2] :=
    List.mergeSort_of_pairwise (by simp)
  have h : (createSpheres (⟨cube 10, 0, 10, 0, 0⟩ : Params ℚ) [⟨fun _ => 5, 1 / 2⟩] [1 / 2]
      [![0, 0, 0], ![1 / 2, 1 / 2, 1 / 2]]).check (fun l => decide (l.length = 1)) = true := by
    unfold createSpheres
    dsimp only
    rw [e]
    decide +kernel
  obtain ⟨l, rest, h1, h2⟩ := Outcome.of_check h
  obtain ⟨p, rfl⟩ := List.length_eq_one_iff.1 (of_decide_eq_true h2)
  refine ⟨_, _, _, p, rest, cube_valid 10 (by norm_num) (by norm_num) (by norm_num), by norm_num, ?_, ?_, h1⟩
  · intro r hr
    have : r = 1 / 2 := by simpa using hr
    norm_num [this]
  · intro u hu i
    simp only [List.mem_cons, List.not_mem_nil, or_false] at hu
    rcases hu with rfl | rfl <;> fin_cases i <;> norm_num

/-- In a cylinder rejected positions are not counted: a sphere that fits only in the middle is tried for ever (random numbers
`k / (2 ^ 31 - 1)` never are `1 / 2`). -/
theorem C54_cylinder_counterexample :
    ∃ P : Params ℚ, P.Valid ∧ P.specimen.isCylinder = true ∧
      ∀ rand : List (V ℚ), (∀ u ∈ rand, u 0 ≠ 1 / 2) → placePhase P [5 / 2] rand = .more := by
  refine ⟨⟨⟨fun _ => 0, fun _ => 10, true⟩, 0, 10, 1, 0⟩,
    ⟨fun _ => by norm_num, le_rfl, by norm_num, by norm_num, le_rfl⟩, rfl, ?_⟩
  intro rand hrand
  have key : ∀ (size : ℚ) (boxes : List (ℤ × Particle ℚ)) (tries : ℕ),
      placeOne (⟨⟨fun _ => 0, fun _ => 10, true⟩, 0, 10, 1, 0⟩ : Params ℚ) size boxes (5 / 2) tries rand = .more := by
    intro size boxes tries
    induction rand generalizing tries with
    | nil => rfl
    | cons u us ih =>
      have hcol : collides (⟨⟨fun _ => 0, fun _ => 10, true⟩, 0, 10, 1, 0⟩ : Params ℚ)
          (candidate ⟨⟨fun _ => 0, fun _ => 10, true⟩, 0, 10, 1, 0⟩ (5 / 2) u) = .ok true := by
        unfold collides candidate
        dsimp only
        rw [if_pos rfl, if_neg (by norm_num)]
        congr 1
        rw [decide_eq_true_iff]
        have h1 : u 0 - 1 / 2 ≠ 0 := sub_ne_zero.2 (hrand u List.mem_cons_self)
        have h2 : 0 < (u 0 - 1 / 2) ^ 2 := by positivity
        nlinarith [sq_nonneg (u 1 - 1 / 2)]
      rw [placeOne]
      dsimp only
      rw [hcol]
      exact ih (fun v hv => hrand v (List.mem_cons_of_mem _ hv)) tries
  have hs : sizeClasses ([5 / 2] : List ℚ) = .ok [5] := by
    unfold sizeClasses
    dsimp only
    rw [if_neg (by norm_num)]
    norm_num [doubling]
  unfold placePhase
  rw [hs]
  simp only [numPerClass, List.zip_cons_cons, placeClasses, List.length_singleton, List.take_succ_cons,
    placeRadii, key, Outcome.bind]
  rfl

/-! ### Examples -/

/-- The hypotheses of the placement theorems hold for a run that places two spheres; the second needs two attempts. -/
example : ∃ (P : Params ℚ) (rand : List (V ℚ)) (placed : List (Particle ℚ)) (rest : List (V ℚ)),
    P.Valid ∧ Unit rand ∧ (∀ r ∈ ([3 / 2, 1] : List ℚ), 0 < r) ∧
    (∀ r ∈ ([3 / 2, 1] : List ℚ), r * (1 + P.relativeDistance) + P.absoluteDistance ≤ 2 * r / (1 - P.shrinkage)) ∧
    (∀ r ∈ ([3 / 2, 1] : List ℚ), ∀ i, 2 * r / (1 - P.shrinkage) ≤ P.specimen.length i) ∧
    placePhase P [3 / 2, 1] rand = .done placed rest ∧ placed.length = 2 ∧ rest = [] := by
  have h : (match placePhase (⟨cube 10, 0, 10, 1 / 2, 1 / 4⟩ : Params ℚ) [3 / 2, 1]
      [![0, 0, 0], ![0, 0, 0], ![1, 1, 1 / 2]] with
    | .done l [] => decide (l.length = 2)
    | _ => false) = true := by decide +kernel
  split at h
  · next l h1 =>
    refine ⟨_, _, l, [], cube_valid 10 (by norm_num) (by norm_num) (by norm_num), ?_, ?_, ?_, ?_, h1,
      of_decide_eq_true h, rfl⟩
    · intro u hu i
      simp only [List.mem_cons, List.not_mem_nil, or_false] at hu
      rcases hu with rfl | rfl | rfl <;> fin_cases i <;> norm_num
    · intro r hr
      simp only [List.mem_cons, List.not_mem_nil, or_false] at hr
      rcases hr with rfl | rfl <;> norm_num
    · intro r hr
      simp only [List.mem_cons, List.not_mem_nil, or_false] at hr
      rcases hr with rfl | rfl <;> norm_num
    · intro r hr i
      simp only [List.mem_cons, List.not_mem_nil, or_false] at hr
      rcases hr with rfl | rfl <;> norm_num [cube]
  · cases h

example : ([3 / 2, 1] : List ℚ).IsChain fun a b => a ≤ 2 * b := by
  simp
  norm_num

end NuTo.Placement
