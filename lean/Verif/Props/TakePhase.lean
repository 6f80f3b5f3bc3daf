import Mathlib.Tactic.Linarith
import Mathlib.Tactic.Ring
import Mathlib.Tactic.NormNum
import Mathlib.Tactic.Positivity
import Mathlib.Tactic.FieldSimp
import Verif.Model.TakePhase
import Verif.Props.Placement

/-!
C68: the take phase of the take-and-place algorithm.
-/

namespace NuTo.TakePhase

/-! ### Diameters -/

theorem root_cube {d : ℝ} (hd : 0 ≤ d) : (d * d * d) ^ ((1 : ℝ) / 3) = d := by
  have : d * d * d = d ^ ((3 : ℕ) : ℝ) := by rw [Real.rpow_natCast]; ring
  rw [this, ← Real.rpow_mul hd]
  norm_num

/-- The cube root in the denominator lies between the two diameters. -/
theorem root_bounds {a b u : ℝ} (ha : 0 < a) (hab : a ≤ b) (hu : 0 ≤ u) (hu' : u ≤ 1) :
    a ≤ ((1 - u) * (b * b * b) + u * (a * a * a)) ^ ((1 : ℝ) / 3) ∧
      ((1 - u) * (b * b * b) + u * (a * a * a)) ^ ((1 : ℝ) / 3) ≤ b := by
  have hb : 0 < b := lt_of_lt_of_le ha hab
  have hcube : a * a * a ≤ b * b * b := by gcongr
  constructor
  · calc a = (a * a * a) ^ ((1 : ℝ) / 3) := (root_cube ha.le).symm
      _ ≤ _ := Real.rpow_le_rpow (by positivity) (by nlinarith) (by norm_num)
  · calc _ ≤ (b * b * b) ^ ((1 : ℝ) / 3) :=
          Real.rpow_le_rpow (add_nonneg (mul_nonneg (by linarith) (by positivity)) (by positivity))
            (by nlinarith) (by norm_num)
      _ = b := root_cube hb.le

/-- Every particle of a grading class has a diameter in the range of the class. -/
theorem C68_diameter (c : GradingClass) (h : 0 < c.dMin) (h' : c.dMin ≤ c.dMax) (u : ℝ) (hu : 0 ≤ u) (hu' : u ≤ 1) :
    c.dMin ≤ 2 * radius c u ∧ 2 * radius c u ≤ c.dMax := by
  obtain ⟨h1, h2⟩ := root_bounds h h' hu hu'
  have hmax : 0 < c.dMax := lt_of_lt_of_le h h'
  unfold radius
  generalize ((1 - u) * (c.dMax * c.dMax * c.dMax) + u * (c.dMin * c.dMin * c.dMin)) ^ ((1 : ℝ) / 3) = z at h1 h2
  have hz : 0 < z := lt_of_lt_of_le h h1
  constructor
  · rw [← mul_div_assoc, le_div_iff₀ hz]
    nlinarith
  · rw [← mul_div_assoc, div_le_iff₀ hz]
    nlinarith

/-- Both ends of the range are reached. -/
theorem C68_diameter_ends (c : GradingClass) (h : 0 < c.dMin) (h' : c.dMin ≤ c.dMax) :
    2 * radius c 0 = c.dMin ∧ 2 * radius c 1 = c.dMax := by
  have hmax : 0 < c.dMax := lt_of_lt_of_le h h'
  unfold radius
  constructor
  · rw [sub_zero, one_mul, zero_mul, add_zero, root_cube hmax.le]
    field_simp
  · rw [sub_self, zero_mul, one_mul, zero_add, root_cube h.le]
    field_simp

/-- Larger random numbers give larger particles. -/
theorem C68_diameter_mono (c : GradingClass) (h : 0 < c.dMin) (h' : c.dMin < c.dMax) (u v : ℝ) (hu : 0 ≤ u) (huv : u < v)
    (hv : v ≤ 1) : radius c u < radius c v := by
  have hmax : 0 < c.dMax := h.trans h'
  have hcube : c.dMin * c.dMin * c.dMin < c.dMax * c.dMax * c.dMax := by gcongr
  have h1 : 0 < c.dMin * c.dMin * c.dMin := by positivity
  unfold radius
  apply div_lt_div_of_pos_left (by positivity)
  · exact lt_of_lt_of_le h (root_bounds h h'.le (by linarith) hv).1
  · exact Real.rpow_lt_rpow (by nlinarith) (by nlinarith) (by norm_num)

/-! ### Volumes -/

/-- Sum of the volumes of spheres -/
noncomputable def total (rs : List ℝ) : ℝ := (rs.map fun r => 4 / 3 * Real.pi * r ^ 3).sum

theorem total_cons (r : ℝ) (rs : List ℝ) : total (r :: rs) = volume r + total rs := by
  unfold total volume
  rw [List.map_cons, List.sum_cons]
  ring

theorem total_append (rs rs' : List ℝ) : total (rs ++ rs') = total rs + total rs' := by
  unfold total
  rw [List.map_append, List.sum_append]

theorem volume_mono {r s : ℝ} (hr : 0 ≤ r) (h : r ≤ s) : volume r ≤ volume s := by
  unfold volume
  have := Real.pi_pos
  have hs := hr.trans h
  gcongr

theorem takeClass_done (c : GradingClass) (h : 0 < c.dMin) (h' : c.dMin ≤ c.dMax) (vSoll vIst : ℝ) (hv : vIst ≤ vSoll)
    (rand : List ℝ) (hrand : ∀ u ∈ rand, 0 ≤ u ∧ u ≤ 1) (rs : List ℝ) (v : ℝ) (rest : List ℝ)
    (hd : takeClass c vSoll vIst rand = .done (rs, v) rest) :
    v = vIst + total rs ∧ v ≤ vSoll ∧ vSoll - v ≤ 4 / 3 * Real.pi * (c.dMax / 2) ^ 3 ∧
      (∀ r ∈ rs, c.dMin ≤ 2 * r ∧ 2 * r ≤ c.dMax) ∧ ∃ used, rand = used ++ rest := by
  induction rand generalizing vIst rs with
  | nil => cases hd
  | cons u us ih =>
    obtain ⟨hu, hu'⟩ := hrand u List.mem_cons_self
    obtain ⟨b1, b2⟩ := C68_diameter c h h' u hu hu'
    rw [takeClass] at hd
    split_ifs at hd with hlt
    · cases hc : takeClass c vSoll (vIst + volume (radius c u)) us with
      | more => rw [hc] at hd; cases hd
      | done p rest' =>
        obtain ⟨rs', v'⟩ := p
        rw [hc] at hd
        injection hd with e1 e2
        injection e1 with e1 e3
        subst e1 e2 e3
        obtain ⟨i1, i2, i3, i4, used, i5⟩ := ih _ hlt.le (fun x hx => hrand x (List.mem_cons_of_mem _ hx)) rs' hc
        refine ⟨by rw [total_cons, i1]; ring, i2, i3, ?_, u :: used, by rw [i5]; rfl⟩
        intro r hr
        rcases List.mem_cons.1 hr with rfl | hr
        · exact ⟨b1, b2⟩
        · exact i4 r hr
    · injection hd with e1 e2
      injection e1 with e1 e3
      subst e1 e2 e3
      rw [not_lt] at hlt
      have hvol : volume (radius c u) ≤ 4 / 3 * Real.pi * (c.dMax / 2) ^ 3 := by
        refine (volume_mono (by linarith) (by linarith : radius c u ≤ c.dMax / 2)).trans (le_of_eq ?_)
        unfold volume
        ring
      refine ⟨by simp [total], by linarith, by linarith, by simp, [u], rfl⟩

/-- `0 < dMin ≤ dMax` and the fraction is not negative. -/
def GradingClass.Valid (c : GradingClass) : Prop := 0 < c.dMin ∧ c.dMin ≤ c.dMax ∧ 0 ≤ c.volumeFrac

theorem takeClasses_done (V : ℝ) (hV : 0 ≤ V) (cs : List GradingClass) (hcs : ∀ c ∈ cs, c.Valid) (missing : ℝ)
    (hm : 0 ≤ missing) (rand : List ℝ) (hrand : ∀ u ∈ rand, 0 ≤ u ∧ u ≤ 1) (rs : List ℝ) (m : ℝ) (rest : List ℝ)
    (hd : takeClasses V cs missing rand = .done (rs, m) rest) :
    0 ≤ m ∧ total rs + m = missing + V * (cs.map GradingClass.volumeFrac).sum ∧
      (∀ c, cs.getLast? = some c → m ≤ 4 / 3 * Real.pi * (c.dMax / 2) ^ 3) ∧
      ∀ r ∈ rs, ∃ c ∈ cs, c.dMin ≤ 2 * r ∧ 2 * r ≤ c.dMax := by
  induction cs generalizing missing rand rs with
  | nil =>
    rw [takeClasses] at hd
    injection hd with e1 e2
    injection e1 with e1 e3
    subst e1 e2 e3
    refine ⟨hm, by simp [total], ?_, by simp⟩
    intro c hc
    cases hc
  | cons c cs ih =>
    obtain ⟨v1, v2, v3⟩ := hcs c List.mem_cons_self
    rw [takeClasses] at hd
    have hsoll : 0 ≤ V * c.volumeFrac + missing := add_nonneg (mul_nonneg hV v3) hm
    cases hc : takeClass c (V * c.volumeFrac + missing) 0 rand with
    | more => rw [hc] at hd; cases hd
    | done p rest' =>
      obtain ⟨rs1, vIst⟩ := p
      rw [hc] at hd
      dsimp only at hd
      obtain ⟨a1, a2, a3, a4, used, a5⟩ := takeClass_done c v1 v2 _ 0 hsoll rand hrand rs1 vIst rest' hc
      cases hc2 : takeClasses V cs (V * c.volumeFrac + missing - vIst) rest' with
      | more => rw [hc2] at hd; cases hd
      | done p2 rest2 =>
        obtain ⟨rs2, m2⟩ := p2
        rw [hc2] at hd
        injection hd with e1 e2
        injection e1 with e1 e3
        subst e1 e2 e3
        obtain ⟨i1, i2, i3, i4⟩ := ih (fun x hx => hcs x (List.mem_cons_of_mem _ hx)) _ (by linarith) rest'
          (fun x hx => hrand x (by rw [a5]; exact List.mem_append_right _ hx)) rs2 hc2
        refine ⟨i1, ?_, ?_, ?_⟩
        · rw [total_append, List.map_cons, List.sum_cons]
          rw [zero_add] at a1
          linarith [mul_add V c.volumeFrac (cs.map GradingClass.volumeFrac).sum]
        · intro x hx
          cases cs with
          | nil =>
            rw [List.getLast?_singleton, Option.some.injEq] at hx
            rw [takeClasses] at hc2
            injection hc2 with e1 _
            injection e1 with _ e3
            rw [← hx, ← e3]
            exact a3
          | cons c2 cs2 =>
            rw [List.getLast?_cons_cons] at hx
            exact i3 x hx
        · intro r hr
          rcases List.mem_append.1 hr with hr | hr
          · exact ⟨c, List.mem_cons_self, a4 r hr⟩
          · obtain ⟨x, hx, hx'⟩ := i4 r hr
            exact ⟨x, List.mem_cons_of_mem _ hx, hx'⟩

theorem total_perm {l l' : List ℝ} (h : l.Perm l') : total l = total l' := (h.map _).sum_eq

theorem total_scale (l : List ℝ) (k : ℝ) : total (l.map (· * k)) = total l * k ^ 3 := by
  induction l with
  | nil => simp [total]
  | cons r rs ih =>
    rw [List.map_cons, total_cons, total_cons, ih]
    unfold volume
    ring

/-- The taken particles: largest first, every diameter (before the shrinkage) in one of the grading classes, and the volume
(before the shrinkage) is at most the requested one and misses it by at most the largest sphere of the last class. -/
theorem C68_taken (specimenVolume relParticleVolume shrinkage : ℝ) (hV : 0 ≤ specimenVolume * relParticleVolume)
    (hs : shrinkage < 1) (curve : List GradingClass) (hcurve : ∀ c ∈ curve, c.Valid)
    (rand : List ℝ) (hrand : ∀ u ∈ rand, 0 ≤ u ∧ u ≤ 1) (radii rest : List ℝ)
    (hd : takePhase specimenVolume relParticleVolume shrinkage curve rand = .done radii rest) :
    radii.Pairwise (fun a b => b ≤ a) ∧
      (∀ r ∈ radii, ∃ c ∈ curve, c.dMin * (1 - shrinkage) ≤ 2 * r ∧ 2 * r ≤ c.dMax * (1 - shrinkage)) ∧
      total radii ≤ specimenVolume * relParticleVolume * (curve.map GradingClass.volumeFrac).sum * (1 - shrinkage) ^ 3 ∧
      ∀ c, curve.getLast? = some c →
        (specimenVolume * relParticleVolume * (curve.map GradingClass.volumeFrac).sum -
          4 / 3 * Real.pi * (c.dMax / 2) ^ 3) * (1 - shrinkage) ^ 3 ≤ total radii := by
  have hs' : 0 < 1 - shrinkage := by linarith
  unfold takePhase at hd
  cases hc : takeClasses (specimenVolume * relParticleVolume) curve 0 rand with
  | more => rw [hc] at hd; cases hd
  | done p rest' =>
    obtain ⟨rs, m⟩ := p
    rw [hc] at hd
    injection hd with e1 e2
    obtain ⟨i1, i2, i3, i4⟩ := takeClasses_done _ hV curve hcurve 0 le_rfl rand hrand rs m rest' hc
    have hperm := List.mergeSort_perm rs (fun a b => decide (b ≤ a))
    have htot : total radii = total rs * (1 - shrinkage) ^ 3 := by
      rw [← e1, total_scale, total_perm hperm]
    refine ⟨?_, ?_, ?_, ?_⟩
    · rw [← e1, List.pairwise_map]
      have := List.pairwise_mergeSort (le := fun a b : ℝ => decide (b ≤ a))
        (fun a b c h1 h2 => by
          rw [decide_eq_true_iff] at *
          exact h2.trans h1)
        (fun a b => by
          rw [Bool.or_eq_true, decide_eq_true_iff, decide_eq_true_iff]
          exact le_total b a) rs
      exact this.imp fun {a b} h => mul_le_mul_of_nonneg_right (of_decide_eq_true h) hs'.le
    · intro r hr
      rw [← e1, List.mem_map] at hr
      obtain ⟨x, hx, rfl⟩ := hr
      obtain ⟨c, hc1, hc2, hc3⟩ := i4 x (hperm.mem_iff.1 hx)
      exact ⟨c, hc1, by nlinarith, by nlinarith⟩
    · rw [htot]
      exact mul_le_mul_of_nonneg_right (by linarith) (by positivity)
    · intro c hc'
      rw [htot]
      exact mul_le_mul_of_nonneg_right (by linarith [i3 c hc']) (by positivity)

/-- Both phases together, without requested distances: whatever grading curve with positive diameters not larger than the
specimen and whatever random numbers, no memory error occurs, and if a result is returned then the spheres lie in the
specimen and do not overlap.  (Missing: see `C54_lost_counterexample` for spheres that are not placed.) -/
theorem C54_create_partial (P : Placement.Params ℝ) (hP : P.Valid) (hrel : P.relativeDistance = 0)
    (habs : P.absoluteDistance = 0) (V phi : ℝ) (hV : 0 ≤ V * phi) (curve : List GradingClass)
    (hcurve : ∀ c ∈ curve, c.Valid) (hlen : ∀ c ∈ curve, ∀ i, c.dMax ≤ P.specimen.length i)
    (rand : List ℝ) (hrand : ∀ u ∈ rand, 0 ≤ u ∧ u ≤ 1) (radii rest : List ℝ)
    (hd : takePhase V phi P.shrinkage curve rand = .done radii rest) (hne : radii ≠ [])
    (rand' : List (Placement.V ℝ)) (hrand' : Placement.Unit rand') :
    Placement.placePhase P radii rand' ≠ .ub ∧
      ∀ placed rest', Placement.placePhase P radii rand' = .done placed rest' →
        (∀ p ∈ placed, Placement.InBox P.specimen p) ∧
        placed.Pairwise fun p q => (p.radius + q.radius) ^ 2 ≤
          (p.pos 0 - q.pos 0) ^ 2 + (p.pos 1 - q.pos 1) ^ 2 + (p.pos 2 - q.pos 2) ^ 2 := by
  obtain ⟨h1, h2, -, -⟩ := C68_taken V phi P.shrinkage hV hP.shrinkage' curve hcurve rand hrand radii rest hd
  have hs : 0 < 1 - P.shrinkage := by linarith [hP.shrinkage']
  have hpos : ∀ r ∈ radii, 0 < r := by
    intro r hr
    obtain ⟨c, hc, h3, -⟩ := h2 r hr
    have := mul_pos (hcurve c hc).1 hs
    linarith
  refine ⟨Placement.C54_no_ub_partial P hP radii hne h1 hpos ?_ rand' hrand', fun placed rest' h =>
    Placement.C54_placed_no_distance P hP hrel habs radii h1 hpos rand' hrand' placed rest' h⟩
  intro r hr i
  obtain ⟨c, hc, -, h4⟩ := h2 r hr
  rw [div_le_iff₀ hs]
  exact h4.trans (mul_le_mul_of_nonneg_right (hlen c hc i) hs.le)

/-! ### Termination -/

theorem takeClass_more (c : GradingClass) (h : 0 < c.dMin) (h' : c.dMin ≤ c.dMax) (vSoll vIst : ℝ)
    (k : ℕ) (rand : List ℝ) (hrand : ∀ u ∈ rand, 0 ≤ u ∧ u ≤ 1)
    (hk : vSoll - vIst ≤ k * (4 / 3 * Real.pi * (c.dMin / 2) ^ 3)) (hlen : k < rand.length) :
    ∃ p rest, takeClass c vSoll vIst rand = .done p rest ∧ ∃ used, rand = used ++ rest ∧ used.length ≤ k + 1 := by
  induction rand generalizing vIst k with
  | nil => cases hlen
  | cons u us ih =>
    obtain ⟨hu, hu'⟩ := hrand u List.mem_cons_self
    obtain ⟨b1, b2⟩ := C68_diameter c h h' u hu hu'
    have hvol : 4 / 3 * Real.pi * (c.dMin / 2) ^ 3 ≤ volume (radius c u) := by
      refine le_trans (le_of_eq ?_) (volume_mono (by linarith) (by linarith : c.dMin / 2 ≤ radius c u))
      unfold volume
      ring
    rw [takeClass]
    split_ifs with hlt
    · cases k with
      | zero =>
        have : 0 < 4 / 3 * Real.pi * (c.dMin / 2) ^ 3 := by
          have := Real.pi_pos
          positivity
        norm_num at hk
        linarith
      | succ k =>
        push_cast at hk
        rw [List.length_cons] at hlen
        obtain ⟨p, rest, i1, used, i2, i3⟩ := ih (vIst + volume (radius c u)) k
          (fun x hx => hrand x (List.mem_cons_of_mem _ hx)) (by linarith) (by omega)
        rw [i1]
        exact ⟨_, rest, rfl, u :: used, by rw [i2]; rfl, by rw [List.length_cons]; omega⟩
    · exact ⟨_, us, rfl, [u], rfl, by simp⟩

/-- The take phase of a class ends after at most the number of smallest spheres that fill the volume, plus one. -/
theorem C68_class_terminates (c : GradingClass) (h : 0 < c.dMin) (h' : c.dMin ≤ c.dMax) (vSoll : ℝ)
    (rand : List ℝ) (hrand : ∀ u ∈ rand, 0 ≤ u ∧ u ≤ 1)
    (hlen : ⌈vSoll / (4 / 3 * Real.pi * (c.dMin / 2) ^ 3)⌉₊ < rand.length) :
    takeClass c vSoll 0 rand ≠ .more := by
  have hpos : 0 < 4 / 3 * Real.pi * (c.dMin / 2) ^ 3 := by
    have := Real.pi_pos
    positivity
  obtain ⟨p, rest, h1, -⟩ := takeClass_more c h h' vSoll 0 _ rand hrand (by
    have := Nat.le_ceil (vSoll / (4 / 3 * Real.pi * (c.dMin / 2) ^ 3))
    rw [div_le_iff₀ hpos] at this
    linarith) hlen
  rw [h1]
  exact fun h => by cases h

/-- The whole take phase ends: some number of random numbers suffices, whatever their values. -/
theorem C68_terminates (V : ℝ) (hV : 0 ≤ V) (cs : List GradingClass) (hcs : ∀ c ∈ cs, c.Valid) (M : ℝ) :
    ∃ n : ℕ, ∀ missing, 0 ≤ missing → missing ≤ M → ∀ rand : List ℝ, (∀ u ∈ rand, 0 ≤ u ∧ u ≤ 1) → n ≤ rand.length →
      takeClasses V cs missing rand ≠ .more := by
  induction cs generalizing M with
  | nil => exact ⟨0, fun m _ _ rand _ _ h => by cases h⟩
  | cons c cs ih =>
    obtain ⟨v1, v2, v3⟩ := hcs c List.mem_cons_self
    obtain ⟨n, hn⟩ := ih (fun x hx => hcs x (List.mem_cons_of_mem _ hx)) (4 / 3 * Real.pi * (c.dMax / 2) ^ 3)
    have hpos : 0 < 4 / 3 * Real.pi * (c.dMin / 2) ^ 3 := by
      have := Real.pi_pos
      positivity
    refine ⟨⌈(V * c.volumeFrac + M) / (4 / 3 * Real.pi * (c.dMin / 2) ^ 3)⌉₊ + 1 + n, ?_⟩
    intro missing hm hM rand hrand hlen
    have hsoll : 0 ≤ V * c.volumeFrac + missing := add_nonneg (mul_nonneg hV v3) hm
    obtain ⟨⟨rs, v⟩, rest, h1, used, h2, h3⟩ := takeClass_more c v1 v2 (V * c.volumeFrac + missing) 0
      ⌈(V * c.volumeFrac + M) / (4 / 3 * Real.pi * (c.dMin / 2) ^ 3)⌉₊ rand hrand (by
        have := Nat.le_ceil ((V * c.volumeFrac + M) / (4 / 3 * Real.pi * (c.dMin / 2) ^ 3))
        rw [div_le_iff₀ hpos] at this
        linarith) (by omega)
    obtain ⟨-, a2, a3, -, -⟩ := takeClass_done c v1 v2 _ 0 hsoll rand hrand rs v rest h1
    rw [takeClasses]
    rw [h1]
    dsimp only
    have h4 := hn (V * c.volumeFrac + missing - v) (by linarith) a3 rest
      (fun x hx => hrand x (by rw [h2]; exact List.mem_append_right _ hx)) (by
        have := congrArg List.length h2
        rw [List.length_append] at this
        omega)
    cases hc : takeClasses V cs (V * c.volumeFrac + missing - v) rest with
    | more => exact absurd hc h4
    | done p rest' => exact fun h => by cases h

/-- A grading curve is accepted exactly if it has a class, no class has a smallest diameter above its largest and all
fractions are between zero and one; any other curve is reported with an exception. -/
theorem C68_accepted (curve : List GradingClass) :
    (checkGradingCurve curve = .ok () ↔
      curve ≠ [] ∧ ∀ c ∈ curve, c.dMin ≤ c.dMax ∧ 0 ≤ c.volumeFrac ∧ c.volumeFrac ≤ 1) ∧
    (checkGradingCurve curve = .throw ↔
      curve = [] ∨ ∃ c ∈ curve, c.dMax < c.dMin ∨ c.volumeFrac < 0 ∨ 1 < c.volumeFrac) := by
  unfold checkGradingCurve
  by_cases h : curve.length < 1
  · have : curve = [] := List.eq_nil_of_length_eq_zero (by omega)
    simp [this]
  · have hne : curve ≠ [] := fun e => h (by simp [e])
    rw [if_neg h]
    by_cases hall : ∀ c ∈ curve, c.dMin ≤ c.dMax ∧ 0 ≤ c.volumeFrac ∧ c.volumeFrac ≤ 1
    · rw [if_pos (by simpa using hall)]
      refine ⟨⟨fun _ => ⟨hne, hall⟩, fun _ => rfl⟩, ?_⟩
      constructor
      · intro e; cases e
      · rintro (e | ⟨c, hc, e⟩)
        · exact absurd e hne
        · obtain ⟨h1, h2, h3⟩ := hall c hc
          rcases e with e | e | e <;> linarith
    · rw [if_neg (by simpa using hall)]
      refine ⟨⟨fun e => (nomatch e), fun e => absurd e.2 hall⟩, ⟨fun _ => Or.inr ?_, fun _ => rfl⟩⟩
      push Not at hall
      obtain ⟨c, hc, e⟩ := hall
      refine ⟨c, hc, ?_⟩
      rcases lt_or_ge c.dMax c.dMin with h1 | h1
      · exact Or.inl h1
      · rcases lt_or_ge c.volumeFrac 0 with h2 | h2
        · exact Or.inr (Or.inl h2)
        · exact Or.inr (Or.inr (e h1 h2))

/-- The three kinds of rejected curves and an accepted one exist. -/
example : checkGradingCurve [] = .throw ∧ checkGradingCurve [⟨2, 1, 1⟩] = .throw ∧
    checkGradingCurve [⟨1, 2, 2⟩] = .throw ∧ checkGradingCurve [⟨1, 2, 1⟩] = .ok () :=
  ⟨(C68_accepted _).2.2 (Or.inl rfl), (C68_accepted _).2.2 (Or.inr ⟨_, List.mem_singleton_self _, Or.inl (by norm_num)⟩),
    (C68_accepted _).2.2 (Or.inr ⟨_, List.mem_singleton_self _, Or.inr (Or.inr (by norm_num))⟩),
    (C68_accepted _).1.2 ⟨by simp, by simp⟩⟩

/-- A smallest diameter of zero passes the check of the grading curve but the loop never ends. -/
theorem C68_zero_diameter_counterexample :
    ∃ curve : List GradingClass, checkGradingCurve curve = .ok () ∧
      ∀ rand : List ℝ, (∀ u ∈ rand, 0 ≤ u ∧ u < 1) → takePhase 1 (1 / 2) 0 curve rand = .more := by
  refine ⟨[⟨0, 1, 1⟩], ?_, ?_⟩
  · unfold checkGradingCurve
    rw [if_neg (by simp), if_pos]
    simp
  · intro rand hrand
    have key : ∀ v : ℝ, v = 0 → takeClass ⟨0, 1, 1⟩ (1 * (1 / 2) * 1 + 0) v rand = .more := by
      induction rand with
      | nil => intro v _; rfl
      | cons u us ih =>
        intro v hv
        have hr : radius ⟨0, 1, 1⟩ u = 0 := by simp [radius]
        rw [takeClass]
        rw [hr, hv]
        have hz : (0 : ℝ) + volume 0 = 0 := by simp [volume]
        rw [hz, if_pos (by norm_num), ih (fun x hx => hrand x (List.mem_cons_of_mem _ hx)) 0 rfl]
    unfold takePhase
    rw [takeClasses]
    dsimp only
    rw [key 0 rfl]

/-! ### Examples -/

/-- The hypotheses can be met: the first class of the curve `A16` and a run that takes one particle of diameter 8. -/
example : ∃ (curve : List GradingClass) (radii rest : List ℝ), (∀ c ∈ curve, c.Valid) ∧
    checkGradingCurve curve = .ok () ∧ takePhase 1000 1 0 curve [0, 1] = .done radii rest ∧ radii = [4] := by
  have hr0 : radius ⟨8, 16, 2 / 5⟩ 0 = 4 := by
    have := (C68_diameter_ends ⟨8, 16, 2 / 5⟩ (by norm_num) (by norm_num)).1
    simp only at this
    linarith
  have hr1 : radius ⟨8, 16, 2 / 5⟩ 1 = 8 := by
    have := (C68_diameter_ends ⟨8, 16, 2 / 5⟩ (by norm_num) (by norm_num)).2
    simp only at this
    linarith
  have hpi := Real.pi_gt_three
  have hpi' := Real.pi_lt_four
  refine ⟨[⟨8, 16, 2 / 5⟩], [4], [], ?_, ?_, ?_, rfl⟩
  · intro c hc
    rw [List.mem_singleton] at hc
    rw [hc]
    exact ⟨by norm_num, by norm_num, by norm_num⟩
  · unfold checkGradingCurve
    rw [if_neg (by simp), if_pos]
    simp
    norm_num
  · unfold takePhase
    rw [takeClasses]
    dsimp only
    rw [takeClass]
    rw [hr0, if_pos (by unfold volume; linarith), takeClass]
    rw [hr1, if_neg (by unfold volume; linarith)]
    dsimp only
    rw [takeClasses]
    simp

end NuTo.TakePhase
