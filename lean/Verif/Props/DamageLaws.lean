/-
C36, C37: damage laws and the history variable.
-/
import Verif.Model.Constitutive
import Mathlib.Analysis.Calculus.Deriv.Inv
import Mathlib.Analysis.Calculus.Deriv.MeanValue
import Mathlib.Analysis.SpecialFunctions.ExpDeriv
import Mathlib.Tactic.FieldSimp
import Mathlib.Tactic.Ring
import Mathlib.Tactic.Linarith
import Mathlib.Tactic.Positivity
import Mathlib.Tactic.LinearCombination

namespace NuTo

open Set Filter Topology

/-! ### C37 -/

/-- What a damage law with elastic limit `k0` and upper bound `max` has to satisfy. -/
structure GoodLaw (l : DamageLaw) (k0 bound : ℝ) : Prop where
  /-- no damage up to the elastic limit -/
  elastic : ∀ k, k ≤ k0 → l.damage k = 0
  /-- damage never decreases -/
  mono : Monotone l.damage
  /-- the bounds -/
  bounds : ∀ k, 0 ≤ l.damage k ∧ l.damage k ≤ bound ∧ l.damage k < 1
  /-- no jumps -/
  cont : Continuous l.damage
  /-- `Derivative` is the right derivative everywhere -/
  right : ∀ k, HasDerivWithinAt l.damage (l.derivative k) (Ici k) k
  /-- and therefore the derivative wherever there is one -/
  deriv : ∀ k, DifferentiableAt ℝ l.damage k → HasDerivAt l.damage (l.derivative k) k

/-- A law that is zero below `k0` and `f` above. -/
theorem good_of {l : DamageLaw} {k0 bound : ℝ} {f f' : ℝ → ℝ} (hb : 0 ≤ bound)
    (hl : ∀ k, l.damage k = if k < k0 then 0 else f k)
    (hd : ∀ k, l.derivative k = if k < k0 then 0 else f' k)
    (hf0 : f k0 = 0) (hcont : ContinuousOn f (Ici k0)) (hmono : MonotoneOn f (Ici k0))
    (hbound : ∀ k, k0 ≤ k → f k ≤ bound ∧ f k < 1)
    (hright : ∀ k, k0 ≤ k → HasDerivWithinAt f (f' k) (Ici k) k) : GoodLaw l k0 bound := by
  have hlfun : l.damage = fun k => if k < k0 then 0 else f k := funext hl
  have hright' : ∀ k, HasDerivWithinAt l.damage (l.derivative k) (Ici k) k := by
    intro k
    by_cases hk : k < k0
    · rw [hd, if_pos hk]
      have h : l.damage =ᶠ[𝓝 k] fun _ => 0 := by
        filter_upwards [Iio_mem_nhds hk] with x hx
        rw [hl, if_pos (show x < k0 from hx)]
      exact ((hasDerivAt_const k (0 : ℝ)).congr_of_eventuallyEq h).hasDerivWithinAt
    · rw [hd, if_neg hk]
      refine (hright k (not_lt.1 hk)).congr (fun x hx => ?_) ?_
      · rw [hl, if_neg (not_lt.2 ((not_lt.1 hk).trans hx))]
      · rw [hl, if_neg hk]
  refine ⟨fun k hk => ?_, ?_, fun k => ?_, ?_, hright', fun k hk => ?_⟩
  · rcases hk.lt_or_eq with h | h
    · rw [hl, if_pos h]
    · rw [hl, if_neg (not_lt.2 h.ge), h, hf0]
  · intro x y hxy
    rw [hl, hl]
    by_cases hy : y < k0
    · rw [if_pos hy, if_pos (hxy.trans_lt hy)]
    · rw [if_neg hy]
      by_cases hx : x < k0
      · rw [if_pos hx, ← hf0]
        exact hmono self_mem_Ici (not_lt.1 hy) (not_lt.1 hy)
      · rw [if_neg hx]
        exact hmono (not_lt.1 hx) (not_lt.1 hy) hxy
  · rw [hl]
    split
    · exact ⟨le_rfl, hb, one_pos⟩
    · rename_i h
      have h := not_lt.1 h
      refine ⟨?_, hbound k h⟩
      rw [← hf0]
      exact hmono self_mem_Ici h h
  · rw [hlfun]
    have : (fun k => if k < k0 then 0 else f k) = fun k => if k0 ≤ k then f k else 0 := by
      funext k
      by_cases h : k < k0
      · rw [if_pos h, if_neg (not_le.2 h)]
      · rw [if_neg h, if_pos (not_lt.1 h)]
    rw [this]
    refine continuous_if_le continuous_const continuous_id hcont continuousOn_const ?_
    rintro x hx
    rw [← hx]
    exact hf0
  · have h1 := hk.hasDerivAt
    have h2 := (uniqueDiffWithinAt_Ici k).eq_deriv _ h1.hasDerivWithinAt (hright' k)
    rwa [h2] at h1

/-- C37 for the exponential law. -/
theorem C37_exponential (k0 beta alpha : ℝ) (hk0 : 0 < k0) (hb : 0 ≤ beta) (ha0 : 0 ≤ alpha)
    (ha1 : alpha ≤ 1) : GoodLaw (DamageLaw.exponential k0 beta alpha) k0 1 := by
  set f : ℝ → ℝ := fun k => 1 - k0 / k * (1 - alpha + alpha * Real.exp (beta * (k0 - k)))
  set f' : ℝ → ℝ := fun k => k0 / k *
    ((1 / k + beta) * alpha * Real.exp (beta * (k0 - k)) + (1 - alpha) / k)
  have hderiv : ∀ k, k0 ≤ k → HasDerivAt f (f' k) k := by
    intro k hk
    have hkpos : k ≠ 0 := (hk0.trans_le hk).ne'
    have h1 : HasDerivAt (fun x : ℝ => k0 / x) (-k0 / k ^ 2) k := by
      have := (hasDerivAt_inv hkpos).const_mul k0
      refine this.congr_deriv ?_
      ring
    have h2 : HasDerivAt (fun x : ℝ => Real.exp (beta * (k0 - x)))
        (Real.exp (beta * (k0 - k)) * (beta * -1)) k := by
      have h3 : HasDerivAt (fun x : ℝ => beta * (k0 - x)) (beta * -1) k :=
        ((hasDerivAt_id k).const_sub k0).const_mul beta
      exact h3.exp
    have h4 := (h1.mul ((h2.const_mul alpha).const_add (1 - alpha))).const_sub 1
    refine h4.congr_deriv ?_
    simp only [f']
    field_simp
    ring
  have hf'nonneg : ∀ k, k0 ≤ k → 0 ≤ f' k := by
    intro k hk
    have hkpos : 0 < k := hk0.trans_le hk
    have : 0 ≤ 1 - alpha := by linarith
    positivity
  refine good_of (f := f) (f' := f') zero_le_one (fun k => rfl) (fun k => rfl) ?_ ?_ ?_ ?_ ?_
  · simp only [f, sub_self, mul_zero, Real.exp_zero, mul_one, sub_add_cancel]
    rw [div_self hk0.ne', sub_self]
  · exact fun k hk => (hderiv k hk).continuousAt.continuousWithinAt
  · refine monotoneOn_of_deriv_nonneg (convex_Ici k0)
      (fun k hk => (hderiv k hk).continuousAt.continuousWithinAt)
      (fun k hk => (hderiv k (interior_subset hk)).differentiableAt.differentiableWithinAt)
      (fun k hk => ?_)
    rw [(hderiv k (interior_subset hk)).deriv]
    exact hf'nonneg k (interior_subset hk)
  · intro k hk
    have hkpos : 0 < k := hk0.trans_le hk
    have : 0 < k0 / k * (1 - alpha + alpha * Real.exp (beta * (k0 - k))) := by
      have he := Real.exp_pos (beta * (k0 - k))
      have : 0 < 1 - alpha + alpha * Real.exp (beta * (k0 - k)) := by
        rcases ha0.lt_or_eq with h | h
        · have := mul_pos h he
          linarith
        · rw [← h]; norm_num
      positivity
    simp only [f]
    exact ⟨by linarith, by linarith⟩
  · exact fun k hk => (hderiv k hk).hasDerivWithinAt

/-- C37 for the linear law. -/
theorem C37_linear (k0 kC omegaMax : ℝ) (hk0 : 0 < k0) (hkC : k0 < kC) (hm0 : 0 ≤ omegaMax)
    (hm1 : omegaMax < 1) : GoodLaw (DamageLaw.linear k0 kC omegaMax) k0 omegaMax := by
  set g : ℝ → ℝ := fun k => kC / k * (k - k0) / (kC - k0)
  set g' : ℝ → ℝ := fun k => kC * k0 / (k * k * (kC - k0))
  have hpos : 0 < kC - k0 := by linarith
  have hkC0 : 0 < kC := hk0.trans hkC
  have hderiv : ∀ k, k0 ≤ k → HasDerivAt g (g' k) k := by
    intro k hk
    have hkpos : k ≠ 0 := (hk0.trans_le hk).ne'
    have h1 : HasDerivAt (fun x : ℝ => kC / x) (-kC / k ^ 2) k := by
      have := (hasDerivAt_inv hkpos).const_mul kC
      refine this.congr_deriv ?_
      ring
    have h2 := (h1.mul ((hasDerivAt_id k).sub_const k0)).div_const (kC - k0)
    refine h2.congr_deriv ?_
    simp only [g', id]
    have := hpos.ne'
    field_simp
    ring
  have hmono : MonotoneOn g (Ici k0) := by
    refine monotoneOn_of_deriv_nonneg (convex_Ici k0)
      (fun k hk => (hderiv k hk).continuousAt.continuousWithinAt)
      (fun k hk => (hderiv k (interior_subset hk)).differentiableAt.differentiableWithinAt)
      (fun k hk => ?_)
    have hk' : k0 ≤ k := interior_subset hk
    rw [(hderiv k hk').deriv]
    have : 0 < k := hk0.trans_le hk'
    simp only [g']
    positivity
  have hcont : ContinuousOn g (Ici k0) :=
    fun k hk => (hderiv k hk).continuousAt.continuousWithinAt
  refine good_of (f := fun k => min (g k) omegaMax)
    (f' := fun k => if min (g k) omegaMax < omegaMax then g' k else 0) hm0 (fun k => rfl) ?_ ?_ ?_
    ?_ ?_ ?_
  · intro k
    simp only [DamageLaw.linear]
    by_cases h : k < k0
    · rw [if_pos h, if_pos h]
    · simp only [if_neg h]
      rfl
  · simp only [g, sub_self, mul_zero, zero_div]
    exact min_eq_left hm0
  · exact ContinuousOn.inf hcont continuousOn_const
  · exact fun x hx y hy hxy => min_le_min (hmono hx hy hxy) le_rfl
  · intro k _
    exact ⟨min_le_right _ _, (min_le_right _ _).trans_lt hm1⟩
  · intro k hk
    by_cases h : g k < omegaMax
    · have hlt : min (g k) omegaMax < omegaMax := by rw [min_eq_left h.le]; exact h
      rw [if_pos hlt]
      have hev : (fun x => min (g x) omegaMax) =ᶠ[𝓝 k] g := by
        filter_upwards [(hderiv k hk).continuousAt.eventually_lt continuousAt_const h] with x hx
        exact min_eq_left hx.le
      exact ((hderiv k hk).congr_of_eventuallyEq hev).hasDerivWithinAt
    · have hge := not_lt.1 h
      have heq : min (g k) omegaMax = omegaMax := min_eq_right hge
      rw [if_neg (by rw [heq]; exact lt_irrefl _)]
      refine (hasDerivWithinAt_const k (Ici k) omegaMax).congr (fun x hx => ?_) heq
      exact min_eq_right (hge.trans (hmono hk (hk.trans hx) hx))

/-- C37 for the law without softening. -/
theorem C37_no_softening (k0 : ℝ) (hk0 : 0 < k0) : GoodLaw (DamageLaw.noSoftening k0) k0 1 := by
  have h := C37_exponential k0 0 0 hk0 le_rfl le_rfl zero_le_one
  have e : DamageLaw.noSoftening k0 = DamageLaw.exponential k0 0 0 := by
    rw [DamageLaw.noSoftening, DamageLaw.exponential]
    congr 1
    · funext k; simp
    · funext k
      simp only [zero_mul, mul_zero, add_zero, sub_zero, zero_add]
      split
      · rfl
      · rw [div_mul_div_comm, mul_one]
  rw [e]
  exact h

/-- C37: the material parameters of a softening material give good laws. -/
theorem C37_material (m : Softening ℝ) (hE : 0 < m.E) (hft : 0 < m.ft) (hgf : 0 < m.gf)
    (hmin0 : 0 < m.fMin) (hmin1 : m.fMin ≤ m.ft) :
    GoodLaw (DamageLaw.exponentialOf m) (m.ft / m.E) 1 ∧
    GoodLaw (DamageLaw.linearOf m) (m.ft / m.E) (1 - m.fMin / m.ft) := by
  have h1 : m.fMin / m.ft ≤ 1 := (div_le_one hft).2 hmin1
  have h2 : 0 < m.fMin / m.ft := by positivity
  refine ⟨C37_exponential _ _ _ (by positivity) (by positivity) (by linarith) (by linarith),
    C37_linear _ _ _ (by positivity) ?_ (by linarith) (by linarith)⟩
  have : 0 < 2 * m.gf / m.ft := by positivity
  linarith

/-- C37: the stress-strain curves `σ = (1 - ω(κ)) E κ` of the laws after the peak: exponential
decay to the residual strength `(1 - α) E κ₀`, the straight line from `E κ₀` at `κ₀` to zero at
`κC` (until the residual damage is reached), and the plateau `E κ₀`. -/
theorem C37_softening_curve (E k0 beta alpha kC omegaMax k : ℝ) (hk0 : 0 < k0) (hkC : k0 < kC)
    (hk : k0 ≤ k) :
    (1 - (DamageLaw.exponential k0 beta alpha).damage k) * E * k =
      E * k0 * (1 - alpha + alpha * Real.exp (beta * (k0 - k))) ∧
    ((DamageLaw.linear k0 kC omegaMax).damage k < omegaMax →
      (1 - (DamageLaw.linear k0 kC omegaMax).damage k) * E * k = E * k0 * ((kC - k) / (kC - k0))) ∧
    (1 - (DamageLaw.noSoftening k0).damage k) * E * k = E * k0 := by
  have hkpos : k ≠ 0 := (hk0.trans_le hk).ne'
  have hpos : kC - k0 ≠ 0 := by linarith
  refine ⟨?_, fun h => ?_, ?_⟩
  · simp only [DamageLaw.exponential, if_neg (not_lt.2 hk)]
    field_simp
    ring
  · simp only [DamageLaw.linear, if_neg (not_lt.2 hk)] at h ⊢
    rw [min_eq_left]
    · field_simp
      ring
    · by_contra hcon
      rw [min_eq_right (not_le.1 hcon).le] at h
      exact lt_irrefl _ h
  · simp only [DamageLaw.noSoftening, if_neg (not_lt.2 hk)]
    field_simp
    ring

example : ∃ m : Softening ℝ, 0 < m.E ∧ 0 < m.ft ∧ 0 < m.gf ∧ 0 < m.fMin ∧ m.fMin ≤ m.ft :=
  ⟨{ E := 30000, nu := 1 / 5, ft := 4, fc := 40, gf := 1 / 10, c := 1, fMin := 4 / 100 },
    by norm_num⟩

/-! ### C36 -/

/-- The entries of the history data that exist. -/
def History.InRange (h : History) (c i : Int) : Prop :=
  0 ≤ c ∧ c < h.rows ∧ 0 ≤ i ∧ i < h.cols

theorem History.update_eq (h : History) (eeq : ℝ) (c i : Int) (hr : h.InRange c i) :
    h.update eeq c i = .ok { h with
      val := fun c' i' => if c' = c.toNat ∧ i' = i.toNat then max eeq (h.val c.toNat i.toNat)
        else h.val c' i' } := by
  rw [History.InRange] at hr
  rw [History.update, History.kappa, History.get, if_pos hr]
  simp only [Res.bind_ok, Res.pure_eq, History.set, if_pos hr]

/-- One update per element of the list: equivalent strain, cell and integration point. -/
noncomputable def History.run (h : History) (ups : List (ℝ × Int × Int)) : Res History :=
  Res.foldlM (fun h' u => h'.update u.1 u.2.1 u.2.2) h ups

/-- The equivalent strains of a history that belong to one integration point. -/
def seen (ups : List (ℝ × Int × Int)) (c i : Int) : List ℝ :=
  (ups.filter fun u => u.2.1 = c ∧ u.2.2 = i).map Prod.fst

/-- The history data after one update. -/
noncomputable def History.updated (h : History) (eeq : ℝ) (c i : Int) : History :=
  { h with
    val := fun c' i' => if c' = c.toNat ∧ i' = i.toNat then max eeq (h.val c.toNat i.toNat)
      else h.val c' i' }

/-- C36: for every sequence of updates within the allocated size the history variable of every
integration point is the maximum of its initial value and all equivalent strains seen at this
point; other points are not touched, the size does not change. -/
theorem C36_maximum (h : History) (ups : List (ℝ × Int × Int))
    (hr : ∀ u ∈ ups, h.InRange u.2.1 u.2.2) :
    ∃ h', h.run ups = .ok h' ∧ h'.rows = h.rows ∧ h'.cols = h.cols ∧
      ∀ c i : Nat, h'.val c i = (seen ups c i).foldl max (h.val c i) := by
  induction ups generalizing h with
  | nil => exact ⟨h, rfl, rfl, rfl, fun _ _ => rfl⟩
  | cons u ups ih =>
    have hu := hr u List.mem_cons_self
    have hstep : h.update u.1 u.2.1 u.2.2 = .ok (h.updated u.1 u.2.1 u.2.2) :=
      History.update_eq h u.1 u.2.1 u.2.2 hu
    obtain ⟨h', hrun, hrows, hcols, hval⟩ := ih (h.updated u.1 u.2.1 u.2.2) (fun w hw =>
      hr w (List.mem_cons_of_mem _ hw))
    refine ⟨h', ?_, hrows, hcols, fun c i => ?_⟩
    · rw [History.run, Res.foldlM_cons, hstep, Res.bind_ok']
      exact hrun
    · rw [hval, History.updated, seen, seen, List.filter_cons]
      have hc := hu.1
      have hi := hu.2.2.1
      by_cases hci : u.2.1 = (c : Int) ∧ u.2.2 = (i : Int)
      · have hn : c = u.2.1.toNat ∧ i = u.2.2.toNat := by omega
        simp only [hci, and_self, decide_true, if_true, List.map_cons, List.foldl_cons]
        simp only [hn, Int.toNat_natCast, and_self, if_true]
        rw [max_comm]
      · have hn : ¬(c = u.2.1.toNat ∧ i = u.2.2.toNat) := by omega
        simp only [hci, decide_false, hn, if_false, Bool.false_eq_true]

theorem le_foldl_max (l : List ℝ) (x : ℝ) :
    x ≤ l.foldl max x ∧ (∀ y ∈ l, y ≤ l.foldl max x) ∧ (l.foldl max x = x ∨ l.foldl max x ∈ l) := by
  induction l generalizing x with
  | nil => exact ⟨le_rfl, by simp, Or.inl rfl⟩
  | cons a l ih =>
    obtain ⟨h1, h2, h3⟩ := ih (max x a)
    rw [List.foldl_cons]
    refine ⟨(le_max_left _ _).trans h1, fun y hy => ?_, ?_⟩
    · rcases List.mem_cons.1 hy with rfl | hy
      · exact (le_max_right _ _).trans h1
      · exact h2 y hy
    · rcases h3 with h3 | h3
      · rcases max_choice x a with h | h
        · left; rw [h3, h]
        · right; rw [h3, h]; exact List.mem_cons_self
      · right; exact List.mem_cons_of_mem _ h3

/-- C36: along any history the history variable never decreases, dominates all equivalent strains
seen and is its initial value or one of them. -/
theorem C36_monotone (h h' : History) (ups : List (ℝ × Int × Int))
    (hr : ∀ u ∈ ups, h.InRange u.2.1 u.2.2) (hrun : h.run ups = .ok h') (c i : Nat) :
    h.val c i ≤ h'.val c i ∧ (∀ u ∈ ups, u.2 = ((c : Int), (i : Int)) → u.1 ≤ h'.val c i) ∧
    (h'.val c i = h.val c i ∨ ∃ u ∈ ups, u.2 = ((c : Int), (i : Int)) ∧ h'.val c i = u.1) := by
  obtain ⟨h'', hrun', _, _, hval⟩ := C36_maximum h ups hr
  rw [hrun] at hrun'
  cases hrun'
  rw [hval]
  obtain ⟨h1, h2, h3⟩ := le_foldl_max (seen ups c i) (h.val c i)
  have hmem : ∀ y, y ∈ seen ups c i ↔ ∃ u ∈ ups, u.2 = ((c : Int), (i : Int)) ∧ u.1 = y := by
    intro y
    simp only [seen, List.mem_map, List.mem_filter, decide_eq_true_eq, Prod.ext_iff]
    constructor
    · rintro ⟨u, ⟨hu, h⟩, rfl⟩; exact ⟨u, hu, h, rfl⟩
    · rintro ⟨u, hu, h, rfl⟩; exact ⟨u, ⟨hu, h⟩, rfl⟩
  refine ⟨h1, fun u hu he => h2 _ ((hmem _).2 ⟨u, hu, he, rfl⟩), ?_⟩
  rcases h3 with h3 | h3
  · exact Or.inl h3
  · obtain ⟨u, hu, he, hy⟩ := (hmem _).1 h3
    exact Or.inr ⟨u, hu, he, hy.symm⟩

/-- C36: repeating an update changes nothing. -/
theorem C36_idempotent (h h1 : History) (eeq : ℝ) (c i : Int)
    (hu : h.update eeq c i = .ok h1) : h1.update eeq c i = .ok h1 := by
  by_cases hr : h.InRange c i
  · rw [History.update_eq h eeq c i hr] at hu
    cases hu
    refine (History.update_eq (h.updated eeq c i) eeq c i hr).trans ?_
    simp only [History.updated]
    congr 2
    funext c' i'
    by_cases hci : c' = c.toNat ∧ i' = i.toNat
    · simp only [hci, and_self, if_true, ← max_assoc, max_self]
    · simp only [hci, if_false]
  · rw [History.InRange] at hr
    rw [History.update, History.kappa, History.get, if_neg hr] at hu
    cases hu

/-- C36: the damage computed from the history variable never decreases along any history and stays
in `[0, 1)`. -/
theorem C36_damage (l : DamageLaw) (k0 bound : ℝ) (hl : GoodLaw l k0 bound) (h h' : History)
    (ups : List (ℝ × Int × Int)) (hr : ∀ u ∈ ups, h.InRange u.2.1 u.2.2)
    (hrun : h.run ups = .ok h') (c i : Nat) :
    l.damage (h.val c i) ≤ l.damage (h'.val c i) ∧ 0 ≤ l.damage (h'.val c i) ∧
      l.damage (h'.val c i) < 1 :=
  ⟨hl.mono (C36_monotone h h' ups hr hrun c i).1, (hl.bounds _).1, (hl.bounds _).2.2⟩

/-- C36: an index outside of the allocated history data is undefined behaviour. -/
theorem C36_out_of_range (h : History) (eeq : ℝ) (c i : Int) :
    h.update eeq c i = .ub ↔ ¬ h.InRange c i := by
  by_cases hr : h.InRange c i
  · rw [History.update_eq h eeq c i hr]
    simp [hr]
  · rw [History.InRange] at hr
    rw [History.update, History.kappa, History.get, if_neg hr]
    simp [History.InRange, hr]

/-- C36 for the local damage law: `Update` stores exactly the `Kappa` used by `Stress`, so stress
evaluations before and after the update of the same strain agree. -/
theorem C36_local {n : Nat} (l l1 : LocalDamage n) (strain : Fin n → ℝ) (c i : Int)
    (hu : l.update strain c i = .ok l1) : l1.stress strain c i = l.stress strain c i := by
  by_cases hr : l.history.InRange c i
  · rw [LocalDamage.update, History.update_eq _ _ c i hr, Res.bind_ok, Res.pure_eq] at hu
    cases hu
    have hr' := hr
    rw [History.InRange] at hr'
    simp only [LocalDamage.stress, History.kappa, History.get, if_pos hr', Res.bind_ok, Res.pure_eq,
      and_self, if_true, ← max_assoc, max_self]
  · rw [LocalDamage.update, (C36_out_of_range _ _ c i).2 hr] at hu
    cases hu

example : ∃ (h : History) (ups : List (ℝ × Int × Int)), ups.length = 3 ∧
    ∀ u ∈ ups, h.InRange u.2.1 u.2.2 := by
  refine ⟨.resize 2 4, [(1, 0, 3), (2, 1, 0), (1 / 2, 0, 3)], rfl, ?_⟩
  simp [History.InRange, History.resize]

end NuTo
