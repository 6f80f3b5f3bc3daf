/-
C62: the tangent of the local damage law is the derivative of its stress.
-/
import Verif.Props.ElasticDamage
import Verif.Props.DamageLaws
import Verif.Props.MisesNorm

namespace NuTo

open Filter Topology

/-- The gradient with the given components. -/
noncomputable def grad {n : Nat} (d : Fin n → ℝ) : (Fin n → ℝ) →L[ℝ] ℝ :=
  ∑ i, d i • (ContinuousLinearMap.proj i : (Fin n → ℝ) →L[ℝ] ℝ)

theorem grad_apply {n : Nat} (d h : Fin n → ℝ) : grad d h = ∑ i, d i * h i := by
  simp [grad]

theorem volumetric_eq {n : Nat} (l : LinearElasticDamage ℝ n) (e : Fin n → ℝ) :
    l.volumetric e = grad (fun j => 1 / 3 * l.mD2 j) e := by
  rw [grad_apply, LinearElasticDamage.volumetric, Finset.mul_sum]
  simp only [mul_assoc]

/-- The volumetric strain does not change its sign near `e` (or the sign is not used). -/
def LinearElasticDamage.Smooth {n : Nat} (l : LinearElasticDamage ℝ n) (e : Fin n → ℝ) : Prop :=
  l.application = .unilateral → l.volumetric e ≠ 0

theorem H_eventually {n : Nat} (l : LinearElasticDamage ℝ n) (e : Fin n → ℝ) (hs : l.Smooth e) :
    ∀ᶠ x in 𝓝 e, l.H (l.volumetric x) = l.H (l.volumetric e) := by
  by_cases ha : l.application = .unilateral
  · have hc : ContinuousAt l.volumetric e := by
      have : l.volumetric = grad (fun j => 1 / 3 * l.mD2 j) := funext (volumetric_eq l)
      rw [this]
      exact (grad _).continuous.continuousAt
    rcases lt_or_gt_of_ne (hs ha) with h | h
    · filter_upwards [hc.eventually_lt continuousAt_const h] with x hx
      rw [LinearElasticDamage.H, LinearElasticDamage.H, if_pos ha, if_pos ha, if_pos hx, if_pos h]
    · filter_upwards [continuousAt_const.eventually_lt hc h] with x hx
      rw [LinearElasticDamage.H, LinearElasticDamage.H, if_pos ha, if_pos ha,
        if_neg (not_lt.2 hx.le), if_neg (not_lt.2 h.le)]
  · filter_upwards with x
    rw [LinearElasticDamage.H, LinearElasticDamage.H, if_neg ha, if_neg ha]

/-- The stress with a strain dependent damage. -/
theorem stress_hasFDerivAt {n : Nat} (dim : Nat) (E nu : ℝ) (app : DamageApplication)
    (ps : PlaneState) (e : Fin n → ℝ) (w : (Fin n → ℝ) → ℝ) (w' : Fin n → ℝ)
    (hw : HasFDerivAt w (grad w') e) (l : LinearElasticDamage ℝ n)
    (hl : l = LinearElasticDamage.make dim n E nu app ps) (hs : l.Smooth e) (i : Fin n) :
    HasFDerivAt (fun x => l.stress x (w x) i)
      (grad fun j => l.dStressDStrain e (w e) i j + l.dStressDOmega e i * w' j) e := by
  set V := grad (fun j => 1 / 3 * l.mD2 j) with hV
  have hvol : ∀ x, l.volumetric x = V x := volumetric_eq l
  set Hc := l.H (l.volumetric e) with hHc
  have hVd : HasFDerivAt (fun x => V x) V e := V.hasFDerivAt
  have hxi : HasFDerivAt (fun x : Fin n → ℝ => x i)
    (ContinuousLinearMap.proj i : (Fin n → ℝ) →L[ℝ] ℝ) e := hasFDerivAt_apply i e
  have h1 : HasFDerivAt (fun x => l.mD i * ((1 - w x * Hc) * l.m3K * V x) +
      (1 - w x) * l.m2G * l.mPinvDiag i * (x i - l.mD i * V x)) _ e :=
    ((((((hw.mul_const Hc).const_sub 1).mul_const l.m3K).mul hVd).const_mul (l.mD i)).add
      ((((hw.const_sub 1).mul_const l.m2G).mul_const (l.mPinvDiag i)).mul
        (hxi.sub (hVd.const_mul (l.mD i)))))
  have hev : (fun x => l.stress x (w x) i) =ᶠ[𝓝 e] fun x =>
      l.mD i * ((1 - w x * Hc) * l.m3K * V x) +
      (1 - w x) * l.m2G * l.mPinvDiag i * (x i - l.mD i * V x) := by
    filter_upwards [H_eventually l e hs] with x hx
    rw [LinearElasticDamage.stress]
    dsimp only
    rw [hx, hvol x]
  refine (h1.congr_of_eventuallyEq hev).congr_fderiv ?_
  ext h
  have htan := tangent_apply dim E nu (w e) app ps e h i
  dsimp only at htan
  rw [← hl] at htan
  have hsplit : ∑ j, (l.dStressDStrain e (w e) i j + l.dStressDOmega e i * w' j) * h j =
      ∑ j, l.dStressDStrain e (w e) i j * h j + ∑ j, l.dStressDOmega e i * w' j * h j := by
    rw [← Finset.sum_add_distrib]
    exact Finset.sum_congr rfl fun j _ => add_mul _ _ _
  refine Eq.trans ?_ ((grad_apply (fun j => l.dStressDStrain e (w e) i j +
    l.dStressDOmega e i * w' j) h).trans hsplit).symm
  rw [htan]
  have hww : ∑ j, l.dStressDOmega e i * w' j * h j = l.dStressDOmega e i * grad w' h := by
    rw [grad_apply, Finset.mul_sum]
    simp only [mul_assoc]
  rw [hww, LinearElasticDamage.dStressDOmega]
  have hHV : l.H (V e) = Hc := by rw [hHc, hvol]
  simp only [hvol, hHV]
  simp
  ring

/-- C62: wherever the strain norm, the damage law and the unilateral switch are differentiable and
the state is not exactly at the loading threshold, `Tangent` is the derivative of `Stress`. -/
theorem C62_local {n : Nat} (dim : Nat) (E nu : ℝ) (app : DamageApplication) (ps : PlaneState)
    (l : LocalDamage n) (hl : l.elastic = LinearElasticDamage.make dim n E nu app ps)
    (k0 bound : ℝ) (hlaw : GoodLaw l.law k0 bound) (e : Fin n → ℝ) (c i : Int)
    (hr : l.history.InRange c i) (hs : l.elastic.Smooth e)
    (hthr : l.norm e ≠ l.history.val c.toNat i.toNat)
    (hnorm : l.history.val c.toNat i.toNat < l.norm e →
      HasFDerivAt l.norm (grad (l.dNorm e)) e ∧ DifferentiableAt ℝ l.law.damage (l.norm e))
    (hcont : ContinuousAt l.norm e) :
    ∃ (sigma : (Fin n → ℝ) → Fin n → ℝ) (T : Matrix (Fin n) (Fin n) ℝ),
      (∀ x, l.stress x c i = .ok (sigma x)) ∧ l.tangent e c i = .ok T ∧
      ∀ a, HasFDerivAt (fun x => sigma x a) (grad (T a)) e := by
  have hr' := hr
  rw [History.InRange] at hr'
  set old := l.history.val c.toNat i.toNat with hold
  have hk : ∀ x, l.history.kappa x c i = .ok (max x old) := by
    intro x
    rw [History.kappa, History.get, if_pos hr']
    rfl
  have hget : l.history.get c i = .ok old := by rw [History.get, if_pos hr']
  set w : (Fin n → ℝ) → ℝ := fun x => l.law.damage (max (l.norm x) old) with hw
  set w' : Fin n → ℝ := fun j => l.law.derivative (max (l.norm e) old) *
    (if l.norm e ≥ old then l.dNorm e else fun _ => 0) j with hw'
  have hwd : HasFDerivAt w (grad w') e := by
    rcases lt_or_gt_of_ne hthr with h | h
    · have hev : w =ᶠ[𝓝 e] fun _ => l.law.damage old := by
        filter_upwards [hcont.eventually_lt continuousAt_const h] with x hx
        rw [hw]
        dsimp only
        rw [max_eq_right hx.le]
      have h0 : grad w' = 0 := by
        ext x
        rw [grad_apply, hw']
        simp only [if_neg (not_le.2 h), mul_zero, zero_mul, Finset.sum_const_zero,
          zero_apply]
      rw [h0]
      exact (hasFDerivAt_const _ e).congr_of_eventuallyEq hev
    · obtain ⟨h1, h2⟩ := hnorm h
      have hev : w =ᶠ[𝓝 e] fun x => l.law.damage (l.norm x) := by
        filter_upwards [continuousAt_const.eventually_lt hcont h] with x hx
        rw [hw]
        dsimp only
        rw [max_eq_left hx.le]
      have h3 := (hlaw.deriv _ h2).comp_hasFDerivAt e h1
      refine (h3.congr_of_eventuallyEq hev).congr_fderiv ?_
      ext x
      rw [grad_apply, hw']
      simp only [if_pos h.le, max_eq_left h.le, smul_apply, smul_eq_mul]
      rw [grad_apply, Finset.mul_sum]
      simp only [mul_assoc]
  refine ⟨fun x => l.elastic.stress x (w x), fun a j => l.elastic.dStressDStrain e (w e) a j +
    l.elastic.dStressDOmega e a * w' j, fun x => ?_, ?_, fun a => ?_⟩
  · rw [LocalDamage.stress, hk]
    rfl
  · rw [LocalDamage.tangent, hk, LocalDamage.dKappaDStrain, hget]
    simp only [Res.bind_ok, Res.pure_eq, hw, hw', mul_assoc]
    rfl
  · exact stress_hasFDerivAt dim E nu app ps e w w' hwd l.elastic hl hs a

/-- C62 for the law as constructed from a softening material in 3D: all strains that are not
volumetric, not at the loading threshold and not at the elastic limit. -/
theorem C62_softening3D (m : Softening ℝ) (hE : 0 < m.E) (hft : 0 < m.ft) (hgf : 0 < m.gf)
    (hmin0 : 0 < m.fMin) (hmin1 : m.fMin ≤ m.ft) (h : History) (app : DamageApplication)
    (l : LocalDamage 6)
    (hl : l = { elastic := LinearElasticDamage.ofSoftening 3 6 m app
                law := DamageLaw.exponentialOf m
                norm := (MisesNorm.ofSoftening m).value3
                dNorm := (MisesNorm.ofSoftening m).derivative3
                history := h })
    (hadm : MisesNorm.Admissible m.nu (m.fc / m.ft)) (e : Fin 6 → ℝ) (c i : Int)
    (hr : h.InRange c i) (hv : app = .unilateral → e 0 + e 1 + e 2 ≠ 0)
    (hJ : StrainInvariants.J2 e ≠ 0)
    (hthr : (MisesNorm.ofSoftening m).value3 e ≠ h.val c.toNat i.toNat)
    (hk0 : (MisesNorm.ofSoftening m).value3 e ≠ m.ft / m.E) :
    ∃ (sigma : (Fin 6 → ℝ) → Fin 6 → ℝ) (T : Matrix (Fin 6) (Fin 6) ℝ),
      (∀ x, l.stress x c i = .ok (sigma x)) ∧ l.tangent e c i = .ok T ∧
      ∀ a, HasFDerivAt (fun x => sigma x a) (grad (T a)) e := by
  subst hl
  have hA : (MisesNorm.ofSoftening m).A e ≠ 0 := fun h0 =>
    hJ ((C38_singular hadm .planeStrain e).1 h0).1
  have hd := C38_derivative3 (MisesNorm.ofSoftening m) e hA
  have hgood := (C37_material m hE hft hgf hmin0 hmin1).1
  refine C62_local 3 m.E m.nu app m.planeState _ rfl _ _ hgood e c i hr ?_ hthr (fun _ => ⟨hd, ?_⟩)
    hd.continuousAt
  · intro ha h0
    refine hv ha ?_
    have hv' : (LinearElasticDamage.ofSoftening 3 6 m app).volumetric e =
        1 / 3 * (e 0 + e 1 + e 2) := by
      simp [LinearElasticDamage.volumetric, LinearElasticDamage.ofSoftening,
        LinearElasticDamage.make, Fin.sum_univ_six]
    rw [hv'] at h0
    linarith
  · show DifferentiableAt ℝ (DamageLaw.exponentialOf m).damage ((MisesNorm.ofSoftening m).value3 e)
    set k := (MisesNorm.ofSoftening m).value3 e
    have hpos : 0 < m.ft / m.E := by positivity
    rcases lt_or_gt_of_ne hk0 with hlt | hgt
    · have hev : (DamageLaw.exponentialOf m).damage =ᶠ[𝓝 k] fun _ => 0 := by
        filter_upwards [Iio_mem_nhds hlt] with x hx
        exact hgood.elastic x (le_of_lt hx)
      exact (differentiableAt_const _).congr_of_eventuallyEq hev
    · have hev : (DamageLaw.exponentialOf m).damage =ᶠ[𝓝 k] fun x => 1 - m.ft / m.E / x *
          (1 - (1 - m.fMin / m.ft) + (1 - m.fMin / m.ft) *
            Real.exp (m.ft / m.gf * (m.ft / m.E - x))) := by
        filter_upwards [Ioi_mem_nhds hgt] with x hx
        simp only [DamageLaw.exponentialOf, DamageLaw.exponential]
        rw [if_neg (not_lt.2 (le_of_lt hx))]
      have hk : k ≠ 0 := (hpos.trans hgt).ne'
      refine DifferentiableAt.congr_of_eventuallyEq ?_ hev
      fun_prop (disch := assumption)

example : ∃ (m : Softening ℝ) (e : Fin 6 → ℝ), 0 < m.E ∧ 0 < m.ft ∧ 0 < m.gf ∧ 0 < m.fMin ∧
    m.fMin ≤ m.ft ∧ MisesNorm.Admissible m.nu (m.fc / m.ft) ∧ e 0 + e 1 + e 2 ≠ 0 ∧
    StrainInvariants.J2 e ≠ 0 ∧ (MisesNorm.ofSoftening m).value3 e ≠ 0 ∧
    (MisesNorm.ofSoftening m).value3 e ≠ m.ft / m.E := by
  have hadm : MisesNorm.Admissible (1 / 5) (40 / 4) := ⟨by norm_num, by norm_num, by norm_num⟩
  have h1 : (MisesNorm.make (1 / 5) (40 / 4) .planeStrain).value3 (uniaxial (1 / 5) 1) = 1 :=
    (C38_calibrated hadm .planeStrain 1 zero_le_one).1
  refine ⟨{ E := 30000, nu := 1 / 5, ft := 4, fc := 40, gf := 1 / 10, c := 1, fMin := 4 / 100 },
    uniaxial (1 / 5) 1, by norm_num, by norm_num, by norm_num, by norm_num, by norm_num, hadm,
    by simp [uniaxial]; norm_num, by simp [uniaxial, StrainInvariants.J2]; norm_num, ?_, ?_⟩
  · exact ne_of_eq_of_ne h1 one_ne_zero
  · exact ne_of_eq_of_ne h1 (by norm_num)

end NuTo
