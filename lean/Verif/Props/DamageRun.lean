/-
C107: a structure with local damage delivers no more energy than is stored in it.
-/
import Verif.Model.DamageRun
import Verif.Props.ElasticStep
import Verif.Props.LocalDamage

namespace NuTo

open Assembly Finset Balance ElasticStep

namespace DamageRun

/-! ### Specification -/

/-- Work of the forces `f` on the displacements `u`. -/
def work (n : Nat) (f u : List ℝ) : ℝ := ∑ i ∈ range n, f.getD i 0 * u.getD i 0

/-- Work of the internal forces along the steps, each of them with the forces at its end: `x` are displacements and forces at
the begin. -/
def totalWork (n : Nat) : List ℝ × List ℝ → List (List ℝ × List ℝ) → ℝ
  | _, [] => 0
  | x, y :: t => (∑ i ∈ range n, y.2.getD i 0 * (y.1.getD i 0 - x.1.getD i 0)) + totalWork n y t

/-- Admissible parameters of the law. -/
structure Law (dim : Nat) (l : LocalDamage (voigtSize dim)) : Prop where
  dim1 : 1 ≤ dim
  dim3 : dim ≤ 3
  elastic : ∃ E nu app ps, l.elastic = LinearElasticDamage.make dim (voigtSize dim) E nu app ps ∧ 0 < E ∧ -1 < nu ∧ nu < 1 / 2
  mono : Monotone l.law.damage
  bounds : ∀ k, 0 ≤ l.law.damage k ∧ l.law.damage k ≤ 1

/-- The cells, their weights and the size of the history data. -/
structure Mesh (dim n : Nat) (h : History) (cells : List (Cell × FemElement ℝ)) : Prop where
  body : ∀ x ∈ cells, Body dim n x
  weights : ∀ x ∈ cells, ∀ pts, x.1.Points pts → ∀ p ∈ pts, 0 ≤ p.2.jacobian.det * p.1
  history : ∀ x ∈ cells, ∀ pts, x.1.Points pts → ∀ p ∈ pts, h.InRange p.2.cellId p.2.ipId

/-! ### The law -/

/-- the stress times another strain -/
noncomputable def power {N : Nat} (l : LinearElasticDamage ℝ N) (e : Fin N → ℝ) (w : ℝ) (d : Fin N → ℝ) : ℝ :=
  ∑ i, l.stress e w i * d i

/-- What the inequality needs of a law: the stress comes from a volumetric and a deviatoric part. -/
structure Split {N : Nat} (l : LinearElasticDamage ℝ N) (T : (Fin N → ℝ) → ℝ) (D : (Fin N → ℝ) → (Fin N → ℝ) → ℝ) (k g : ℝ) :
    Prop where
  k0 : 0 ≤ k
  g0 : 0 ≤ g
  power : ∀ e w d, DamageRun.power l e w d = (1 - w * l.H (T e)) * k * T e * T d + (1 - w) * g * D e d
  T_sub : ∀ a b, T (fun i => a i - b i) = T a - T b
  D_sub : ∀ a b c, D a (fun i => b i - c i) = D a b - D a c
  D_sub' : ∀ a b c, D (fun i => a i - b i) c = D a c - D b c
  symm : ∀ a b, D a b = D b a
  nonneg : ∀ a, 0 ≤ D a a

theorem H_cases {N : Nat} (l : LinearElasticDamage ℝ N) (t : ℝ) :
    l.H t = 0 ∨ l.H t = 1 := by
  unfold LinearElasticDamage.H
  split
  · split <;> simp
  · simp

/-- The volumetric part. -/
theorem volume_step {N : Nat} (l : LinearElasticDamage ℝ N) (t0 t1 w0 w1 : ℝ) (h0 : 0 ≤ w0) (h01 : w0 ≤ w1) (h1 : w1 ≤ 1) :
    (1 - w1 * l.H t1) * t1 ^ 2 / 2 - (1 - w0 * l.H t0) * t0 ^ 2 / 2 ≤ (1 - w1 * l.H t1) * t1 * (t1 - t0) := by
  have key : ∀ a b : ℝ, 0 ≤ a → a ≤ b → a * t1 ^ 2 / 2 - b * t0 ^ 2 / 2 ≤ a * t1 * (t1 - t0) := by
    intro a b ha hab
    nlinarith [mul_nonneg ha (sq_nonneg (t1 - t0)), mul_nonneg (sub_nonneg.2 hab) (sq_nonneg t0)]
  have opp : ∀ a b : ℝ, 0 ≤ a → 0 ≤ b → t1 * t0 ≤ 0 → a * t1 ^ 2 / 2 - b * t0 ^ 2 / 2 ≤ a * t1 * (t1 - t0) := by
    intro a b ha hb ht
    nlinarith [mul_nonneg ha (sq_nonneg t1), mul_nonneg hb (sq_nonneg t0), mul_nonneg ha (neg_nonneg.2 ht)]
  unfold LinearElasticDamage.H
  by_cases ha : l.application = .unilateral
  · rw [if_pos ha, if_pos ha]
    by_cases h2 : t1 < 0
    · by_cases h3 : t0 < 0
      · rw [if_pos h2, if_pos h3]
        exact key _ _ (by linarith) (by linarith)
      · rw [if_pos h2, if_neg h3]
        exact opp _ _ (by linarith) (by linarith) (mul_nonpos_of_nonpos_of_nonneg h2.le (not_lt.1 h3))
    · by_cases h3 : t0 < 0
      · rw [if_neg h2, if_pos h3]
        exact opp _ _ (by linarith) (by linarith) (mul_nonpos_of_nonneg_of_nonpos (not_lt.1 h2) h3.le)
      · rw [if_neg h2, if_neg h3]
        exact key _ _ (by linarith) (by linarith)
  · rw [if_neg ha, if_neg ha]
    exact key _ _ (by linarith) (by linarith)

theorem Split.step {N : Nat} {l : LinearElasticDamage ℝ N} {T : (Fin N → ℝ) → ℝ} {D : (Fin N → ℝ) → (Fin N → ℝ) → ℝ}
    {k g : ℝ} (h : Split l T D k g) (e0 e1 : Fin N → ℝ) (w0 w1 : ℝ) (h0 : 0 ≤ w0) (h01 : w0 ≤ w1) (h1 : w1 ≤ 1) :
    DamageRun.power l e1 w1 e1 / 2 - DamageRun.power l e0 w0 e0 / 2 ≤ DamageRun.power l e1 w1 fun i => e1 i - e0 i := by
  rw [h.power, h.power, h.power, h.T_sub, h.D_sub]
  have hv := mul_le_mul_of_nonneg_left (volume_step l (T e0) (T e1) w0 w1 h0 h01 h1) h.k0
  have hd : 0 ≤ D (fun i => e1 i - e0 i) fun i => e1 i - e0 i := h.nonneg _
  rw [h.D_sub, h.D_sub', h.D_sub', h.symm e0 e1] at hd
  have hd1 := mul_nonneg (mul_nonneg (sub_nonneg.2 h1) h.g0) hd
  have hd2 := mul_nonneg (mul_nonneg (sub_nonneg.2 h01) h.g0) (h.nonneg e0)
  nlinarith

theorem Split.nonneg' {N : Nat} {l : LinearElasticDamage ℝ N} {T : (Fin N → ℝ) → ℝ} {D : (Fin N → ℝ) → (Fin N → ℝ) → ℝ}
    {k g : ℝ} (h : Split l T D k g) (e : Fin N → ℝ) (w : ℝ) (h0 : 0 ≤ w) (h1 : w ≤ 1) : 0 ≤ DamageRun.power l e w e := by
  rw [h.power]
  have hH : 0 ≤ 1 - w * l.H (T e) := by
    rcases H_cases l (T e) with h2 | h2 <;> rw [h2] <;> linarith
  have a := mul_nonneg (mul_nonneg hH h.k0) (mul_self_nonneg (T e))
  have b := mul_nonneg (mul_nonneg (sub_nonneg.2 h1) h.g0) (h.nonneg e)
  nlinarith

/-- sum of the normal strains -/
def trace (dim : Nat) {N : Nat} (e : Fin N → ℝ) : ℝ := ∑ i, (if i.val < dim then 1 else 0) * e i

theorem trace_sub (dim : Nat) {N : Nat} (a b : Fin N → ℝ) : trace dim (fun i => a i - b i) = trace dim a - trace dim b := by
  rw [trace, trace, trace, ← sum_sub_distrib]
  exact sum_congr rfl fun i _ => by ring

/-- scalar product with half of the shear strains -/
noncomputable def halfShear (dim : Nat) {N : Nat} (a b : Fin N → ℝ) : ℝ :=
  ∑ i : Fin N, (if i.val < dim then 1 else 1 / 2) * a i * b i

theorem halfShear_sub (dim : Nat) {N : Nat} (a b c : Fin N → ℝ) :
    halfShear dim a (fun i => b i - c i) = halfShear dim a b - halfShear dim a c := by
  rw [halfShear, halfShear, halfShear, ← sum_sub_distrib]
  exact sum_congr rfl fun i _ => by ring

theorem halfShear_symm (dim : Nat) {N : Nat} (a b : Fin N → ℝ) : halfShear dim a b = halfShear dim b a := by
  rw [halfShear, halfShear]
  exact sum_congr rfl fun i _ => by ring

/-- the factor of the volumetric strain in plane stress -/
noncomputable def factor (dim : Nat) (nu : ℝ) (ps : PlaneState) : ℝ :=
  if dim = 2 ∧ ps = .planeStress then 1 + nu / (nu - 1) else 1

theorem factor_bounds (dim : Nat) (nu : ℝ) (ps : PlaneState) (h1 : -1 < nu) (h2 : nu < 1 / 2) :
    0 < factor dim nu ps ∧ (dim = 2 → factor dim nu ps ≤ 3 / 2) ∧ (dim ≠ 2 → factor dim nu ps = 1) := by
  unfold factor
  have hn : nu - 1 < 0 := by linarith
  have he : 1 + nu / (nu - 1) = (1 - 2 * nu) / (1 - nu) := by
    rw [eq_div_iff (by linarith)]
    have : nu / (nu - 1) * (nu - 1) = nu := div_mul_cancel₀ _ hn.ne
    linear_combination -this
  split
  · rename_i h
    rw [he]
    refine ⟨div_pos (by linarith) (by linarith), fun _ => ?_, fun h' => absurd h.1 h'⟩
    rw [div_le_iff₀ (by linarith)]
    linarith
  · exact ⟨one_pos, fun _ => by norm_num, fun _ => rfl⟩

theorem deviator1 (a : Fin 1 → ℝ) : 0 ≤ halfShear 1 a a - 1 / 3 * (trace 1 a * trace 1 a) := by
  simp only [halfShear, trace, Fin.sum_univ_one, Fin.val_zero, zero_lt_one, if_true, one_mul]
  nlinarith [mul_self_nonneg (a 0)]

theorem deviator2 (c : ℝ) (hc : c ≤ 3 / 2) (a : Fin 3 → ℝ) : 0 ≤ halfShear 2 a a - c / 3 * (trace 2 a * trace 2 a) := by
  have h1 : halfShear 2 a a = a 0 * a 0 + a 1 * a 1 + 1 / 2 * (a 2 * a 2) := by
    simp [halfShear, Fin.sum_univ_three, mul_assoc]
  have h2 : trace 2 a = a 0 + a 1 := by simp [trace, Fin.sum_univ_three]
  rw [h1, h2]
  have h4 := mul_nonneg (sub_nonneg.2 hc) (mul_self_nonneg (a 0 + a 1))
  nlinarith [mul_self_nonneg (a 2), mul_self_nonneg (a 0 - a 1)]

theorem deviator3 (a : Fin 6 → ℝ) : 0 ≤ halfShear 3 a a - 1 / 3 * (trace 3 a * trace 3 a) := by
  have h1 : halfShear 3 a a = a 0 * a 0 + a 1 * a 1 + a 2 * a 2 + 1 / 2 * (a 3 * a 3 + a 4 * a 4 + a 5 * a 5) := by
    simp [halfShear, Fin.sum_univ_six]
    ring
  have h2 : trace 3 a = a 0 + a 1 + a 2 := by simp [trace, Fin.sum_univ_six]
  rw [h1, h2]
  nlinarith [mul_self_nonneg (a 3), mul_self_nonneg (a 4), mul_self_nonneg (a 5), mul_self_nonneg (a 0 - a 1),
    mul_self_nonneg (a 0 - a 2), mul_self_nonneg (a 1 - a 2)]

theorem deviator_nonneg (dim : Nat) (h1 : 1 ≤ dim) (h3 : dim ≤ 3) (nu : ℝ) (ps : PlaneState) (hn1 : -1 < nu) (hn2 : nu < 1 / 2)
    (a : Fin (voigtSize dim) → ℝ) : 0 ≤ halfShear dim a a - factor dim nu ps / 3 * (trace dim a * trace dim a) := by
  obtain ⟨f1, f2, f3⟩ := factor_bounds dim nu ps hn1 hn2
  revert a
  interval_cases dim
  · rw [f3 (by norm_num)]
    exact deviator1
  · exact deviator2 _ (f2 rfl)
  · rw [f3 (by norm_num)]
    exact deviator3

/-- The law has the two parts. -/
theorem split (dim : Nat) (h1 : 1 ≤ dim) (h3 : dim ≤ 3) (E nu : ℝ) (app : DamageApplication) (ps : PlaneState) (hE : 0 < E)
    (hn1 : -1 < nu) (hn2 : nu < 1 / 2) :
    ∃ k g, Split (LinearElasticDamage.make dim (voigtSize dim) E nu app ps) (trace dim)
      (fun a b => halfShear dim a b - factor dim nu ps / 3 * (trace dim a * trace dim b)) k g := by
  obtain ⟨f1, _, _⟩ := factor_bounds dim nu ps hn1 hn2
  obtain ⟨l, hl⟩ : ∃ l, l = LinearElasticDamage.make dim (voigtSize dim) E nu app ps := ⟨_, rfl⟩
  have hK : 0 ≤ l.m3K := by
    rw [hl]
    simp only [LinearElasticDamage.make]
    split
    · exact hE.le
    · exact div_nonneg (by linarith) (by linarith)
  have hG : 0 ≤ l.m2G := by
    rw [hl]
    simp only [LinearElasticDamage.make]
    split
    · exact hE.le
    · exact div_nonneg (by linarith) (by linarith)
  have hvol : ∀ e : Fin (voigtSize dim) → ℝ, l.volumetric e = factor dim nu ps / 3 * trace dim e := by
    intro e
    rw [LinearElasticDamage.volumetric, trace, mul_sum, mul_sum, hl]
    refine sum_congr rfl fun i _ => ?_
    simp only [LinearElasticDamage.make, factor]
    split <;> ring
  have hH : ∀ e : Fin (voigtSize dim) → ℝ, l.H (factor dim nu ps / 3 * trace dim e) = l.H (trace dim e) := by
    intro e
    unfold LinearElasticDamage.H
    have : factor dim nu ps / 3 * trace dim e < 0 ↔ trace dim e < 0 := by
      constructor
      · intro h
        by_contra h'
        exact absurd h (not_lt.2 (mul_nonneg (by linarith) (not_lt.1 h')))
      · intro h
        exact mul_neg_of_pos_of_neg (by linarith) h
    simp only [this]
  refine ⟨l.m3K * (factor dim nu ps / 3), l.m2G, ?_⟩
  rw [← hl]
  refine ⟨mul_nonneg hK (by linarith), hG, fun e w d => ?_, trace_sub dim, fun a b c => ?_, fun a b c => ?_, fun a b => ?_,
    deviator_nonneg dim h1 h3 nu ps hn1 hn2⟩
  · have hD : ∀ i, l.mD i = if i.val < dim then 1 else 0 := fun i => by rw [hl]; rfl
    have hP : ∀ i, l.mPinvDiag i = if i.val < dim then 1 else 1 / 2 := fun i => by rw [hl]; rfl
    have hs : DamageRun.power l e w d = ∑ i : Fin (voigtSize dim),
        ((1 - w * l.H (trace dim e)) * l.m3K * (factor dim nu ps / 3) * trace dim e * ((if i.val < dim then 1 else 0) * d i) +
          (1 - w) * l.m2G * ((if i.val < dim then 1 else 1 / 2) * e i * d i) -
          (1 - w) * l.m2G * (factor dim nu ps / 3) * trace dim e * ((if i.val < dim then 1 else 0) * d i)) := by
      refine sum_congr rfl fun i _ => ?_
      simp only [LinearElasticDamage.stress, hvol, hH, hD, hP]
      split <;> ring
    rw [hs, sum_sub_distrib, sum_add_distrib, ← mul_sum, ← mul_sum, ← mul_sum, ← trace, ← halfShear]
    ring
  · rw [halfShear_sub, trace_sub]
    ring
  · rw [halfShear_symm, halfShear_sub, trace_sub, halfShear_symm dim c a, halfShear_symm dim c b]
    ring
  · rw [halfShear_symm]
    ring

/-- C107 (integration point): a strain step, with the stress at its end, needs at least the increase of the stored energy when
the damage does not decrease; the stored energy is not negative. -/
theorem C107_law (dim : Nat) (l : LocalDamage (voigtSize dim)) (hl : Law dim l) (e0 e1 : Fin (voigtSize dim) → ℝ) (k0 k1 : ℝ)
    (hk : k0 ≤ k1) :
    (∑ i, l.elastic.stress e1 (l.law.damage k1) i * e1 i) / 2 - (∑ i, l.elastic.stress e0 (l.law.damage k0) i * e0 i) / 2 ≤
      ∑ i, l.elastic.stress e1 (l.law.damage k1) i * (e1 i - e0 i) ∧
    0 ≤ ∑ i, l.elastic.stress e1 (l.law.damage k1) i * e1 i := by
  obtain ⟨E, nu, app, ps, he, hE, hn1, hn2⟩ := hl.elastic
  obtain ⟨k, g, h⟩ := split dim hl.dim1 hl.dim3 E nu app ps hE hn1 hn2
  rw [← he] at h
  exact ⟨h.step e0 e1 _ _ (hl.bounds k0).1 (hl.mono hk) (hl.bounds k1).2, h.nonneg' e1 _ (hl.bounds k1).1 (hl.bounds k1).2⟩

/-! ### Internal forces -/

/-- the strain as the law gets it -/
def comps {N : Nat} (e : List ℝ) : Fin N → ℝ := fun i => e.getD i 0

/-- the history variable that the law uses -/
noncomputable def kap {N : Nat} (l : LocalDamage N) (e : List ℝ) (d : IpData) : ℝ :=
  max (l.norm (comps e)) (l.history.val d.cellId.toNat d.ipId)

/-- stress of the law, with any value where it is not defined -/
noncomputable def sigma {N : Nat} (l : LocalDamage N) (e : List ℝ) (d : IpData) : List ℝ :=
  if e.length = N then List.ofFn (l.elastic.stress (comps e) (l.law.damage (kap l e d))) else e

theorem sigma_length {N : Nat} (l : LocalDamage N) (e : List ℝ) (d : IpData) : (sigma l e d).length = e.length := by
  unfold sigma
  split
  · rename_i h
    rw [List.length_ofFn, h]
  · rfl

theorem stress_ok {N : Nat} (l : LocalDamage N) (e : List ℝ) (d : IpData) (he : e.length = N)
    (hr : l.history.InRange d.cellId d.ipId) : stress l e d = .ok (sigma l e d) := by
  rw [History.InRange] at hr
  rw [stress, Res.require, if_pos he, LocalDamage.stress, History.kappa, History.get, if_pos hr, sigma, if_pos he]
  rfl

theorem dot_sigma {N : Nat} (l : LocalDamage N) (e b : List ℝ) (d : IpData) (he : e.length = N) :
    dot (sigma l e d) b = ∑ i, l.elastic.stress (comps e) (l.law.damage (kap l e d)) i * (comps b : Fin N → ℝ) i := by
  rw [dot, sigma_length, he, ← Fin.sum_univ_eq_sum_range (fun k => (sigma l e d).getD k 0 * b.getD k 0)]
  refine sum_congr rfl fun i _ => ?_
  rw [sigma, if_pos he, List.getD_eq_getElem _ _ (by rw [List.length_ofFn]; exact i.2), List.getElem_ofFn]
  rfl

variable {dof dim n : Nat} {s : DofSizes} {cells : List (Cell × FemElement ℝ)} {l l' : LocalDamage (voigtSize dim)}

theorem momentum_damage {x : Cell × FemElement ℝ} (h : Body dim n x)
    (hr : ∀ pts, x.1.Points pts → ∀ p ∈ pts, l.history.InRange p.2.cellId p.2.ipId) :
    vecCell dof (momentum dof (stress l)) x = vecCell dof (momentum dof fun e d => .ok (sigma l e d)) x := by
  obtain ⟨pts, hp⟩ := C77_points h
  have key : x.1.integrateVector (momentum dof (stress l) x.2) =
      x.1.integrateVector (momentum dof (fun e d => .ok (sigma l e d)) x.2) := by
    refine integrateGeneric_congr _ _ _ _ _ pts hp fun p hm => ?_
    obtain ⟨j1, j2, _⟩ := h.point hp p hm
    obtain ⟨B, b1, b2, b3⟩ := strain_ok dim h.dim1 h.dim3 (gradients x.2 p.2) j1
    have hrows : (gradients x.2 p.2).rows = x.2.nodes.length := h.dof.count.symm
    rw [hrows] at b2 b3
    have hu := b3 (values dim x.2) (values_length _ _)
    rw [gradients] at b1
    rw [momentum, momentum, bMatrix, Res.require, if_pos (by rw [h.dofDim, j2]), b1, Res.bind_ok', Res.bind_ok', h.dof.read.1,
      Res.bind_ok', Res.bind_ok', hu, Res.bind_ok', Res.bind_ok',
      stress_ok l _ _ (strains_length dim h.dim1 h.dim3 _ _) (hr pts hp p hm)]
  unfold vecCell
  simp only [key]

/-- strain at a point for the displacements `R` -/
noncomputable def strainAt (dim : Nat) (R : List ℝ) (x : Cell × FemElement ℝ) (d : IpData) : List ℝ :=
  strains dim (gradients x.2 d) (Balance.restrict dim x.2 fun i => R.getD i 0)

theorem forces_ok (hm : Mesh dim n l.history cells) (threads : List (List (Cell × FemElement ℝ)))
    (hp : threads.flatten.Perm cells) (hs : s.size dof = .ok n) (pts : Cell × FemElement ℝ → List (ℝ × IpData))
    (hpts : ∀ x ∈ cells, x.1.Points (pts x)) (R : List ℝ) :
    ∃ f, forces s dof threads l R = .ok f ∧ f.length = n ∧ ∀ S : Nat → ℝ, ∑ i ∈ range n, f.getD i 0 * S i =
      (cells.map fun x => ((pts x).map fun p => dot (sigma l (strainAt dim R x p.2) p.2)
        (strains dim (gradients x.2 p.2) (Balance.restrict dim x.2 S)) * p.2.jacobian.det * p.1).sum).sum := by
  have hp' : (movedThreads R threads).flatten.Perm (cells.map fun x => (x.1, moved R x.2)) := by
    unfold movedThreads
    rw [← List.map_flatten]
    exact hp.map _
  have hb : ∀ y ∈ cells.map fun x => (x.1, moved R x.2), Body dim n y ∧
      ∀ pts, y.1.Points pts → ∀ p ∈ pts, l.history.InRange p.2.cellId p.2.ipId := by
    intro y hy
    obtain ⟨x, hx, rfl⟩ := List.mem_map.1 hy
    exact ⟨moved_body (hm.body x hx) R, hm.history x hx⟩
  have hex : ∀ c : Cell, ∃ q, (∃ x ∈ cells, x.1 = c) → c.Points q := by
    intro c
    by_cases hc : ∃ x ∈ cells, x.1 = c
    · obtain ⟨x, hx, rfl⟩ := hc
      exact ⟨pts x, fun _ => hpts x hx⟩
    · exact ⟨[], fun h => absurd h hc⟩
  choose q hq using hex
  have uniq : ∀ x ∈ cells, q x.1 = pts x := by
    intro x hx
    have h1 := hq x.1 ⟨x, hx, rfl⟩
    have h2 := hpts x hx
    unfold Cell.Points at h1 h2
    generalize x.1.rule.zipIdx = L at h1 h2
    generalize q x.1 = A at h1
    generalize pts x = B at h2
    induction h1 generalizing B with
    | nil => cases h2; rfl
    | cons a _ ih =>
      cases h2 with
      | cons b t =>
        rw [ih _ t]
        congr 1
        refine Prod.ext (a.1.trans b.1.symm) (Res.ok.inj (a.2.symm.trans b.2))
  obtain ⟨v, f, h1, h2, h3, h4⟩ := C77_virtual_work s dof dim n (sigma l) (sigma_length l)
    (cells.map fun x => (x.1, moved R x.2)) (movedThreads R threads) hp' hs (fun y hy => (hb y hy).1) (fun y => q y.1) (by
      intro y hy
      obtain ⟨x, hx, rfl⟩ := List.mem_map.1 hy
      exact hq x.1 ⟨x, hx, rfl⟩)
  have hv : assembleVector s dof (momentum dof (stress l)) (movedThreads R threads) = .ok v := by
    rw [← h1]
    unfold assembleVector
    rw [mapM_congr _ (fun t => t.mapM (vecCell dof (momentum dof fun e d => .ok (sigma l e d))))]
    intro t ht
    refine mapM_congr _ _ _ fun x hx => ?_
    have hy := hb x (hp'.mem_iff.1 (List.mem_flatten.2 ⟨t, ht, hx⟩))
    exact momentum_damage hy.1 hy.2
  refine ⟨f, ?_, h3, fun S => ?_⟩
  · rw [forces, hv, Res.bind_ok', OMap.at', h2]
  · rw [h4 S, List.map_map]
    congr 1
    refine List.map_congr_left fun x hx => ?_
    simp only [Function.comp_apply]
    rw [uniq x hx]
    congr 1
    refine List.map_congr_left fun p _ => ?_
    rw [moved_values R x.2 (hm.body x hx).dof, moved_restrict]
    rfl

/-! ### History data -/

/-- the law after updates -/
structure Grown {N : Nat} (l l' : LocalDamage N) : Prop where
  elastic : l'.elastic = l.elastic
  law : l'.law = l.law
  norm : l'.norm = l.norm
  rows : l'.history.rows = l.history.rows
  cols : l'.history.cols = l.history.cols
  val : ∀ c i, l.history.val c i ≤ l'.history.val c i

theorem Grown.refl {N : Nat} (l : LocalDamage N) : Grown l l := ⟨rfl, rfl, rfl, rfl, rfl, fun _ _ => le_rfl⟩

theorem Grown.trans {N : Nat} {l l' l'' : LocalDamage N} (h : Grown l l') (h' : Grown l' l'') : Grown l l'' :=
  ⟨h'.elastic.trans h.elastic, h'.law.trans h.law, h'.norm.trans h.norm, h'.rows.trans h.rows, h'.cols.trans h.cols,
    fun c i => (h.val c i).trans (h'.val c i)⟩

theorem Grown.inRange {N : Nat} {l l' : LocalDamage N} (h : Grown l l') (c i : Int) :
    l'.history.InRange c i ↔ l.history.InRange c i := by
  rw [History.InRange, History.InRange, h.rows, h.cols]

theorem Grown.mesh (h : Grown l l') (hm : Mesh dim n l.history cells) : Mesh dim n l'.history cells :=
  ⟨hm.body, hm.weights, fun x hx pts hp p hpm => (h.inRange _ _).2 (hm.history x hx pts hp p hpm)⟩

theorem Grown.admissible (h : Grown l l') (hl : Law dim l) : Law dim l' :=
  ⟨hl.dim1, hl.dim3, by rw [h.elastic]; exact hl.elastic, by rw [h.law]; exact hl.mono, by rw [h.law]; exact hl.bounds⟩

/-- A fold of steps that grow the law and establish `Q`. -/
theorem foldlM_grows {N : Nat} {α : Type} (f : LocalDamage N → α → Res (LocalDamage N)) (Q : α → LocalDamage N → Prop)
    (l0 : LocalDamage N) (hQ : ∀ a l l', Q a l → Grown l l' → Q a l') (L : List α)
    (hf : ∀ a ∈ L, ∀ l, Grown l0 l → ∃ l', f l a = .ok l' ∧ Grown l l' ∧ Q a l') :
    ∀ l, Grown l0 l → ∃ l', Res.foldlM f l L = .ok l' ∧ Grown l l' ∧ ∀ a ∈ L, Q a l' := by
  induction L with
  | nil => intro l _; exact ⟨l, rfl, Grown.refl l, fun a ha => by cases ha⟩
  | cons a L ih =>
    intro l hl
    obtain ⟨l1, h1, h2, h3⟩ := hf a List.mem_cons_self l hl
    obtain ⟨l2, h4, h5, h6⟩ := ih (fun b hb => hf b (List.mem_cons_of_mem _ hb)) l1 (hl.trans h2)
    refine ⟨l2, by rw [Res.foldlM_cons, h1, Res.bind_ok', h4], h2.trans h5, fun b hb => ?_⟩
    rcases List.mem_cons.1 hb with rfl | hb
    · exact hQ _ _ _ h3 h5
    · exact h6 b hb

theorem update_ok {x : Cell × FemElement ℝ} (h : Body dim n x) {pts : List (ℝ × IpData)} (hp : x.1.Points pts)
    (R : List ℝ) (p : ℝ × IpData) (hpm : p ∈ pts) (hr : l.history.InRange p.2.cellId p.2.ipId) :
    ∃ l', update (moved R x.2) l p.2 = .ok l' ∧ Grown l l' ∧
      l.norm (comps (strainAt dim R x p.2)) ≤ l'.history.val p.2.cellId.toNat p.2.ipId := by
  have h' := moved_body h R
  obtain ⟨j1, j2, _⟩ := h.point hp p hpm
  obtain ⟨B, b1, b2, b3⟩ := strain_ok dim h.dim1 h.dim3 (gradients (moved R x.2) p.2) j1
  have hrows : (gradients (moved R x.2) p.2).rows = (moved R x.2).nodes.length := h'.dof.count.symm
  rw [hrows] at b2 b3
  have hu := b3 (values dim (moved R x.2)) (values_length _ _)
  rw [gradients] at b1
  have he : strains dim (gradients (moved R x.2) p.2) (values dim (moved R x.2)) = strainAt dim R x p.2 := by
    rw [moved_values R x.2 h.dof]
    rfl
  rw [he] at hu
  have hlen : (strainAt dim R x p.2).length = voigtSize dim := strains_length dim h.dim1 h.dim3 _ _
  refine ⟨{ l with history := l.history.updated (l.norm (comps (strainAt dim R x p.2))) p.2.cellId p.2.ipId }, ?_,
    ⟨rfl, rfl, rfl, rfl, rfl, fun c i => ?_⟩, ?_⟩
  · rw [update, bMatrix, Res.require, if_pos (by exact h'.dofDim.trans j2.symm), b1, Res.bind_ok', h'.dof.read.1, Res.bind_ok', hu,
      Res.bind_ok', Res.require, if_pos hlen, LocalDamage.update]
    have := History.update_eq l.history (l.norm (comps (strainAt dim R x p.2))) p.2.cellId p.2.ipId hr
    unfold comps at this ⊢
    rw [this]
    rfl
  · simp only [History.updated]
    split
    · rename_i hc
      rw [hc.1, hc.2]
      exact le_max_right _ _
    · exact le_rfl
  · simp [History.updated]

theorem updateHistory_ok (hm : Mesh dim n l.history cells) (pts : Cell × FemElement ℝ → List (ℝ × IpData))
    (hpts : ∀ x ∈ cells, x.1.Points (pts x)) (R : List ℝ) :
    ∃ l', updateHistory cells l R = .ok l' ∧ Grown l l' ∧
      ∀ x ∈ cells, ∀ p ∈ pts x, l.norm (comps (strainAt dim R x p.2)) ≤ l'.history.val p.2.cellId.toNat p.2.ipId := by
  refine foldlM_grows (updateStep R) (fun x l' => ∀ p ∈ pts x, l.norm (comps (strainAt dim R x p.2)) ≤
    l'.history.val p.2.cellId.toNat p.2.ipId) l (fun x l1 l2 h h' p hp => (h p hp).trans (h'.val _ _)) cells
    (fun x hx l1 hl1 => ?_) l (Grown.refl l)
  have hb := hm.body x hx
  have hpx := hpts x hx
  have hrange : ∀ p ∈ pts x, l.history.InRange p.2.cellId p.2.ipId := hm.history x hx _ hpx
  unfold updateStep applyCell
  have key : ∀ (L : List ((ℝ × List ℝ) × Nat)) (P : List (ℝ × IpData)),
      List.Forall₂ (fun (ip : (ℝ × List ℝ) × Nat) (p : ℝ × IpData) => p.1 = ip.1.1 ∧ x.1.ipData ip.2 ip.1.2 = .ok p.2) L P →
      (∀ p ∈ P, p ∈ pts x) → ∀ l1, Grown l l1 → ∃ l', Res.foldlM (applyStep x.1 (update (moved R x.2))) l1 L = .ok l' ∧
        Grown l1 l' ∧ ∀ p ∈ P, l.norm (comps (strainAt dim R x p.2)) ≤ l'.history.val p.2.cellId.toNat p.2.ipId := by
    intro L P hLP
    induction hLP with
    | nil => intro _ l1 _; exact ⟨l1, rfl, Grown.refl l1, fun p hp => by cases hp⟩
    | @cons ip p L P hh _ ih =>
      intro hsub l1 hl1
      have hpm := hsub p List.mem_cons_self
      obtain ⟨l2, u1, u2, u3⟩ := update_ok (l := l1) hb hpx R p hpm ((hl1.inRange _ _).2 (hrange p hpm))
      obtain ⟨l3, v1, v2, v3⟩ := ih (fun q hq => hsub q (List.mem_cons_of_mem _ hq)) l2 (hl1.trans u2)
      refine ⟨l3, by rw [Res.foldlM_cons, applyStep, hh.2, Res.bind_ok', u1, Res.bind_ok', v1], u2.trans v2, fun q hq => ?_⟩
      rcases List.mem_cons.1 hq with rfl | hq
      · rw [hl1.norm] at u3
        exact u3.trans (v2.val _ _)
      · exact v3 q hq
  exact key _ _ hpx (fun p hp => hp) l1 hl1

/-! ### Load steps -/

theorem strains_sub (dim : Nat) (G : DMat ℝ) (e : FemElement ℝ) (A B : Nat → ℝ) (k : Nat) :
    (strains dim G (Balance.restrict dim e fun i => A i - B i)).getD k 0 =
      (strains dim G (Balance.restrict dim e A)).getD k 0 - (strains dim G (Balance.restrict dim e B)).getD k 0 := by
  have hr : ∀ q, (Balance.restrict dim e fun i => A i - B i).getD q 0 =
      (Balance.restrict dim e A).getD q 0 - (Balance.restrict dim e B).getD q 0 := by
    intro q
    unfold Balance.restrict
    by_cases hq : q < dim * e.nodes.length
    · rw [List.getD_eq_getElem _ _ (by simpa using hq), List.getD_eq_getElem _ _ (by simpa using hq),
        List.getD_eq_getElem _ _ (by simpa using hq)]
      simp
    · rw [List.getD_eq_default _ _ (by simpa using hq), List.getD_eq_default _ _ (by simpa using hq),
        List.getD_eq_default _ _ (by simpa using hq), sub_zero]
  have hg : ∀ a b, displacementGradient dim G (Balance.restrict dim e fun i => A i - B i) a b =
      displacementGradient dim G (Balance.restrict dim e A) a b - displacementGradient dim G (Balance.restrict dim e B) a b := by
    intro a b
    unfold displacementGradient
    rw [← sum_sub_distrib]
    refine sum_congr rfl fun i _ => ?_
    rw [hr]
    ring
  unfold strains
  simp only [hg]
  match dim with
  | 1 => rcases k with _ | k <;> simp
  | 2 =>
    rcases k with _ | _ | _ | k <;> simp
    ring
  | 0 | _ + 3 =>
    rcases k with _ | _ | _ | _ | _ | _ | k <;> simp <;> ring

theorem strainAt_length {x : Cell × FemElement ℝ} (h : Body dim n x) (R : List ℝ) (d : IpData) :
    (strainAt dim R x d).length = voigtSize dim := strains_length dim h.dim1 h.dim3 _ _

theorem allPoints (hm : Mesh dim n l.history cells) :
    ∃ pts : Cell × FemElement ℝ → List (ℝ × IpData), ∀ x ∈ cells, x.1.Points (pts x) := by
  have hex : ∀ x : Cell × FemElement ℝ, ∃ pts, x ∈ cells → x.1.Points pts := by
    intro x
    by_cases hx : x ∈ cells
    · obtain ⟨pts, h⟩ := C77_points (hm.body x hx)
      exact ⟨pts, fun _ => h⟩
    · exact ⟨[], fun h => absurd h hx⟩
  choose pts hpts using hex
  exact ⟨pts, hpts⟩

/-- Work of the internal forces as an integral. -/
theorem forces_work (hm : Mesh dim n l.history cells) {threads : List (List (Cell × FemElement ℝ))}
    (hp : threads.flatten.Perm cells) (hs : s.size dof = .ok n) (pts : Cell × FemElement ℝ → List (ℝ × IpData))
    (hpts : ∀ x ∈ cells, x.1.Points (pts x)) {R f : List ℝ} (hf : forces s dof threads l R = .ok f) (S : Nat → ℝ) :
    ∑ i ∈ range n, f.getD i 0 * S i = (cells.map fun x => ((pts x).map fun p =>
      (∑ i, l.elastic.stress (comps (strainAt dim R x p.2)) (l.law.damage (kap l (strainAt dim R x p.2) p.2)) i *
        (comps (strains dim (gradients x.2 p.2) (Balance.restrict dim x.2 S)) : Fin (voigtSize dim) → ℝ) i) *
        (p.2.jacobian.det * p.1)).sum).sum := by
  obtain ⟨f', h1, _, h3⟩ := forces_ok (l := l) hm threads hp hs pts hpts R
  obtain rfl := Res.ok.inj (hf.symm.trans h1)
  rw [h3 S]
  congr 1
  refine List.map_congr_left fun x hx => ?_
  congr 1
  refine List.map_congr_left fun p _ => ?_
  rw [dot_sigma _ _ _ _ (strainAt_length (hm.body x hx) R p.2), mul_assoc]

theorem sum_map_le {α : Type} (L : List α) (f g : α → ℝ) (h : ∀ x ∈ L, f x ≤ g x) : (L.map f).sum ≤ (L.map g).sum :=
  List.sum_le_sum h

theorem sum_map_half_sub {α : Type} (L : List α) (f g : α → ℝ) :
    (L.map fun x => f x / 2 - g x / 2).sum = (L.map f).sum / 2 - (L.map g).sum / 2 := by
  induction L with
  | nil => simp
  | cons a L ih =>
    rw [List.map_cons, List.sum_cons, ih, List.map_cons, List.sum_cons, List.map_cons, List.sum_cons]
    ring

/-- C107 (one step): when a step to `R0` is followed by a step to `R1`, the internal forces need at least the increase of the
stored energy, which is half of the work of the forces on the displacements and never negative. -/
theorem C107_step (hl : Law dim l) (hm : Mesh dim n l.history cells) (hs : s.size dof = .ok n)
    {th0 th1 : List (List (Cell × FemElement ℝ))} (hp0 : th0.flatten.Perm cells) (hp1 : th1.flatten.Perm cells)
    {R0 R1 f0 f1 : List ℝ} {l1 l2 : LocalDamage (voigtSize dim)} (h0 : step s dof cells l (th0, R0) = .ok (f0, l1))
    (h1 : step s dof cells l1 (th1, R1) = .ok (f1, l2)) :
    work n f1 R1 / 2 - work n f0 R0 / 2 ≤ ∑ i ∈ range n, f1.getD i 0 * (R1.getD i 0 - R0.getD i 0) ∧ 0 ≤ work n f1 R1 := by
  obtain ⟨pts, hpts⟩ := allPoints hm
  obtain ⟨g0, a1, h0⟩ := Res.bind_eq_ok h0
  obtain ⟨m0, a2, h0⟩ := Res.bind_eq_ok h0
  obtain ⟨rfl, rfl⟩ := Prod.mk.inj (Res.ok.inj h0)
  obtain ⟨g1, b1, h1⟩ := Res.bind_eq_ok h1
  obtain ⟨m1, _, h1⟩ := Res.bind_eq_ok h1
  obtain ⟨rfl, rfl⟩ := Prod.mk.inj (Res.ok.inj h1)
  obtain ⟨l1', u1, u2, u3⟩ := updateHistory_ok (l := l) hm pts hpts R0
  obtain rfl := Res.ok.inj (a2.symm.trans u1)
  have hm1 := u2.mesh hm
  have hl1 := u2.admissible hl
  have w0 := forces_work hm hp0 hs pts hpts a1 fun i => R0.getD i 0
  have w1 := forces_work hm1 hp1 hs pts hpts b1 fun i => R1.getD i 0
  have w2 := forces_work hm1 hp1 hs pts hpts b1 fun i => R1.getD i 0 - R0.getD i 0
  have hk : ∀ x ∈ cells, ∀ p ∈ pts x, kap l (strainAt dim R0 x p.2) p.2 ≤ kap m0 (strainAt dim R1 x p.2) p.2 := by
    intro x hx p hp
    refine le_trans (max_le (u3 x hx p hp) (u2.val _ _)) (le_max_right _ _)
  have law : ∀ x ∈ cells, ∀ p ∈ pts x, _ := fun x hx p hp => C107_law dim m0 hl1
    (comps (strainAt dim R0 x p.2)) (comps (strainAt dim R1 x p.2)) _ _ (hk x hx p hp)
  refine ⟨?_, ?_⟩
  · rw [work, work, w0, w1, w2, ← sum_map_half_sub]
    refine sum_map_le _ _ _ fun x hx => ?_
    rw [← sum_map_half_sub]
    refine sum_map_le _ _ _ fun p hp => ?_
    have hL := mul_le_mul_of_nonneg_right (law x hx p hp).1 (hm.weights x hx _ (hpts x hx) p hp)
    have hc : (comps (strains dim (gradients x.2 p.2) (Balance.restrict dim x.2 fun i => R1.getD i 0 - R0.getD i 0)) :
        Fin (voigtSize dim) → ℝ) = fun i => comps (strainAt dim R1 x p.2) i - comps (strainAt dim R0 x p.2) i := by
      funext i
      exact strains_sub dim _ _ _ _ _
    rw [hc]
    have e1 := u2.elastic
    have e2 := u2.law
    rw [e1, e2] at hL ⊢
    refine le_trans (le_of_eq ?_) hL
    unfold strainAt
    ring
  · rw [work, w1]
    refine List.sum_nonneg fun y hy => ?_
    obtain ⟨x, hx, rfl⟩ := List.mem_map.1 hy
    refine List.sum_nonneg fun z hz => ?_
    obtain ⟨p, hp, rfl⟩ := List.mem_map.1 hz
    exact mul_nonneg (law x hx p hp).2 (hm.weights x hx _ (hpts x hx) p hp)

theorem step_grown (hm : Mesh dim n l.history cells) {th : List (List (Cell × FemElement ℝ))} {R f : List ℝ}
    (h : step s dof cells l (th, R) = .ok (f, l')) : Grown l l' := by
  obtain ⟨pts, hpts⟩ := allPoints hm
  obtain ⟨g0, _, h⟩ := Res.bind_eq_ok h
  obtain ⟨m0, a2, h⟩ := Res.bind_eq_ok h
  obtain ⟨rfl, rfl⟩ := Prod.mk.inj (Res.ok.inj h)
  obtain ⟨l1', u1, u2, _⟩ := updateHistory_ok (l := l) hm pts hpts R
  obtain rfl := Res.ok.inj (a2.symm.trans u1)
  exact u2

/-- C107: every sequence of displacements, with any schedules of the threads, can be run. -/
theorem C107_run (hm : Mesh dim n l.history cells) (hs : s.size dof = .ok n)
    (steps : List (List (List (Cell × FemElement ℝ)) × List ℝ)) (hp : ∀ x ∈ steps, x.1.flatten.Perm cells) :
    ∃ r, run s dof cells l steps = .ok r ∧ r.map Prod.fst = steps.map Prod.snd := by
  induction steps generalizing l with
  | nil => exact ⟨[], rfl, rfl⟩
  | cons x t ih =>
    obtain ⟨pts, hpts⟩ := allPoints hm
    obtain ⟨f, h1, _, _⟩ := forces_ok (l := l) hm x.1 (hp x (by simp)) hs pts hpts x.2
    obtain ⟨l', u1, u2, _⟩ := updateHistory_ok (l := l) hm pts hpts x.2
    obtain ⟨r, h2, h3⟩ := ih (u2.mesh hm) fun y hy => hp y (by simp [hy])
    refine ⟨(x.2, f) :: r, ?_, by simp [h3]⟩
    rw [run, step, h1, Res.bind_ok', u1, Res.bind_ok', Res.bind_ok', h2, Res.bind_ok']

/-- C107: along any load history the work of the internal forces is at least the energy stored at the end minus the energy
stored in the first state; the energy stored at the end is not negative. -/
theorem C107_energy (hl : Law dim l) (hm : Mesh dim n l.history cells) (hs : s.size dof = .ok n)
    (steps : List (List (List (Cell × FemElement ℝ)) × List ℝ)) (hp : ∀ x ∈ steps, x.1.flatten.Perm cells)
    {y : List ℝ × List ℝ} {r : List (List ℝ × List ℝ)} (h : run s dof cells l steps = .ok (y :: r)) :
    work n ((y :: r).getLast (by simp)).2 ((y :: r).getLast (by simp)).1 / 2 - work n y.2 y.1 / 2 ≤ totalWork n y r ∧
    (r ≠ [] → 0 ≤ work n ((y :: r).getLast (by simp)).2 ((y :: r).getLast (by simp)).1) := by
  induction r generalizing l y steps with
  | nil => simp [totalWork]
  | cons z r ih =>
    match steps with
    | [] => cases h
    | x :: t =>
      rw [run] at h
      obtain ⟨⟨f0, l1⟩, h1, h⟩ := Res.bind_eq_ok h
      obtain ⟨r1, h2, h⟩ := Res.bind_eq_ok h
      obtain ⟨rfl, rfl⟩ := List.cons.inj (Res.ok.inj h)
      have hg := step_grown hm h1
      obtain ⟨i1, i2⟩ := ih (hg.admissible hl) (hg.mesh hm) t (fun y hy => hp y (by simp [hy])) h2
      match t with
      | [] => cases h2
      | x2 :: t =>
        rw [run] at h2
        obtain ⟨⟨f1, l2⟩, h3, h2⟩ := Res.bind_eq_ok h2
        obtain ⟨r2, h4, h2⟩ := Res.bind_eq_ok h2
        obtain ⟨rfl, rfl⟩ := List.cons.inj (Res.ok.inj h2)
        obtain ⟨s1, s2⟩ := C107_step hl hm hs (hp x (by simp)) (hp x2 (by simp)) h1 h3
        rw [List.getLast_cons (by simp)]
        refine ⟨?_, fun _ => ?_⟩
        · rw [totalWork]
          linarith
        · by_cases hr : r2 = []
          · subst hr
            exact s2
          · exact i2 hr

/-- C107: from the undeformed state the work is at least the energy stored at the end, in particular not negative. -/
theorem C107_from_rest (hl : Law dim l) (hm : Mesh dim n l.history cells) (hs : s.size dof = .ok n)
    (steps : List (List (List (Cell × FemElement ℝ)) × List ℝ)) (hp : ∀ x ∈ steps, x.1.flatten.Perm cells)
    {y : List ℝ × List ℝ} {r : List (List ℝ × List ℝ)} (h : run s dof cells l steps = .ok (y :: r))
    (h0 : ∀ i < n, y.1.getD i 0 = 0) :
    0 ≤ totalWork n y r ∧
    work n ((y :: r).getLast (by simp)).2 ((y :: r).getLast (by simp)).1 / 2 ≤ totalWork n y r := by
  obtain ⟨h1, h2⟩ := C107_energy hl hm hs steps hp h
  have hz : work n y.2 y.1 = 0 := sum_eq_zero fun i hi => by rw [h0 i (mem_range.1 hi), mul_zero]
  rw [hz, zero_div, sub_zero] at h1
  by_cases hr : r = []
  · subst hr
    exact ⟨le_rfl, h1⟩
  · exact ⟨le_trans (by linarith [h2 hr]) h1, h1⟩

/-- C107: from any state the structure delivers at most the energy stored in it. -/
theorem C107_delivered (hl : Law dim l) (hm : Mesh dim n l.history cells) (hs : s.size dof = .ok n)
    (steps : List (List (List (Cell × FemElement ℝ)) × List ℝ)) (hp : ∀ x ∈ steps, x.1.flatten.Perm cells)
    {y : List ℝ × List ℝ} {r : List (List ℝ × List ℝ)} (h : run s dof cells l steps = .ok (y :: r)) (hr : r ≠ []) :
    -totalWork n y r ≤ work n y.2 y.1 / 2 := by
  obtain ⟨h1, h2⟩ := C107_energy hl hm hs steps hp h
  linarith [h2 hr]

/-- C107: the laws that a softening material defines are admissible, for both applications of the damage. -/
theorem C107_material (dim : Nat) (h1 : 1 ≤ dim) (h3 : dim ≤ 3) (m : Softening ℝ) (hE : 0 < m.E) (hn1 : -1 < m.nu)
    (hn2 : m.nu < 1 / 2) (hft : 0 < m.ft) (hgf : 0 < m.gf) (hmin0 : 0 < m.fMin) (hmin1 : m.fMin ≤ m.ft)
    (app : DamageApplication) (norm : (Fin (voigtSize dim) → ℝ) → ℝ) (dNorm : (Fin (voigtSize dim) → ℝ) → Fin (voigtSize dim) → ℝ)
    (h : History) :
    Law dim ⟨LinearElasticDamage.ofSoftening dim _ m app, DamageLaw.exponentialOf m, norm, dNorm, h⟩ ∧
    Law dim ⟨LinearElasticDamage.ofSoftening dim _ m app, DamageLaw.linearOf m, norm, dNorm, h⟩ ∧
    Law dim ⟨LinearElasticDamage.ofSoftening dim _ m app, DamageLaw.noSoftening (m.ft / m.E), norm, dNorm, h⟩ := by
  obtain ⟨g1, g2⟩ := C37_material m hE hft hgf hmin0 hmin1
  have g3 := C37_no_softening (m.ft / m.E) (div_pos hft hE)
  have key : ∀ {law : DamageLaw} {k0 b : ℝ}, GoodLaw law k0 b →
      Law dim ⟨LinearElasticDamage.ofSoftening dim _ m app, law, norm, dNorm, h⟩ := fun g =>
    ⟨h1, h3, ⟨m.E, m.nu, app, m.planeState, rfl, hE, hn1, hn2⟩, g.mono, fun k => ⟨(g.bounds k).1, (g.bounds k).2.2.le⟩⟩
  exact ⟨key g1, key g2, key g3⟩

/-- C107 needs the update function: without it (`AddUpdateFunction` is not called) the damage heals, and an admissible law
delivers energy on a path that starts without strain: from 0 to 4 and back to 1. -/
theorem C107_update_needed :
    ∃ (l : LocalDamage (voigtSize 1)) (a b : Fin (voigtSize 1) → ℝ), Law 1 l ∧
      l.stress (fun _ => 4) 0 0 = .ok a ∧ l.stress (fun _ => 1) 0 0 = .ok b ∧
      (∑ i, a i * (4 - 0)) + ∑ i, b i * (1 - 4) < 0 := by
  let l : LocalDamage (voigtSize 1) := ⟨LinearElasticDamage.make 1 _ 1 0 .full .planeStrain, DamageLaw.linear 1 2 (15 / 16),
    fun e => |e ⟨0, by decide⟩|, fun _ _ => 1, History.resize 1 1⟩
  have g := C37_linear 1 2 (15 / 16) one_pos (by norm_num) (by norm_num) (by norm_num)
  have hs : ∀ e : Fin (voigtSize 1) → ℝ, l.stress e 0 0 =
      .ok (l.elastic.stress e (l.law.damage (max (|e ⟨0, by decide⟩|) 0))) := by
    intro e
    rw [LocalDamage.stress, History.kappa, History.get, if_pos (by simp [l, History.resize])]
    rfl
  refine ⟨l, _, _, ⟨le_rfl, by norm_num, ⟨1, 0, .full, .planeStrain, rfl, by norm_num, by norm_num, by norm_num⟩, g.mono, fun k =>
    ⟨(g.bounds k).1, (g.bounds k).2.2.le⟩⟩, hs _, hs _, ?_⟩
  have d4 : l.law.damage (max |(4 : ℝ)| 0) = 15 / 16 := by
    simp only [l, DamageLaw.linear]
    norm_num
  have d1 : l.law.damage (max |(1 : ℝ)| 0) = 0 := by
    simp only [l, DamageLaw.linear]
    norm_num
  have u : ∀ f : Fin (voigtSize 1) → ℝ, ∑ i, f i = f ⟨0, by decide⟩ := fun f => Fin.sum_univ_one (f : Fin 1 → ℝ)
  rw [u, u, d4, d1]
  simp only [LinearElasticDamage.stress, LinearElasticDamage.volumetric, LinearElasticDamage.H, l, LinearElasticDamage.make, u]
  norm_num

/-- Two triangles with a history of two cells with one point meet the hypotheses. -/
example : Mesh 2 8 (History.resize 2 1) [exampleBody, exampleBody2] := by
  refine ⟨exampleMesh_body, fun x hx pts hp p hm => (exampleMesh_weights x hx pts hp p hm).le, fun x hx pts hp p hm => ?_⟩
  obtain ⟨c, hc, hr⟩ : ∃ c : Nat, x.1.id = c ∧ c < 2 := by
    simp only [List.mem_cons, List.not_mem_nil, or_false] at hx
    rcases hx with rfl | rfl
    · exact ⟨0, rfl, by norm_num⟩
    · exact ⟨1, rfl, by norm_num⟩
  have hrule : x.1.rule = [(1 / 2, [1 / 3, 1 / 3])] := by
    simp only [List.mem_cons, List.not_mem_nil, or_false] at hx
    rcases hx with rfl | rfl <;> rfl
  unfold Cell.Points at hp
  rw [hrule] at hp
  cases hp with
  | cons hh ht =>
    cases ht
    rw [List.mem_singleton.1 hm]
    have h2 := hh.2
    unfold Cell.ipData at h2
    obtain ⟨v, _, h2⟩ := Res.bind_eq_ok h2
    obtain ⟨J, _, h2⟩ := Res.bind_eq_ok h2
    rw [← Res.ok.inj h2, History.InRange, hc]
    simp [History.resize, hr]

end DamageRun

end NuTo
