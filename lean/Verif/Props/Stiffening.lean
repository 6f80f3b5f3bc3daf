/-
C124: a body that is stiffened (more cells, more constraints, larger modulus, plane strain) yields less.
-/
import Verif.Props.Scaling

namespace NuTo

open Assembly Finset Balance Solve Statics Quasistatic ElasticStep Reactions Jacobian

namespace Stiffening

/-! ### Specification -/

/-- The second body has all cells of the first one and maybe more, and its constraints allow no further motions; plane strain may
replace plane stress. -/
structure Stiffened (n dof dof' : Nat) (ps ps' : PlaneState) (cells cells' : List (Cell × FemElement ℝ)) (c c' : Constraints ℝ)
    (num num' : Term ℝ → Nat) : Prop where
  cells : cells.Subperm cells'
  state : ps' = ps ∨ ps' = .planeStrain
  constraints : ∀ w : List ℝ, w.length = n → Satisfies c' dof' num' (fun _ => 0) w → Satisfies c dof num (fun _ => 0) w

/-! ### Proofs -/

variable {dim n dof dof' : Nat} {E E' nu : ℝ} {ps ps' : PlaneState} {s s' : DofSizes} {cells cells' : List (Cell × FemElement ℝ)}
  {threads threads' : List (List (Cell × FemElement ℝ))} {st st' : NodeStore ℝ} {c c' : Constraints ℝ} {num num' : Term ℝ → Nat}

theorem tangent_nonneg (h1 : 1 ≤ dim) (h3 : dim ≤ 3) (hE : 0 < E) (hn : -1 < nu ∧ nu < 1 / 2) (d : IpData)
    (v : List ℝ) (hv : v.length = voigtSize dim) : 0 ≤ bilinear (elasticTangent dim E nu ps) v v := by
  obtain ⟨_, _, e3, _⟩ := C95_elastic dim h1 h3 E nu ps hE hn.1 hn.2
  by_cases hz : ∃ y ∈ v, y ≠ 0
  · exact (e3 v d v hv rfl hz).le
  · push Not at hz
    rw [bilinear_zero _ _ _ hz]

/-- The stress of plane strain does more work than that of plane stress. -/
theorem tangent_states (hE : 0 < E) (hn : -1 < nu ∧ nu < 1 / 2) (v : List ℝ) (hv : v.length = 3) :
    bilinear (elasticTangent 2 E nu .planeStress) v v ≤ bilinear (elasticTangent 2 E nu .planeStrain) v v := by
  obtain ⟨a, b, g, rfl⟩ : ∃ a b g, v = [a, b, g] := by
    match v, hv with
    | [a, b, g], _ => exact ⟨a, b, g, rfl⟩
  have h1 : 0 < 1 + nu := by linarith
  have h2 : 0 < 1 - 2 * nu := by linarith
  have h3 : 0 < 1 - nu := by linarith
  have h1' := h1.ne'
  have h2' := h2.ne'
  have h2'' : 1 - nu * 2 ≠ 0 := by rwa [mul_comm]
  have h3' := h3.ne'
  have h4 : 1 - nu * nu = (1 + nu) * (1 - nu) := by ring
  have key : bilinear (elasticTangent 2 E nu .planeStrain) [a, b, g] [a, b, g] - bilinear (elasticTangent 2 E nu .planeStress) [a, b, g] [a, b, g] =
      E * nu ^ 2 / ((1 + nu) * (1 - nu) * (1 - 2 * nu)) * (a + b) ^ 2 := by
    simp [bilinear, elasticTangent, ofMatrix, LinearElastic.calculateC2, LinearElastic.coefficients3D,
      LinearElastic.coefficients2DPlaneStress, sum_range_succ, h4]
    field_simp
    ring
  have : 0 ≤ E * nu ^ 2 / ((1 + nu) * (1 - nu) * (1 - 2 * nu)) * (a + b) ^ 2 := by positivity
  linarith

theorem tangent_mono (h1 : 1 ≤ dim) (h3 : dim ≤ 3) (hE : 0 < E) (hE' : 0 < E') (hn : -1 < nu ∧ nu < 1 / 2)
    (hps : ps' = ps ∨ ps' = .planeStrain) (v : List ℝ) (hv : v.length = voigtSize dim) :
    E' / E * bilinear (elasticTangent dim E nu ps) v v ≤ bilinear (elasticTangent dim E' nu ps') v v := by
  have hs : E' = E' / E * E := by field_simp
  rw [hs, Scaling.bilinear_scale fun i j => Scaling.tangent_scale h1 h3 E nu (E' / E) ps' i j, ← hs]
  refine mul_le_mul_of_nonneg_left ?_ (by positivity)
  rcases hps with rfl | rfl
  · exact le_rfl
  · by_cases hd : dim = 2
    · subst hd
      cases ps
      · exact tangent_states hE hn v hv
      · exact le_rfl
    · refine le_of_eq ?_
      congr 1
      unfold elasticTangent
      split
      · rfl
      · exact absurd rfl hd
      · rfl

/-- C124 (energy): for all displacements the stiffened body stores more energy, relative to the modulus. -/
theorem C124_energy (P : Problem dof dim n E nu s cells threads st c num) (P' : Problem dof' dim n E' nu s' cells' threads' st' c' num')
    (h : Stiffened n dof dof' ps ps' cells cells' c c' num num') (pts : Cell × FemElement ℝ → List (ℝ × IpData))
    (hpts : ∀ x ∈ cells', x.1.Points (pts x)) (R : Nat → ℝ) :
    E' * strainEnergy dim (elasticTangent dim E nu ps) cells pts R ≤ E * strainEnergy dim (elasticTangent dim E' nu ps') cells' pts R := by
  obtain ⟨l, hl, hsub⟩ := h.cells
  obtain ⟨extra, hex⟩ := hsub.exists_perm_append
  have hE := P.stiff
  have hlen : ∀ x ∈ cells', ∀ p : ℝ × IpData, (strains dim (gradients x.2 p.2) (Balance.restrict dim x.2 R)).length = voigtSize dim :=
    fun x hx p => strains_length dim (P'.body x hx).dim1 (P'.body x hx).dim3 _ _
  set f : Cell × FemElement ℝ → ℝ := fun x => ((pts x).map fun p =>
    1 / 2 * bilinear (elasticTangent dim E nu ps) (strains dim (gradients x.2 p.2) (Balance.restrict dim x.2 R))
      (strains dim (gradients x.2 p.2) (Balance.restrict dim x.2 R)) * p.2.jacobian.det * p.1).sum with hf
  set f' : Cell × FemElement ℝ → ℝ := fun x => ((pts x).map fun p =>
    1 / 2 * bilinear (elasticTangent dim E' nu ps') (strains dim (gradients x.2 p.2) (Balance.restrict dim x.2 R))
      (strains dim (gradients x.2 p.2) (Balance.restrict dim x.2 R)) * p.2.jacobian.det * p.1).sum with hf'
  have hff : ∀ x ∈ cells', E' / E * f x ≤ f' x := by
    intro x hx
    rw [hf, hf', ← List.sum_map_mul_left]
    refine List.sum_le_sum fun p hp => ?_
    have hw := P'.positive x hx _ (hpts x hx) p hp
    have := mul_le_mul_of_nonneg_right (tangent_mono (ps := ps) (ps' := ps') P.dim1 P.dim3 P.stiff P'.stiff P.poisson h.state _ (hlen x hx p)) hw.le
    linarith
  have hf0 : ∀ x ∈ cells', 0 ≤ f' x := by
    intro x hx
    refine List.sum_nonneg fun y hy => ?_
    obtain ⟨p, hp, rfl⟩ := List.mem_map.1 hy
    have hw := P'.positive x hx _ (hpts x hx) p hp
    have := mul_nonneg (tangent_nonneg (ps := ps') P.dim1 P.dim3 P'.stiff P.poisson p.2 _ (hlen x hx p)) hw.le
    linarith
  have e1 : strainEnergy dim (elasticTangent dim E nu ps) cells pts R = (l.map f).sum := (hl.map f).sum_eq.symm
  have e2 : strainEnergy dim (elasticTangent dim E' nu ps') cells' pts R = (l.map f').sum + (extra.map f').sum := by
    rw [← List.sum_append, ← List.map_append]
    exact (hex.map f').sum_eq
  have hmem : ∀ x ∈ l, x ∈ cells' := fun x hx => hex.mem_iff.2 (List.mem_append_left _ hx)
  have hmem' : ∀ x ∈ extra, x ∈ cells' := fun x hx => hex.mem_iff.2 (List.mem_append_right _ hx)
  have h1 : E' / E * (l.map f).sum ≤ (l.map f').sum := by
    rw [← List.sum_map_mul_left]
    exact List.sum_le_sum fun x hx => hff x (hmem x hx)
  have h2 : 0 ≤ (extra.map f').sum := List.sum_nonneg fun y hy => by
    obtain ⟨x, hx, rfl⟩ := List.mem_map.1 hy
    exact hf0 x (hmem' x hx)
  rw [e1, e2]
  have h3 : E * (E' / E * (l.map f).sum) = E' * (l.map f).sum := by field_simp
  nlinarith

theorem points_both (P' : Problem dof' dim n E' nu s' cells' threads' st' c' num')
    (h : Stiffened n dof dof' ps ps' cells cells' c c' num num') :
    ∃ pts : Cell × FemElement ℝ → List (ℝ × IpData), (∀ x ∈ cells, x.1.Points (pts x)) ∧ ∀ x ∈ cells', x.1.Points (pts x) := by
  obtain ⟨pts, hpts⟩ := points_choice P'
  exact ⟨pts, fun x hx => hpts x (h.cells.subset hx), hpts⟩

/-- C124 (matrices): the stiffness matrices are ordered in the same way. -/
theorem C124_stiffness (P : Problem dof dim n E nu s cells threads st c num) (P' : Problem dof' dim n E' nu s' cells' threads' st' c' num')
    (h : Stiffened n dof dof' ps ps' cells cells' c c' num num') :
    ∃ a a' m m', assembleMatrix s dof (stiffness dof fun _ _ => .ok (elasticTangent dim E nu ps)) threads = .ok a ∧
      assembleMatrix s' dof' (stiffness dof' fun _ _ => .ok (elasticTangent dim E' nu ps')) threads' = .ok a' ∧
      a.find? (toLex (dof, dof)) = some m ∧ a'.find? (toLex (dof', dof')) = some m' ∧
      ∀ R : Nat → ℝ, E' * ∑ i ∈ range n, ∑ j ∈ range n, R i * m.entry i j * R j ≤
        E * ∑ i ∈ range n, ∑ j ∈ range n, R i * m'.entry i j * R j := by
  obtain ⟨pts, hp, hp'⟩ := points_both P' h
  obtain ⟨a, m, a1, a2, _, _, _, _, _, _, _, a10⟩ := P.matrix ps
  obtain ⟨a', m', b1, b2, _, _, _, _, _, _, _, b10⟩ := P'.matrix ps'
  refine ⟨a, a', m, m', a1, b1, a2, b2, fun R => ?_⟩
  have := C124_energy P P' h pts hp' R
  rw [a10 pts hp, b10 pts hp', form, form] at this
  linarith

/-- C124: if no motion without strains is left, then neither is it in the stiffened body. -/
theorem C124_held (h : Stiffened n dof dof' ps ps' cells cells' c c' num num') (hsup : Held dim dof n cells c num) :
    Held dim dof' n cells' c' num' := fun w hw hs hu =>
  hsup w hw (h.constraints w hw hs) fun x hx => hu x (h.cells.subset hx)

theorem satisfies_times {w : List ℝ} {a : ℝ} (hs : Satisfies c dof num (fun _ => 0) w) :
    Satisfies c dof num (fun _ => 0) (w.map (a * ·)) := by
  have hg : ∀ i, (w.map (a * ·)).getD i 0 = a * w.getD i 0 := by
    intro i
    simp only [List.getD_eq_getElem?_getD, List.getElem?_map]
    cases w[i]? <;> simp
  intro e he
  have := hs e he
  simp only [Equation.lhs, hg] at this ⊢
  have h2 : (e.ind.map fun t => t.coef * (a * w.getD (num t) 0)).sum = a * (e.ind.map fun t => t.coef * w.getD (num t) 0).sum := by
    rw [← List.sum_map_mul_left]
    congr 1
    exact List.map_congr_left fun t _ => by ring
  rw [h2]
  linear_combination a * this

/-- Clapeyron with homogeneous constraints. -/
theorem clapeyron (P : Problem dof dim n E nu s cells threads st c num) (pts : Cell × FemElement ℝ → List (ℝ × IpData))
    (hpts : ∀ x ∈ cells, x.1.Points (pts x)) {F u : List ℝ} (hF : F.length = n)
    (hu : Equilibrium dof dim n (elasticTangent dim E nu ps) cells pts c num F (fun _ => 0) u) :
    work n F u = 2 * strainEnergy dim (elasticTangent dim E nu ps) cells pts fun i => u.getD i 0 := by
  obtain ⟨r, _, r2, r3⟩ := C114_work P ps pts hpts (fun _ => F) (fun _ => hF) 0 u _ hu
  rw [r3 hu.holds, add_zero] at r2
  exact r2

/-- C124 (compliance): under the same forces the work of the forces on the displacements, relative to the modulus, is not larger
for the stiffened body. -/
theorem C124_compliance (P : Problem dof dim n E nu s cells threads st c num) (P' : Problem dof' dim n E' nu s' cells' threads' st' c' num')
    (h : Stiffened n dof dof' ps ps' cells cells' c c' num num') (pts : Cell × FemElement ℝ → List (ℝ × IpData))
    (hpts : ∀ x ∈ cells', x.1.Points (pts x)) {F u u' : List ℝ} (hF : F.length = n)
    (hu : Equilibrium dof dim n (elasticTangent dim E nu ps) cells pts c num F (fun _ => 0) u)
    (hu' : Equilibrium dof' dim n (elasticTangent dim E' nu ps') cells' pts c' num' F (fun _ => 0) u') :
    0 ≤ work n F u' ∧ E' * work n F u' ≤ E * work n F u := by
  have hp : ∀ x ∈ cells, x.1.Points (pts x) := fun x hx => hpts x (h.cells.subset hx)
  have k := clapeyron P pts hp hF hu
  have k' := clapeyron P' pts hpts hF hu'
  have hE := P.stiff
  have hE' := P'.stiff
  obtain ⟨a, m, _, _, _, _, _, _, _, _, _, a10⟩ := P.matrix ps
  obtain ⟨a', m', _, _, _, _, _, _, _, b8, _, b10⟩ := P'.matrix ps'
  have hpos : 0 ≤ work n F u' := by
    rw [k', b10 pts hpts]
    have := b8 fun i => u'.getD i 0
    linarith
  refine ⟨hpos, ?_⟩
  obtain ⟨q, hq⟩ : ∃ q, q = E' / E := ⟨_, rfl⟩
  have hg : ∀ i, (u'.map (q * ·)).getD i 0 = q * u'.getD i 0 := by
    intro i
    simp only [List.getD_eq_getElem?_getD, List.getElem?_map]
    cases u'[i]? <;> simp
  have hl := hu.least (u'.map (q * ·)) (by rw [List.length_map, hu'.length])
    (satisfies_times (h.constraints u' hu'.length hu'.holds))
  have hw : ∀ v : List ℝ, ∑ i ∈ range F.length, F.getD i 0 * v.getD i 0 = work n F v := fun v => by rw [hF]; rfl
  have hws : work n F (u'.map (q * ·)) = q * work n F u' := by
    simp only [work, hg, mul_sum]
    exact sum_congr rfl fun i _ => by ring
  have hes : strainEnergy dim (elasticTangent dim E nu ps) cells pts (fun i => (u'.map (q * ·)).getD i 0) =
      q ^ 2 * strainEnergy dim (elasticTangent dim E nu ps) cells pts fun i => u'.getD i 0 := by
    rw [a10 pts hp, a10 pts hp, form, form]
    simp only [hg, mul_sum]
    exact sum_congr rfl fun i _ => sum_congr rfl fun j _ => by ring
  rw [potential, potential, hw, hw, hws, hes] at hl
  have hen := C124_energy P P' h pts hpts fun i => u'.getD i 0
  have hqE : q * E = E' := by rw [hq]; field_simp
  have hq0 : 0 < q := by rw [hq]; positivity
  set W := work n F u
  set W' := work n F u'
  set e0 := strainEnergy dim (elasticTangent dim E nu ps) cells pts fun i => u'.getD i 0
  set e1 := strainEnergy dim (elasticTangent dim E' nu ps') cells' pts fun i => u'.getD i 0
  have h1 : q * e0 ≤ e1 := by
    rw [← hqE] at hen
    have : E * (q * e0) ≤ E * e1 := by linarith
    exact le_of_mul_le_mul_left this hE
  have h2 : q ^ 2 * e0 ≤ q * e1 := by
    have := mul_le_mul_of_nonneg_left h1 hq0.le
    linarith
  have h3 : q * W' ≤ W := by nlinarith
  calc E' * W' = E * (q * W') := by rw [← hqE]; ring
    _ ≤ E * W := mul_le_mul_of_nonneg_left h3 hE.le

/-- C124 (`Solve`): the results for the same forces; in particular, if the modulus is not smaller, the work of the forces is not
larger. -/
theorem C124_solve (P : Problem dof dim n E nu s cells threads st c num) (P' : Problem dof' dim n E' nu s' cells' threads' st' c' num')
    (h : Stiffened n dof dof' ps ps' cells cells' c c' num num') (hsup : Held dim dof n cells c num) :
    ∃ a a', assembleMatrix s dof (stiffness dof fun _ _ => .ok (elasticTangent dim E nu ps)) threads = .ok a ∧
      assembleMatrix s' dof' (stiffness dof' fun _ _ => .ok (elasticTangent dim E' nu ps')) threads' = .ok a' ∧
      ∀ (F : List ℝ), F.length = n → ∀ toFloat toFloat' : ℝ → ℝ, ∀ lin lin', SolvesSpd lin → SolvesSpd lin' →
        LinSolver lin → LinSolver lin' →
        ∃ res res' u u', Solve.solve lin (c.bcs toFloat st) a [(dof, F)] [dof] = .ok res ∧
          Solve.solve lin' (c'.bcs toFloat' st') a' [(dof', F)] [dof'] = .ok res' ∧
          res.find? dof = some u ∧ res'.find? dof' = some u' ∧ u.length = n ∧ u'.length = n ∧
          E' * work n F u' ≤ E * work n F u ∧ (E ≤ E' → work n F u' ≤ work n F u) := by
  obtain ⟨pts, hp, hp'⟩ := points_both P' h
  obtain ⟨a, a1, a2⟩ := C101_solvable P ps hsup
  obtain ⟨a', b1, b2⟩ := C101_solvable P' ps' (C124_held h hsup)
  obtain ⟨a0, a3, a4⟩ := C114_solve P ps pts hp
  obtain ⟨b0, b3, b4⟩ := C114_solve P' ps' pts hp'
  obtain rfl : a = a0 := Res.ok.inj (a1.symm.trans a3)
  obtain rfl : a' = b0 := Res.ok.inj (b1.symm.trans b3)
  refine ⟨a, a', a1, b1, fun F hF toFloat toFloat' lin lin' hs hs' hl hl' => ?_⟩
  obtain ⟨u, u1, u2⟩ := a2 toFloat F hF
  obtain ⟨res, r1, r2⟩ := u2 lin hs
  obtain ⟨u', v1, v2⟩ := b2 toFloat' F hF
  obtain ⟨res', r1', r2'⟩ := v2 lin' hs'
  obtain ⟨w, w1, w2⟩ := a4 lin hl toFloat F hF res r1
  obtain ⟨w', w1', w2'⟩ := b4 lin' hl' toFloat' F hF res' r1'
  obtain rfl : u = w := Option.some.inj (r2.symm.trans w1)
  obtain rfl : u' = w' := Option.some.inj (r2'.symm.trans w1')
  obtain ⟨k0, k1⟩ := C124_compliance P P' h pts hp' hF w2 w2'
  refine ⟨res, res', u, u', r1, r1', r2, r2', u1, v1, k1, fun hE => ?_⟩
  have hpos := P.stiff
  have : E * work n F u' ≤ E * work n F u := (mul_le_mul_of_nonneg_right hE k0).trans k1
  exact le_of_mul_le_mul_left this hpos

theorem work_single {k : Nat} (hk : k < n) (f : ℝ) (v : List ℝ) : work n ((List.replicate n 0).set k f) v = f * v.getD k 0 := by
  rw [work, sum_eq_single k]
  · simp [List.getD_eq_getElem?_getD, hk]
  · intro b hb hne
    rw [List.getD_eq_getElem?_getD, List.getElem?_set_ne hne.symm, ← List.getD_eq_getElem?_getD, zero_getD, zero_mul]
  · intro h
    exact absurd (mem_range.2 hk) h

/-- C124 (deflection): the displacement at a single force, in its direction, is not larger for the stiffened body, and neither is
the displacement against the direction. -/
theorem C124_deflection (P : Problem dof dim n E nu s cells threads st c num) (P' : Problem dof' dim n E' nu s' cells' threads' st' c' num')
    (h : Stiffened n dof dof' ps ps' cells cells' c c' num num') (hsup : Held dim dof n cells c num) (hE : E ≤ E') :
    ∃ a a', assembleMatrix s dof (stiffness dof fun _ _ => .ok (elasticTangent dim E nu ps)) threads = .ok a ∧
      assembleMatrix s' dof' (stiffness dof' fun _ _ => .ok (elasticTangent dim E' nu ps')) threads' = .ok a' ∧
      ∀ (k : Nat), k < n → ∀ f : ℝ, 0 < f → ∀ toFloat toFloat' : ℝ → ℝ, ∀ lin lin', SolvesSpd lin → SolvesSpd lin' →
        LinSolver lin → LinSolver lin' →
        ∃ res res' u u', Solve.solve lin (c.bcs toFloat st) a [(dof, (List.replicate n 0).set k f)] [dof] = .ok res ∧
          Solve.solve lin' (c'.bcs toFloat' st') a' [(dof', (List.replicate n 0).set k f)] [dof'] = .ok res' ∧
          res.find? dof = some u ∧ res'.find? dof' = some u' ∧ u'.getD k 0 ≤ u.getD k 0 := by
  obtain ⟨a, a', a1, a2, a3⟩ := C124_solve P P' h hsup
  refine ⟨a, a', a1, a2, fun k hk f hf toFloat toFloat' lin lin' hs hs' hl hl' => ?_⟩
  obtain ⟨res, res', u, u', r1, r2, r3, r4, _, _, _, r5⟩ := a3 ((List.replicate n 0).set k f) (by simp) toFloat toFloat' lin lin' hs hs' hl hl'
  refine ⟨res, res', u, u', r1, r2, r3, r4, ?_⟩
  have := r5 hE
  rw [work_single hk, work_single hk] at this
  exact le_of_mul_le_mul_left this hf

/-- C124 (prescribed displacements): without forces, if the constraints of the stiffened body prescribe what those of the first
body do (and maybe more), then it stores more energy and the reactions do more work, relative to the modulus. -/
theorem C124_prescribed (P : Problem dof dim n E nu s cells threads st c num) (P' : Problem dof' dim n E' nu s' cells' threads' st' c' num')
    (h : Stiffened n dof dof' ps ps' cells cells' c c' num num') (pts : Cell × FemElement ℝ → List (ℝ × IpData))
    (hpts : ∀ x ∈ cells', x.1.Points (pts x)) {rhs rhs' : Equation ℝ → ℝ}
    (hrhs : ∀ w : List ℝ, w.length = n → Satisfies c' dof' num' rhs' w → Satisfies c dof num rhs w) {u u' : List ℝ}
    (hu : Equilibrium dof dim n (elasticTangent dim E nu ps) cells pts c num (List.replicate n 0) rhs u)
    (hu' : Equilibrium dof' dim n (elasticTangent dim E' nu ps') cells' pts c' num' (List.replicate n 0) rhs' u') (t : ℝ) :
    E' * strainEnergy dim (elasticTangent dim E nu ps) cells pts (fun i => u.getD i 0) ≤
      E * strainEnergy dim (elasticTangent dim E' nu ps') cells' pts (fun i => u'.getD i 0) ∧
    ∃ r r', gradient (setup dof dim E nu ps s threads fun _ => List.replicate n 0) [(dof, u)] t = .ok [(dof, r)] ∧
      gradient (setup dof' dim E' nu ps' s' threads' fun _ => List.replicate n 0) [(dof', u')] t = .ok [(dof', r')] ∧
      E' * work n r u ≤ E * work n r' u' := by
  have hp : ∀ x ∈ cells, x.1.Points (pts x) := fun x hx => hpts x (h.cells.subset hx)
  have hz : ∀ v : List ℝ, ∑ i ∈ range (List.replicate n (0 : ℝ)).length, (List.replicate n (0 : ℝ)).getD i 0 * v.getD i 0 = 0 :=
    fun v => sum_eq_zero fun i _ => by rw [zero_getD, zero_mul]
  have hl := hu.least u' hu'.length (hrhs u' hu'.length hu'.holds)
  rw [potential, potential, hz, hz, sub_zero, sub_zero] at hl
  have hen := C124_energy P P' h pts hpts fun i => u'.getD i 0
  have key := (mul_le_mul_of_nonneg_left hl P'.stiff.le).trans hen
  refine ⟨key, ?_⟩
  obtain ⟨r, r1, r2, _⟩ := C114_work P ps pts hp (fun _ => List.replicate n 0) (fun _ => by simp) t u rhs hu
  obtain ⟨r', r1', r2', _⟩ := C114_work P' ps' pts hpts (fun _ => List.replicate n 0) (fun _ => by simp) t u' rhs' hu'
  refine ⟨r, r', r1, r1', ?_⟩
  have hz' : ∀ v : List ℝ, work n (List.replicate n (0 : ℝ)) v = 0 := fun v => sum_eq_zero fun i _ => by rw [zero_getD, zero_mul]
  rw [hz', zero_add] at r2 r2'
  rw [r2, r2']
  linarith

/-- C124 (steps): the same for a step of `QuasistaticSolver` with homogeneous constraints, from any admissible displacements to the
forces of the new time. -/
theorem C124_step (P : Problem dof dim n E nu s cells threads st c num) (P' : Problem dof' dim n E' nu s' cells' threads' st' c' num')
    (h : Stiffened n dof dof' ps ps' cells cells' c c' num num') (hsup : Held dim dof n cells c num)
    (hc : ∀ e ∈ c.equations dof, ∀ t, e.rhs t = 0) (hc' : ∀ e ∈ c'.equations dof', ∀ t, e.rhs t = 0) (load : ℝ → List ℝ)
    (hload : ∀ t, (load t).length = n) (toFloat toFloat' : ℝ → ℝ) (hfl : toFloat 0 = 0) (hfl' : toFloat' 0 = 0) (c0 c0' : DofSpMat ℝ)
    (tol tol' : ℝ) (htol : 0 < tol) (htol' : 0 < tol') :
    ∃ C C' cmat cmat', c.buildUnitConstraintMatrix st dof n = .ok C ∧ c'.buildUnitConstraintMatrix st' dof' n = .ok C' ∧
      setConstraints (c.bcs toFloat st) (fun _ => n) c0 [dof] = .ok cmat ∧
      setConstraints (c'.bcs toFloat' st') (fun _ => n) c0' [dof'] = .ok cmat' ∧
      ∀ R0 R0', R0.length = n → R0'.length = n → Satisfies c dof num (fun _ => 0) R0 → Satisfies c' dof' num' (fun _ => 0) R0' →
        ∀ t0 t1 : ℝ, ∃ u u', E' * work n (load t1) u' ≤ E * work n (load t1) u ∧
        ∀ lin lin', SolvesSpd lin → SolvesSpd lin' → ∀ step step' : ℝ,
          trialState (env (setup dof dim E nu ps s threads load) lin (c.bcs toFloat st) cmat tol) ⟨[(dof, R0)], t0, step, ()⟩ t1 =
            .ok [(dof, u)] ∧
          trialState (env (setup dof' dim E' nu ps' s' threads' load) lin' (c'.bcs toFloat' st') cmat' tol')
            ⟨[(dof', R0')], t0, step', ()⟩ t1 = .ok [(dof', u')] ∧
          (freeNorm C u ≤ 10000000000 →
            doStep (env (setup dof dim E nu ps s threads load) lin (c.bcs toFloat st) cmat tol) ⟨[(dof, R0)], t0, step, ()⟩ t1 =
              (⟨[(dof, u)], t1, t1 - t0, ()⟩, .converged 0)) ∧
          (freeNorm C' u' ≤ 10000000000 →
            doStep (env (setup dof' dim E' nu ps' s' threads' load) lin' (c'.bcs toFloat' st') cmat' tol')
              ⟨[(dof', R0')], t0, step', ()⟩ t1 = (⟨[(dof', u')], t1, t1 - t0, ()⟩, .converged 0)) := by
  obtain ⟨pts, hp, hp'⟩ := points_both P' h
  obtain ⟨C, cmat, a1, a2, a3⟩ := C105_step_partial P hsup ps pts hp load hload toFloat
    (fun e he t => by rw [hc e he t, hfl]) c0 tol htol
  obtain ⟨C', cmat', b1, b2, b3⟩ := C105_step_partial P' (C124_held h hsup) ps' pts hp' load hload toFloat'
    (fun e he t => by rw [hc' e he t, hfl']) c0' tol' htol'
  refine ⟨C, C', cmat, cmat', a1, b1, a2, b2, fun R0 R0' h1 h1' h2 h2' t0 t1 => ?_⟩
  obtain ⟨u, u1, _, u3⟩ := a3 R0 h1 t0 t1
  obtain ⟨u', v1, _, v3⟩ := b3 R0' h1' t0 t1
  have e1 := u1.congr (rhs' := fun _ => 0) fun e he => by rw [h2 e he, hc e he, hc e he]; ring
  have e2 := v1.congr (rhs' := fun _ => 0) fun e he => by rw [h2' e he, hc' e he, hc' e he]; ring
  refine ⟨u, u', (C124_compliance P P' h pts hp' (hload t1) e1 e2).2, fun lin lin' hs hs' step step' => ?_⟩
  obtain ⟨x1, x2, _⟩ := u3 lin hs step
  obtain ⟨y1, y2, _⟩ := v3 lin' hs' step'
  exact ⟨x1, y1, x2, y2⟩

/-! ### Example -/

/-- The constraints of C101, and a further support. -/
noncomputable def exC124 : Constraints ℝ :=
  ⟨[(0, [⟨⟨1, 0, 1⟩, [], fun _ => 0⟩, ⟨⟨1, 1, 1⟩, [], fun _ => 0⟩, ⟨⟨1, 3, 1⟩, [], fun _ => 0⟩, ⟨⟨1, 5, 1⟩, [], fun _ => 0⟩])],
    [(1, 0), (1, 1), (1, 3), (1, 5)], []⟩

theorem exC124_eqs : exC124.equations 0 =
    [⟨⟨1, 0, 1⟩, [], fun _ => 0⟩, ⟨⟨1, 1, 1⟩, [], fun _ => 0⟩, ⟨⟨1, 3, 1⟩, [], fun _ => 0⟩, ⟨⟨1, 5, 1⟩, [], fun _ => 0⟩] := by
  simp [exC124, Constraints.equations, OMap.find?]

/-- Three cells, one of them twice, a larger modulus and a further support. -/
theorem exC124_problem : Problem 0 2 8 3 0 ⟨[(0, 8)], [(0, 0)]⟩ [exampleBody, exampleBody2, exampleBody]
    [[exampleBody, exampleBody2], [exampleBody]] exStore101 exC124 (fun t => t.comp.toNat) where
  dim1 := by norm_num
  dim3 := by norm_num
  stiff := by norm_num
  poisson := by norm_num
  body := fun x hx => exampleMesh_body x (by simp only [List.mem_cons, List.not_mem_nil, or_false] at hx ⊢; tauto)
  positive := fun x hx => exampleMesh_weights x (by simp only [List.mem_cons, List.not_mem_nil, or_false] at hx ⊢; tauto)
  size := rfl
  schedule := List.Perm.refl _
  valid := by
    rw [exC124_eqs]
    refine ⟨?_, by simp, ?_⟩
    · intro e he t ht
      simp only [List.mem_cons, List.not_mem_nil, or_false] at he
      rcases he with rfl | rfl | rfl | rfl <;>
        (simp only [List.mem_cons, List.not_mem_nil, or_false] at ht; subst ht
         simp [Term.dofNumber, Node.getDofNumber, exStore101])
    · intro e _ f hf t ht
      simp only [List.mem_cons, List.not_mem_nil, or_false] at hf
      rcases hf with rfl | rfl | rfl | rfl <;> simp at ht
  unit := by
    rw [exC124_eqs]
    simp
  tiny := by
    rw [exC124_eqs]
    intro e he t ht
    simp only [List.mem_cons, List.not_mem_nil, or_false] at he
    rcases he with rfl | rfl | rfl | rfl <;> simp at ht

/-- The hypotheses of C124. -/
example : Problem 0 2 8 1 0 ⟨[(0, 8)], [(0, 0)]⟩ [exampleBody, exampleBody2] [[exampleBody2], [exampleBody]] exStore101
      (exC101 fun _ => 0) (fun t => t.comp.toNat) ∧
    Held 2 0 8 [exampleBody, exampleBody2] (exC101 fun _ => 0) (fun t => t.comp.toNat) ∧
    Stiffened 8 0 0 .planeStress .planeStrain [exampleBody, exampleBody2] [exampleBody, exampleBody2, exampleBody] (exC101 fun _ => 0) exC124
      (fun t => t.comp.toNat) (fun t => t.comp.toNat) ∧
    (∀ e ∈ (exC101 fun _ => 0).equations 0, ∀ t, e.rhs t = 0) ∧ (∀ e ∈ exC124.equations 0, ∀ t, e.rhs t = 0) ∧
    (∃ lin, SolvesSpd lin ∧ LinSolver lin) ∧ ∃ u u', ∃ pts : Cell × FemElement ℝ → List (ℝ × IpData),
      (∀ x ∈ [exampleBody, exampleBody2, exampleBody], x.1.Points (pts x)) ∧
      Equilibrium 0 2 8 (elasticTangent 2 1 0 .planeStress) [exampleBody, exampleBody2] pts (exC101 fun _ => 0) (fun t => t.comp.toNat)
        [0, 0, 0, 0, 1, 0, 0, 2] (fun _ => 0) u ∧
      Equilibrium 0 2 8 (elasticTangent 2 3 0 .planeStrain) [exampleBody, exampleBody2, exampleBody] pts exC124 (fun t => t.comp.toNat)
        [0, 0, 0, 0, 1, 0, 0, 2] (fun _ => 0) u' := by
  have hst : Stiffened 8 0 0 .planeStress .planeStrain [exampleBody, exampleBody2] [exampleBody, exampleBody2, exampleBody] (exC101 fun _ => 0)
      exC124 (fun t => t.comp.toNat) (fun t => t.comp.toNat) := by
    refine ⟨(List.sublist_append_left [exampleBody, exampleBody2] [exampleBody]).subperm, .inr rfl, fun w _ hs e he => ?_⟩
    refine hs e ?_
    rw [exC101_eqs] at he
    rw [exC124_eqs]
    simp only [List.mem_cons, List.not_mem_nil, or_false] at he ⊢
    tauto
  have P := exC101_problem fun _ => 0
  obtain ⟨lin, h1, h2⟩ := ideal_solver
  have hs := h2.solvesSpd h1
  obtain ⟨pts, hp, hp'⟩ := points_both exC124_problem hst
  obtain ⟨a, a1, a2⟩ := C101_solvable P .planeStress (exC101_held _)
  obtain ⟨a', b1, b2⟩ := C101_solvable exC124_problem .planeStrain (C124_held hst (exC101_held _))
  obtain ⟨a0, a3, a4⟩ := C114_solve P .planeStress pts hp
  obtain ⟨b0, b3, b4⟩ := C114_solve exC124_problem .planeStrain pts hp'
  obtain rfl : a = a0 := Res.ok.inj (a1.symm.trans a3)
  obtain rfl : a' = b0 := Res.ok.inj (b1.symm.trans b3)
  obtain ⟨u, _, u2⟩ := a2 id [0, 0, 0, 0, 1, 0, 0, 2] rfl
  obtain ⟨res, r1, _⟩ := u2 lin hs
  obtain ⟨u', _, v2⟩ := b2 id [0, 0, 0, 0, 1, 0, 0, 2] rfl
  obtain ⟨res', r1', _⟩ := v2 lin hs
  obtain ⟨w, _, w2⟩ := a4 lin h1 id _ rfl res r1
  obtain ⟨w', _, w2'⟩ := b4 lin h1 id _ rfl res' r1'
  refine ⟨P, exC101_held _, hst, ?_, ?_, ⟨lin, hs, h1⟩, w, w', pts, hp', w2, w2'⟩
  · rw [exC101_eqs]; simp
  · rw [exC124_eqs]; simp

end Stiffening

end NuTo
