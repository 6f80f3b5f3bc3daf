import Verif.Props.Stiffening

/-!
C126: computed displacements and reactions in a turned and shifted frame.
-/
namespace NuTo

open Assembly Finset Balance Solve Statics Quasistatic ElasticStep Reactions Jacobian Frame

namespace Objectivity

open Renumbering (Matches Renumbered SameConstraints)

/-! ### Specification -/

/-- The dofs are the components of vectors at `N` nodes: component `a` of node `P` has the number `nn P a`. -/
structure NodeNumbers (dim n N : Nat) (nn : Nat → Nat → Nat) (cells : List (Cell × FemElement ℝ)) : Prop where
  lt : ∀ P < N, ∀ a < dim, nn P a < n
  inj : ∀ P < N, ∀ a < dim, ∀ P' < N, ∀ a' < dim, nn P a = nn P' a' → P = P' ∧ a = a'
  surj : ∀ i < n, ∃ P < N, ∃ a < dim, nn P a = i
  element : ∀ x ∈ cells, ∀ i < x.2.nodes.length, ∃ P < N, ∀ a < dim, number x.2 i a = nn P a

/-- The components of the same vectors in the turned frame. -/
def Turns (dim n N : Nat) (nn : Nat → Nat → Nat) (Q : Nat → Nat → ℝ) (u u' : List ℝ) : Prop :=
  u.length = n ∧ u'.length = n ∧ ∀ P < N, ∀ a < dim, u'.getD (nn P a) 0 = ∑ b ∈ range dim, Q a b * u.getD (nn P b) 0

/-- The same constraints in the turned frame: they hold for the turned displacements. -/
def TurnedConstraints (dim n N : Nat) (nn : Nat → Nat → Nat) (Q : Nat → Nat → ℝ) (dof dof' : Nat) (c c' : Constraints ℝ)
    (num num' : Term ℝ → Nat) (rhs rhs' : Equation ℝ → ℝ) : Prop :=
  ∀ w w', Turns dim n N nn Q w w' → (Satisfies c' dof' num' rhs' w' ↔ Satisfies c dof num rhs w)

/-! ### Proofs -/

variable {dim n N dof dof' : Nat} {nn : Nat → Nat → Nat} {Q : Nat → Nat → ℝ} {t : Nat → ℝ} {E nu : ℝ} {s s' : DofSizes}
  {cells cells' : List (Cell × FemElement ℝ)} {threads threads' : List (List (Cell × FemElement ℝ))} {st st' : NodeStore ℝ}
  {c c' : Constraints ℝ} {num num' : Term ℝ → Nat}

theorem NodeNumbers.sum (h : NodeNumbers dim n N nn cells) (f : Nat → ℝ) :
    ∑ i ∈ range n, f i = ∑ P ∈ range N, ∑ a ∈ range dim, f (nn P a) := by
  rw [← sum_product']
  symm
  refine sum_bij (fun p _ => nn p.1 p.2) ?_ ?_ ?_ fun _ _ => rfl
  · intro p hp
    rw [mem_product, mem_range, mem_range] at hp
    exact mem_range.2 (h.lt _ hp.1 _ hp.2)
  · intro p hp q hq e
    rw [mem_product, mem_range, mem_range] at hp hq
    obtain ⟨e1, e2⟩ := h.inj _ hp.1 _ hp.2 _ hq.1 _ hq.2 e
    exact Prod.ext e1 e2
  · intro i hi
    obtain ⟨P, hP, a, ha, e⟩ := h.surj i (mem_range.1 hi)
    exact ⟨(P, a), by rw [mem_product, mem_range, mem_range]; exact ⟨hP, ha⟩, e⟩

/-- components given node by node -/
theorem NodeNumbers.make (h : NodeNumbers dim n N nn cells) (f : Nat → Nat → ℝ) :
    ∃ u : List ℝ, u.length = n ∧ ∀ P < N, ∀ a < dim, u.getD (nn P a) 0 = f P a := by
  choose! p hp a ha hpa using h.surj
  obtain ⟨u, h1, h2⟩ := ofFun n fun i => f (p i) (a i)
  refine ⟨u, h1, fun P hP b hb => ?_⟩
  have hlt := h.lt P hP b hb
  obtain ⟨e1, e2⟩ := h.inj _ (hp _ hlt) _ (ha _ hlt) _ hP _ hb (hpa _ hlt)
  rw [h2 _ hlt, e1, e2]

theorem rows (hQ : Rotation dim Q) : ∀ a < dim, ∀ b < dim, ∑ e ∈ range dim, Q a e * Q b e = if a = b then 1 else 0 := by
  intro a ha b hb
  have := congrFun (congrFun hQ.right ⟨a, ha⟩) ⟨b, hb⟩
  rw [Matrix.mul_apply, Matrix.one_apply] at this
  rw [← Fin.sum_univ_eq_sum_range (fun e => Q a e * Q b e)]
  simp only [Fin.mk.injEq] at this
  exact this

theorem NodeNumbers.push (h : NodeNumbers dim n N nn cells) (u : List ℝ) (hu : u.length = n) : ∃ u', Turns dim n N nn Q u u' := by
  obtain ⟨u', h1, h2⟩ := h.make fun P a => ∑ b ∈ range dim, Q a b * u.getD (nn P b) 0
  exact ⟨u', hu, h1, h2⟩

theorem NodeNumbers.pull (h : NodeNumbers dim n N nn cells) (hQ : Rotation dim Q) (u' : List ℝ) (hu : u'.length = n) :
    ∃ u, Turns dim n N nn Q u u' := by
  obtain ⟨u, h1, h2⟩ := h.make fun P b => ∑ a ∈ range dim, Q a b * u'.getD (nn P a) 0
  refine ⟨u, h1, hu, fun P hP a ha => ?_⟩
  rw [sum_congr rfl fun b hb => by rw [h2 P hP b (mem_range.1 hb), mul_sum]]
  rw [sum_comm, sum_eq_single a]
  · rw [← sum_congr rfl fun b _ => mul_assoc (Q a b) (Q a b) (u'.getD (nn P a) 0), ← sum_mul, rows hQ a ha a ha, if_pos rfl, one_mul]
  · intro e he hne
    rw [← sum_congr rfl fun b _ => mul_assoc (Q a b) (Q e b) (u'.getD (nn P e) 0), ← sum_mul, rows hQ a ha e (mem_range.1 he),
      if_neg (Ne.symm hne), zero_mul]
  · intro hh
    exact absurd (mem_range.2 ha) hh

/-- Work does not depend on the frame. -/
theorem turns_dot (h : NodeNumbers dim n N nn cells) (hQ : Rotation dim Q) {f f' u u' : List ℝ} (hf : Turns dim n N nn Q f f')
    (hu : Turns dim n N nn Q u u') :
    ∑ i ∈ range n, f'.getD i 0 * u'.getD i 0 = ∑ i ∈ range n, f.getD i 0 * u.getD i 0 := by
  rw [h.sum fun i => f'.getD i 0 * u'.getD i 0, h.sum fun i => f.getD i 0 * u.getD i 0]
  refine sum_congr rfl fun P hP => ?_
  have hP := mem_range.1 hP
  calc ∑ a ∈ range dim, f'.getD (nn P a) 0 * u'.getD (nn P a) 0
      = ∑ a ∈ range dim, ∑ b ∈ range dim, ∑ e ∈ range dim,
          Q a b * Q a e * (f.getD (nn P b) 0 * u.getD (nn P e) 0) := by
        refine sum_congr rfl fun a ha => ?_
        rw [hf.2.2 P hP a (mem_range.1 ha), hu.2.2 P hP a (mem_range.1 ha), sum_mul_sum]
        exact sum_congr rfl fun b _ => sum_congr rfl fun e _ => by ring
    _ = ∑ b ∈ range dim, ∑ e ∈ range dim, (∑ a ∈ range dim, Q a b * Q a e) * (f.getD (nn P b) 0 * u.getD (nn P e) 0) := by
        rw [sum_comm]
        refine sum_congr rfl fun b _ => ?_
        rw [sum_comm]
        exact sum_congr rfl fun e _ => by rw [sum_mul]
    _ = _ := by
        refine sum_congr rfl fun b hb => ?_
        rw [sum_eq_single b]
        · rw [hQ.orthogonal b (mem_range.1 hb) b (mem_range.1 hb), if_pos rfl, one_mul]
        · intro e he hne
          rw [hQ.orthogonal b (mem_range.1 hb) e (mem_range.1 he), if_neg (Ne.symm hne), zero_mul]
        · intro hh
          exact absurd hb hh

theorem turns_vector (h : NodeNumbers dim n N nn cells) {u u' : List ℝ} (hu : Turns dim n N nn Q u u') :
    TurnedVector dim Q cells (fun i => u.getD i 0) fun i => u'.getD i 0 := by
  intro x hx i hi a ha
  obtain ⟨P, hP, e⟩ := h.element x hx i hi
  beta_reduce
  rw [e a ha, hu.2.2 P hP a ha]
  exact sum_congr rfl fun b hb => by rw [e b (mem_range.1 hb)]

/-- C126 (constraints): constraints whose coefficients are the turned coefficients, up to a factor, are the same constraints. -/
theorem C126_constraints (hN : NodeNumbers dim n N nn cells) (hQ : Rotation dim Q) {rhs rhs' : Equation ℝ → ℝ}
    (R : Equation ℝ → Equation ℝ → Prop)
    (hR : ∀ e e', R e e' → ∃ g g' k, k ≠ 0 ∧ Turns dim n N nn Q g g' ∧ rhs' e' = k * rhs e ∧
      (∀ u : List ℝ, u.length = n → e.lhs num (fun i => u.getD i 0) = ∑ i ∈ range n, g.getD i 0 * u.getD i 0) ∧
      ∀ u : List ℝ, u.length = n → e'.lhs num' (fun i => u.getD i 0) = k * ∑ i ∈ range n, g'.getD i 0 * u.getD i 0)
    (h1 : ∀ e ∈ c.equations dof, ∃ e' ∈ c'.equations dof', R e e') (h2 : ∀ e' ∈ c'.equations dof', ∃ e ∈ c.equations dof, R e e') :
    TurnedConstraints dim n N nn Q dof dof' c c' num num' rhs rhs' := by
  intro w w' hw
  have key : ∀ e e', R e e' → (e'.lhs num' (fun i => w'.getD i 0) = rhs' e' ↔ e.lhs num (fun i => w.getD i 0) = rhs e) := by
    intro e e' h
    obtain ⟨g, g', k, hk, hg, r, l1, l2⟩ := hR e e' h
    rw [l1 w hw.1, l2 w' hw.2.1, r, turns_dot hN hQ hg hw, mul_right_inj' hk]
  constructor
  · intro h e he
    obtain ⟨e', he', hs⟩ := h1 e he
    exact (key e e' hs).1 (h e' he')
  · intro h e' he'
    obtain ⟨e, he, hs⟩ := h2 e' he'
    exact (key e e' hs).2 (h e he)

/-- C126 (energy): the strain energy does not depend on the frame. -/
theorem C126_energy (hF : Frames dim n Q t cells cells') (h1 : 1 ≤ dim) (h3 : dim ≤ 3) (hE : 0 < E) (hn : -1 < nu ∧ nu < 1 / 2)
    (pts pts' : Cell × FemElement ℝ → List (ℝ × IpData)) (hpts : ∀ x ∈ cells, x.1.Points (pts x))
    (hpts' : ∀ x ∈ cells', x.1.Points (pts' x)) (ps : PlaneState) (R R' : Nat → ℝ) (hR : TurnedVector dim Q cells R R') :
    strainEnergy dim (elasticTangent dim E nu ps) cells' pts' R' = strainEnergy dim (elasticTangent dim E nu ps) cells pts R := by
  rw [strainEnergy, strainEnergy]
  refine forall₂_sum _ _ hF.turned fun x hx y hy hxy => ?_
  have bx := hF.body x hx
  refine forall₂_sum _ _ (hxy.points (hpts x hx) (hpts' y hy)) fun p _ q _ hpq => ?_
  obtain ⟨hsame, hpm, hqm⟩ := hpq
  have hdet := hF.regular x hx _ (hpts x hx) p hpm
  have g := hxy.gradient hF.rotation bx (hF.body' y hy) (hpts x hx) (hpts' y hy) hpm hqm hsame hdet
  have e := hxy.strain hF.rotation bx (hF.body' y hy) (hpts x hx) (hpts' y hy) hpm hqm hsame hdet (hR x hx)
  rw [e, strains_voigt_self h1 h3, ← dot_apply _ _ _ rfl, ← dot_apply _ _ _ rfl,
    C108_elastic h1 h3 E nu ps hE hn.1 hn.2 Q hF.rotation _ _ p.2 q.2 hsame.cellId hsame.ipId, g.1, hsame.weight]

theorem potential_turned (hF : Frames dim n Q t cells cells') (hN : NodeNumbers dim n N nn cells) (h1 : 1 ≤ dim) (h3 : dim ≤ 3)
    (hE : 0 < E) (hn : -1 < nu ∧ nu < 1 / 2) (pts pts' : Cell × FemElement ℝ → List (ℝ × IpData))
    (hpts : ∀ x ∈ cells, x.1.Points (pts x)) (hpts' : ∀ x ∈ cells', x.1.Points (pts' x)) (ps : PlaneState) {F F' w w' : List ℝ}
    (hf : Turns dim n N nn Q F F') (hw : Turns dim n N nn Q w w') :
    potential dim (elasticTangent dim E nu ps) cells' pts' F' w' = potential dim (elasticTangent dim E nu ps) cells pts F w := by
  rw [potential, potential, C126_energy hF h1 h3 hE hn pts pts' hpts hpts' ps _ _ (turns_vector hN hw), hf.1, hf.2.1,
    turns_dot hN hF.rotation hf hw]

/-- C126 (equilibria): the turned displacements are an equilibrium under the turned forces and constraints. -/
theorem C126_equilibrium (hF : Frames dim n Q t cells cells') (hN : NodeNumbers dim n N nn cells) (h1 : 1 ≤ dim) (h3 : dim ≤ 3)
    (hE : 0 < E) (hn : -1 < nu ∧ nu < 1 / 2) (pts pts' : Cell × FemElement ℝ → List (ℝ × IpData))
    (hpts : ∀ x ∈ cells, x.1.Points (pts x)) (hpts' : ∀ x ∈ cells', x.1.Points (pts' x)) (ps : PlaneState) {F F' u u' : List ℝ}
    {rhs rhs' : Equation ℝ → ℝ} (hcon : TurnedConstraints dim n N nn Q dof dof' c c' num num' rhs rhs')
    (hf : Turns dim n N nn Q F F') (hu : Turns dim n N nn Q u u') :
    Equilibrium dof' dim n (elasticTangent dim E nu ps) cells' pts' c' num' F' rhs' u' ↔
      Equilibrium dof dim n (elasticTangent dim E nu ps) cells pts c num F rhs u := by
  have hpot := fun w w' (hw : Turns dim n N nn Q w w') => potential_turned hF hN h1 h3 hE hn pts pts' hpts hpts' ps hf hw
  constructor
  · intro hq
    refine ⟨hu.1, (hcon u u' hu).1 hq.holds, fun w hw hs => ?_⟩
    obtain ⟨w', hw'⟩ := hN.push (Q := Q) w hw
    rw [← hpot u u' hu, ← hpot w w' hw']
    exact hq.least w' hw'.2.1 ((hcon w w' hw').2 hs)
  · intro hq
    refine ⟨hu.2.1, (hcon u u' hu).2 hq.holds, fun w' hw hs => ?_⟩
    obtain ⟨w, hw'⟩ := hN.pull hF.rotation w' hw
    rw [hpot u u' hu, hpot w w' hw']
    exact hq.least w hw'.1 ((hcon w w' hw').1 hs)

/-- The two problems. -/
theorem frames (P : Problem dof dim n E nu s cells threads st c num) (P' : Problem dof' dim n E nu s' cells' threads' st' c' num')
    (hQ : Rotation dim Q) (h : List.Forall₂ (Turned dim Q t) cells cells') : Frames dim n Q t cells cells' :=
  ⟨hQ, P.body, P'.body, h, Scaling.Problem.regular P⟩

/-- C126: constraints that leave no motion without strains do so in all frames. -/
theorem C126_held (P : Problem dof dim n E nu s cells threads st c num) (P' : Problem dof' dim n E nu s' cells' threads' st' c' num')
    (hQ : Rotation dim Q) (h : List.Forall₂ (Turned dim Q t) cells cells') (hN : NodeNumbers dim n N nn cells)
    (hcon : TurnedConstraints dim n N nn Q dof dof' c c' num num' (fun _ => 0) fun _ => 0) :
    Held dim dof n cells c num ↔ Held dim dof' n cells' c' num' := by
  have hF := frames P P' hQ h
  obtain ⟨_, m, _, _, _, _, _, _, _, _, a9, a10⟩ := P.matrix .planeStrain
  obtain ⟨_, m', _, _, _, _, _, _, _, _, b9, b10⟩ := P'.matrix .planeStrain
  obtain ⟨pts, hpts⟩ := points_choice P
  obtain ⟨pts', hpts'⟩ := points_choice P'
  have hun : ∀ w w', Turns dim n N nn Q w w' →
      (Unstrained dim cells' (fun i => w'.getD i 0) ↔ Unstrained dim cells fun i => w.getD i 0) := by
    intro w w' hw
    have := C126_energy hF P.dim1 P.dim3 P.stiff P.poisson pts pts' hpts hpts' .planeStrain (fun i => w.getD i 0)
      (fun i => w'.getD i 0) (turns_vector hN hw)
    rw [a10 pts hpts, b10 pts' hpts'] at this
    rw [← a9, ← b9]
    constructor <;> intro h <;> linarith
  have hzero : ∀ w w', Turns dim n N nn Q w w' → (∀ i < n, w'.getD i 0 = 0) → ∀ i < n, w.getD i 0 = 0 := by
    intro w w' hw h0
    have e := turns_dot hN hQ hw hw
    rw [sum_eq_zero fun i hi => by rw [h0 i (mem_range.1 hi), mul_zero]] at e
    intro i hi
    exact mul_self_eq_zero.1 ((sum_eq_zero_iff_of_nonneg fun i _ => mul_self_nonneg _).1 e.symm i (mem_range.2 hi))
  constructor
  · intro h w' hl hs hu
    obtain ⟨w, hw⟩ := hN.pull hQ w' hl
    have hz := h w hw.1 ((hcon w w' hw).1 hs) ((hun w w' hw).1 hu)
    intro j hj
    obtain ⟨P, hP, a, ha, rfl⟩ := hN.surj j hj
    rw [hw.2.2 P hP a ha]
    exact sum_eq_zero fun b hb => by rw [hz _ (hN.lt P hP b (mem_range.1 hb)), mul_zero]
  · intro h w hl hs hu
    obtain ⟨w', hw⟩ := hN.push (Q := Q) w hl
    exact hzero w w' hw (h w' hw.2.1 ((hcon w w' hw).2 hs) ((hun w w' hw).2 hu))

/-- Vectors that do the same work on all turned vectors are turned. -/
theorem turns_of_work (hN : NodeNumbers dim n N nn cells) (hQ : Rotation dim Q) {r r' : List ℝ} (hr : r.length = n) (hr' : r'.length = n)
    (h : ∀ v v', Turns dim n N nn Q v v' → ∑ i ∈ range n, r'.getD i 0 * v'.getD i 0 = ∑ i ∈ range n, r.getD i 0 * v.getD i 0) :
    Turns dim n N nn Q r r' := by
  obtain ⟨q, hq⟩ := hN.push (Q := Q) r hr
  have key : ∀ i < n, r'.getD i 0 = q.getD i 0 := by
    obtain ⟨d', d1, d2⟩ := ofFun n fun i => r'.getD i 0 - q.getD i 0
    obtain ⟨d, hd⟩ := hN.pull hQ d' d1
    have e1 := h d d' hd
    rw [← turns_dot hN hQ hq hd, ← sub_eq_zero, ← sum_sub_distrib] at e1
    rw [sum_congr rfl fun i hi => by rw [← sub_mul, d2 i (mem_range.1 hi)]] at e1
    intro i hi
    have := mul_self_eq_zero.1 ((sum_eq_zero_iff_of_nonneg fun i _ => mul_self_nonneg _).1 e1 i (mem_range.2 hi))
    linarith
  refine ⟨hr, hr', fun P hP a ha => ?_⟩
  rw [key _ (hN.lt P hP a ha), hq.2.2 P hP a ha]

/-- C126 (matrices): the stiffness matrix has the same virtual work in both frames. -/
theorem C126_stiffness (P : Problem dof dim n E nu s cells threads st c num) (P' : Problem dof' dim n E nu s' cells' threads' st' c' num')
    (hQ : Rotation dim Q) (h : List.Forall₂ (Turned dim Q t) cells cells') (hN : NodeNumbers dim n N nn cells) (ps : PlaneState) :
    ∃ h h' m m', assembleMatrix s dof (stiffness dof fun _ _ => .ok (elasticTangent dim E nu ps)) threads = .ok h ∧
      assembleMatrix s' dof' (stiffness dof' fun _ _ => .ok (elasticTangent dim E nu ps)) threads' = .ok h' ∧
      h.find? (toLex (dof, dof)) = some m ∧ h'.find? (toLex (dof', dof')) = some m' ∧
      ∀ u u' v v', Turns dim n N nn Q u u' → Turns dim n N nn Q v v' →
        ∑ i ∈ range n, v'.getD i 0 * ∑ j ∈ range n, m'.entry i j * u'.getD j 0 =
          ∑ i ∈ range n, v.getD i 0 * ∑ j ∈ range n, m.entry i j * u.getD j 0 := by
  have hF := frames P P' hQ h
  obtain ⟨H, m, a1, a2, _, _, _, _, a7, _, _, a10⟩ := P.matrix ps
  obtain ⟨H', m', b1, b2, _, _, _, _, b7, _, _, b10⟩ := P'.matrix ps
  refine ⟨H, H', m, m', a1, b1, a2, b2, fun u u' v v' hu hv => ?_⟩
  obtain ⟨pts, hpts⟩ := points_choice P
  obtain ⟨pts', hpts'⟩ := points_choice P'
  have hform : ∀ R R' : Nat → ℝ, TurnedVector dim Q cells R R' → form m' n R' = form m n R := by
    intro R R' hR
    have := C126_energy hF P.dim1 P.dim3 P.stiff P.poisson pts pts' hpts hpts' ps R R' hR
    rw [a10 pts hpts, b10 pts' hpts'] at this
    linarith
  have tu := turns_vector hN hu
  have tv := turns_vector hN hv
  have e1 := form_add m a7 (fun i => u.getD i 0) (fun i => v.getD i 0) 1
  have e2 := form_add m' b7 (fun i => u'.getD i 0) (fun i => v'.getD i 0) 1
  have tuv : TurnedVector dim Q cells (fun i => u.getD i 0 + 1 * v.getD i 0) fun i => u'.getD i 0 + 1 * v'.getD i 0 := by
    intro x hx i hi a ha
    have p1 := tu x hx i hi a ha
    have p2 := tv x hx i hi a ha
    beta_reduce at p1 p2 ⊢
    rw [p1, p2, one_mul, ← sum_add_distrib]
    exact sum_congr rfl fun b _ => by ring
  rw [hform _ _ tu, hform _ _ tv, hform _ _ tuv, e1] at e2
  linarith

/-- C126 (reactions): the residual of the turned state is the turned residual. -/
theorem C126_residual (P : Problem dof dim n E nu s cells threads st c num) (P' : Problem dof' dim n E nu s' cells' threads' st' c' num')
    (hQ : Rotation dim Q) (h : List.Forall₂ (Turned dim Q t) cells cells') (hN : NodeNumbers dim n N nn cells) (ps : PlaneState)
    (load load' : ℝ → List ℝ) (hload : ∀ t, Turns dim n N nn Q (load t) (load' t)) (time : ℝ) (u u' : List ℝ)
    (hu : Turns dim n N nn Q u u') :
    ∃ r r', gradient (setup dof dim E nu ps s threads load) [(dof, u)] time = .ok [(dof, r)] ∧
      gradient (setup dof' dim E nu ps s' threads' load') [(dof', u')] time = .ok [(dof', r')] ∧ Turns dim n N nn Q r r' := by
  obtain ⟨H, H', m, m', a1, b1, a2, b2, hm⟩ := C126_stiffness P P' hQ h hN ps
  obtain ⟨_, r, r1, r2, r3⟩ := gradient_eq P ps a1 a2 load (fun t => (hload t).1) u time
  obtain ⟨_, r', q1, q2, q3⟩ := gradient_eq P' ps b1 b2 load' (fun t => (hload t).2.1) u' time
  refine ⟨r, r', r1, q1, turns_of_work hN hQ r2 q2 fun v v' hv => ?_⟩
  have e1 := hm u u' v v' hu hv
  have e2 := turns_dot hN hQ (hload time) hv
  have f1 : ∑ i ∈ range n, r'.getD i 0 * v'.getD i 0 = ∑ i ∈ range n, v'.getD i 0 * ∑ j ∈ range n, m'.entry i j * u'.getD j 0 -
      ∑ i ∈ range n, (load' time).getD i 0 * v'.getD i 0 := by
    rw [← sum_sub_distrib]
    exact sum_congr rfl fun i hi => by rw [q3 i (mem_range.1 hi)]; ring
  have f2 : ∑ i ∈ range n, r.getD i 0 * v.getD i 0 = ∑ i ∈ range n, v.getD i 0 * ∑ j ∈ range n, m.entry i j * u.getD j 0 -
      ∑ i ∈ range n, (load time).getD i 0 * v.getD i 0 := by
    rw [← sum_sub_distrib]
    exact sum_congr rfl fun i hi => by rw [r3 i (mem_range.1 hi)]; ring
  rw [f1, f2, e1, e2]

theorem equilibrium_turns (P : Problem dof dim n E nu s cells threads st c num)
    (P' : Problem dof' dim n E nu s' cells' threads' st' c' num') (hQ : Rotation dim Q)
    (h : List.Forall₂ (Turned dim Q t) cells cells') (hN : NodeNumbers dim n N nn cells) (ps : PlaneState)
    {rhs rhs' : Equation ℝ → ℝ} (hcon : TurnedConstraints dim n N nn Q dof dof' c c' num num' rhs rhs')
    (hsup : Held dim dof n cells c num) (pts pts' : Cell × FemElement ℝ → List (ℝ × IpData)) (hpts : ∀ x ∈ cells, x.1.Points (pts x))
    (hpts' : ∀ x ∈ cells', x.1.Points (pts' x)) {F F' u u' : List ℝ} (hf : Turns dim n N nn Q F F')
    (hu : Equilibrium dof dim n (elasticTangent dim E nu ps) cells pts c num F rhs u)
    (hu' : Equilibrium dof' dim n (elasticTangent dim E nu ps) cells' pts' c' num' F' rhs' u') : Turns dim n N nn Q u u' := by
  obtain ⟨w, hw⟩ := hN.pull hQ u' hu'.length
  have := Scaling.unique P ps hsup pts hpts hf.1 hu
    ((C126_equilibrium (frames P P' hQ h) hN P.dim1 P.dim3 P.stiff P.poisson pts pts' hpts hpts' ps hcon hf hw).1 hu')
  refine ⟨hu.length, hu'.length, fun p hp a ha => ?_⟩
  rw [hw.2.2 p hp a ha]
  exact sum_congr rfl fun b hb => by rw [this _ (hN.lt p hp b (mem_range.1 hb))]

/-- C126 (`Solve`): the result in the turned frame, whatever the solvers. -/
theorem C126_solve (P : Problem dof dim n E nu s cells threads st c num) (P' : Problem dof' dim n E nu s' cells' threads' st' c' num')
    (hQ : Rotation dim Q) (h : List.Forall₂ (Turned dim Q t) cells cells') (hN : NodeNumbers dim n N nn cells) (ps : PlaneState)
    (hcon : TurnedConstraints dim n N nn Q dof dof' c c' num num' (fun _ => 0) fun _ => 0) (hsup : Held dim dof n cells c num) :
    ∃ h h', assembleMatrix s dof (stiffness dof fun _ _ => .ok (elasticTangent dim E nu ps)) threads = .ok h ∧
      assembleMatrix s' dof' (stiffness dof' fun _ _ => .ok (elasticTangent dim E nu ps)) threads' = .ok h' ∧
      ∀ lin lin', LinSolver lin → LinSolver lin' → ∀ (toFloat toFloat' : ℝ → ℝ) (F F' : List ℝ), Turns dim n N nn Q F F' → ∀ r r',
        Solve.solve lin (c.bcs toFloat st) h [(dof, F)] [dof] = .ok r →
        Solve.solve lin' (c'.bcs toFloat' st') h' [(dof', F')] [dof'] = .ok r' →
        ∃ u u', r.find? dof = some u ∧ r'.find? dof' = some u' ∧ Turns dim n N nn Q u u' := by
  obtain ⟨pts, hpts⟩ := points_choice P
  obtain ⟨pts', hpts'⟩ := points_choice P'
  obtain ⟨H, a1, a2⟩ := C101_minimum P ps pts hpts
  obtain ⟨H', b1, b2⟩ := C101_minimum P' ps pts' hpts'
  refine ⟨H, H', a1, b1, fun lin lin' hs hs' fl fl' F F' hf r r' hr hr' => ?_⟩
  obtain ⟨u, u1, u2, u3, u4⟩ := a2 lin hs fl F hf.1 r hr
  obtain ⟨u', v1, v2, v3, v4⟩ := b2 lin' hs' fl' F' hf.2.1 r' hr'
  exact ⟨u, u', u1, v1, equilibrium_turns P P' hQ h hN ps hcon hsup pts pts' hpts hpts' hf
    ⟨u2, u3, fun w hw hs => (u4 w hw hs).1⟩ ⟨v2, v3, fun w hw hs => (v4 w hw hs).1⟩⟩

theorem lhs_sub (e : Equation ℝ) (num : Term ℝ → Nat) (u v : Nat → ℝ) :
    e.lhs num (fun i => u i - v i) = e.lhs num u - e.lhs num v := by
  simp only [Equation.lhs]
  have : (e.ind.map fun t => t.coef * (u (num t) - v (num t))).sum =
      (e.ind.map fun t => t.coef * u (num t)).sum - (e.ind.map fun t => t.coef * v (num t)).sum := by
    induction e.ind with
    | nil => simp
    | cons a l ih =>
      simp only [List.map_cons, List.sum_cons, ih]
      ring
  rw [this]
  ring

theorem satisfies_moved {w R d : List ℝ} (hd : ∀ i, d.getD i 0 = w.getD i 0 - R.getD i 0) {rhs : Equation ℝ → ℝ} :
    Satisfies c dof num (fun e => e.lhs num (fun i => R.getD i 0) + rhs e) w ↔ Satisfies c dof num rhs d := by
  simp only [Satisfies, hd]
  refine forall₂_congr fun e _ => ?_
  rw [lhs_sub]
  constructor <;> intro h <;> linarith

theorem diff (u v : List ℝ) (hu : u.length = n) (hv : v.length = n) :
    ∃ d : List ℝ, d.length = n ∧ ∀ i, d.getD i 0 = u.getD i 0 - v.getD i 0 := by
  obtain ⟨d, h1, h2⟩ := ofFun n fun i => u.getD i 0 - v.getD i 0
  refine ⟨d, h1, fun i => ?_⟩
  by_cases hi : i < n
  · exact h2 i hi
  · rw [List.getD_eq_default _ _ (by omega), List.getD_eq_default _ _ (by omega), List.getD_eq_default _ _ (by omega), sub_zero]

/-- C126 (steps): a step of `QuasistaticSolver` in the turned frame. -/
theorem C126_step (P : Problem dof dim n E nu s cells threads st c num) (P' : Problem dof' dim n E nu s' cells' threads' st' c' num')
    (hQ : Rotation dim Q) (h : List.Forall₂ (Turned dim Q t) cells cells') (hN : NodeNumbers dim n N nn cells) (ps : PlaneState)
    (hcon : ∀ t0 t1, TurnedConstraints dim n N nn Q dof dof' c c' num num' (fun e => e.rhs t1 - e.rhs t0) fun e => e.rhs t1 - e.rhs t0)
    (hsup : Held dim dof n cells c num) (load load' : ℝ → List ℝ) (hload : ∀ t, Turns dim n N nn Q (load t) (load' t))
    (toFloat toFloat' : ℝ → ℝ) (hfl : ∀ e ∈ c.equations dof, ∀ t, toFloat (e.rhs t) = e.rhs t)
    (hfl' : ∀ e ∈ c'.equations dof', ∀ t, toFloat' (e.rhs t) = e.rhs t) (c0 c0' : DofSpMat ℝ) (tol tol' : ℝ) (htol : 0 < tol)
    (htol' : 0 < tol') :
    ∃ C C' cmat cmat', c.buildUnitConstraintMatrix st dof n = .ok C ∧ c'.buildUnitConstraintMatrix st' dof' n = .ok C' ∧
      setConstraints (c.bcs toFloat st) (fun _ => n) c0 [dof] = .ok cmat ∧
      setConstraints (c'.bcs toFloat' st') (fun _ => n) c0' [dof'] = .ok cmat' ∧
      ∀ R0 R0', Turns dim n N nn Q R0 R0' → ∀ t0 t1 : ℝ, ∃ u u', Turns dim n N nn Q u u' ∧
        ∀ lin lin', SolvesSpd lin → SolvesSpd lin' → ∀ step step' : ℝ,
          trialState (env (setup dof dim E nu ps s threads load) lin (c.bcs toFloat st) cmat tol) ⟨[(dof, R0)], t0, step, ()⟩ t1 =
            .ok [(dof, u)] ∧
          trialState (env (setup dof' dim E nu ps s' threads' load') lin' (c'.bcs toFloat' st') cmat' tol')
            ⟨[(dof', R0')], t0, step', ()⟩ t1 = .ok [(dof', u')] ∧
          (freeNorm C u ≤ 10000000000 →
            doStep (env (setup dof dim E nu ps s threads load) lin (c.bcs toFloat st) cmat tol) ⟨[(dof, R0)], t0, step, ()⟩ t1 =
              (⟨[(dof, u)], t1, t1 - t0, ()⟩, .converged 0)) ∧
          (freeNorm C' u' ≤ 10000000000 →
            doStep (env (setup dof' dim E nu ps s' threads' load') lin' (c'.bcs toFloat' st') cmat' tol')
              ⟨[(dof', R0')], t0, step', ()⟩ t1 = (⟨[(dof', u')], t1, t1 - t0, ()⟩, .converged 0)) := by
  obtain ⟨pts, hpts⟩ := points_choice P
  obtain ⟨pts', hpts'⟩ := points_choice P'
  have hsup' := (C126_held P P' hQ h hN (by simpa using hcon 0 0)).1 hsup
  obtain ⟨C, cmat, a1, a2, a3⟩ := C105_step_partial P hsup ps pts hpts load (fun t => (hload t).1) toFloat hfl c0 tol htol
  obtain ⟨C', cmat', b1, b2, b3⟩ := C105_step_partial P' hsup' ps pts' hpts' load' (fun t => (hload t).2.1) toFloat' hfl' c0' tol' htol'
  refine ⟨C, C', cmat, cmat', a1, b1, a2, b2, fun R0 R0' hR t0 t1 => ?_⟩
  obtain ⟨u, hu, _, u3⟩ := a3 R0 hR.1 t0 t1
  obtain ⟨u', hu', _, v3⟩ := b3 R0' hR.2.1 t0 t1
  have hmoved : TurnedConstraints dim n N nn Q dof dof' c c' num num'
      (fun e => e.lhs num (fun i => R0.getD i 0) + (e.rhs t1 - e.rhs t0))
      (fun e => e.lhs num' (fun i => R0'.getD i 0) + (e.rhs t1 - e.rhs t0)) := by
    intro w w' hw
    obtain ⟨d, d1, d2⟩ := diff w R0 hw.1 hR.1
    obtain ⟨d', d1', d2'⟩ := diff w' R0' hw.2.1 hR.2.1
    rw [satisfies_moved d2, satisfies_moved d2']
    refine hcon t0 t1 d d' ⟨d1, d1', fun p hp a ha => ?_⟩
    rw [d2', hw.2.2 p hp a ha, hR.2.2 p hp a ha, ← sum_sub_distrib]
    exact sum_congr rfl fun b _ => by rw [d2]; ring
  refine ⟨u, u', equilibrium_turns P P' hQ h hN ps hmoved hsup pts pts' hpts hpts' (hload t1) hu hu', fun lin lin' hs hs' step step' => ?_⟩
  obtain ⟨x1, x2, _⟩ := u3 lin hs step
  obtain ⟨y1, y2, _⟩ := v3 lin' hs' step'
  exact ⟨x1, y1, x2, y2⟩

/-- C126 (symmetry): if the turned body is the body itself with other numbers, and so are the forces and constraints, then the
displacements have that symmetry: those at node `P` turned are those at the node that `P` is turned to. -/
theorem C126_symmetry (P : Problem dof dim n E nu s cells threads st c num) (P' : Problem dof' dim n E nu s' cells' threads' st' c' num')
    (hQ : Rotation dim Q) (h : List.Forall₂ (Turned dim Q t) cells cells') (hN : NodeNumbers dim n N nn cells) {σ : Nat → Nat}
    (hren : Renumbered dim n σ cells' cells) (ps : PlaneState)
    (hcon : TurnedConstraints dim n N nn Q dof dof' c c' num num' (fun _ => 0) fun _ => 0)
    (hsame : SameConstraints n σ dof' dof c' c num' num (fun _ => 0) fun _ => 0) (hsup : Held dim dof n cells c num) :
    ∃ h, assembleMatrix s dof (stiffness dof fun _ _ => .ok (elasticTangent dim E nu ps)) threads = .ok h ∧
      ∀ lin, LinSolver lin → ∀ (toFloat : ℝ → ℝ) (F F' : List ℝ), Turns dim n N nn Q F F' → Matches n σ F' F → ∀ r,
        Solve.solve lin (c.bcs toFloat st) h [(dof, F)] [dof] = .ok r →
        ∃ u, r.find? dof = some u ∧ ∀ p < N, ∀ a < dim, u.getD (σ (nn p a)) 0 = ∑ b ∈ range dim, Q a b * u.getD (nn p b) 0 := by
  obtain ⟨pts, hpts⟩ := points_choice P
  obtain ⟨pts', hpts'⟩ := points_choice P'
  obtain ⟨H, a1, a2⟩ := C101_minimum P ps pts hpts
  refine ⟨H, a1, fun lin hs fl F F' hf hm r hr => ?_⟩
  obtain ⟨u, u1, u2, u3, u4⟩ := a2 lin hs fl F hf.1 r hr
  refine ⟨u, u1, fun p hp a ha => ?_⟩
  obtain ⟨w, hw⟩ := hN.push (Q := Q) u u2
  have e1 := (C126_equilibrium (frames P P' hQ h) hN P.dim1 P.dim3 P.stiff P.poisson pts pts' hpts hpts' ps hcon hf hw).2
    ⟨u2, u3, fun w hw hs => (u4 w hw hs).1⟩
  have hsup' := (C126_held P P' hQ h hN hcon).1 hsup
  have e2 := ((Renumbering.C122_equilibrium P' ps hren hsame pts' pts hpts' hpts hm e1
    ⟨u2, u3, fun w hw hs => (u4 w hw hs).1⟩).2 hsup').2.2
  rw [e2 _ (hN.lt p hp a ha), hw.2.2 p hp a ha]

/-! ### Examples -/

/-- The cell in the turned and shifted frame. -/
def turn (dim : Nat) (Q : Nat → Nat → ℝ) (t : Nat → ℝ) (x : Cell × FemElement ℝ) : Cell × FemElement ℝ :=
  (⟨x.1.id, ⟨x.1.coordElement.nodes.map fun m => ⟨m.values.map fun v =>
    (List.range dim).map fun a => t a + ∑ b ∈ range dim, Q a b * v.getD b 0, m.dofNumbers⟩, x.1.coordElement.interp⟩, x.1.rule⟩, x.2)

theorem turn_turned {x : Cell × FemElement ℝ} (hx : Body dim n x) : Turned dim Q t x (turn dim Q t x) where
  id := rfl
  rule := rfl
  interp := rfl
  dofInterp := rfl
  numbers _ _ _ _ := rfl
  position i hi a ha := by
    have hwf := (hx.coord.wf _ (List.getElem_mem hi)).1.1
    unfold component turn
    beta_reduce
    simp only [List.getD_eq_getElem?_getD, List.getElem?_map]
    rw [List.getElem?_eq_getElem hi]
    simp only [Option.map_some, Option.getD_some]
    cases h : (x.1.coordElement.nodes[i]).values with
    | nil => exact absurd h hwf
    | cons v _ =>
      simp only [List.map_cons, List.headD_cons, List.getElem?_map]
      rw [List.getElem?_range ha]
      simp

theorem turn_body {x : Cell × FemElement ℝ} (hx : Body dim n x) : Body dim n (turn dim Q t x) :=
  { hx with
    coord := by
      obtain ⟨h1, h2, h3⟩ := hx.coord
      refine ⟨by simpa [turn] using h1, by simpa [turn] using h2, fun m hm => ?_⟩
      obtain ⟨a, ha, rfl⟩ := List.mem_map.1 hm
      obtain ⟨q1, q2⟩ := h3 a ha
      refine ⟨?_, q2⟩
      simp only [Node.WF] at q1 ⊢
      refine ⟨by simpa using q1.1, fun v hv => ?_⟩
      obtain ⟨v0, _, rfl⟩ := List.mem_map.1 hv
      simpa using q2.symm }

theorem turned_positive {x y : Cell × FemElement ℝ} (hQ : Rotation dim Q) (hx : Body dim n x) (hy : Body dim n y) (h : Turned dim Q t x y)
    (hpos : ∀ pts, x.1.Points pts → ∀ p ∈ pts, 0 < p.2.jacobian.det * p.1) :
    ∀ pts, y.1.Points pts → ∀ p ∈ pts, 0 < p.2.jacobian.det * p.1 := by
  intro pts hp q hq
  obtain ⟨pts0, hp0⟩ := C77_points hx
  have hf := h.points hp0 hp
  obtain ⟨i, hi, rfl⟩ := List.getElem_of_mem hq
  have hi0 : i < pts0.length := by rw [hf.length_eq]; exact hi
  have h1 := (List.forall₂_iff_get.1 hf).2 i hi0 hi
  simp only [List.get_eq_getElem] at h1
  have h2 := hpos _ hp0 _ (List.getElem_mem hi0)
  rw [h1.1.weight, (h.gradient hQ hx hy hp0 hp (List.getElem_mem hi0) (List.getElem_mem hi) h1.1 fun h0 => by
    rw [h0, zero_mul] at h2; exact lt_irrefl _ h2).1]
  exact h2

/-- The problem in the turned frame. -/
theorem turn_problem (hQ : Rotation dim Q) (P : Problem dof dim n E nu s cells threads st c num)
    (hc : Constraints.Valid st' (c'.equations dof) n num' ∧ (∀ e ∈ c'.equations dof, e.dep.coef = 1) ∧ NoTiny (c'.equations dof)) :
    Problem dof dim n E nu s (cells.map (turn dim Q t)) (threads.map (List.map (turn dim Q t))) st' c' num' :=
  { dim1 := P.dim1
    dim3 := P.dim3
    stiff := P.stiff
    poisson := P.poisson
    body := by
      intro y hy
      obtain ⟨x, hx, rfl⟩ := List.mem_map.1 hy
      exact turn_body (P.body x hx)
    positive := by
      intro y hy
      obtain ⟨x, hx, rfl⟩ := List.mem_map.1 hy
      exact turned_positive hQ (P.body x hx) (turn_body (P.body x hx)) (turn_turned (P.body x hx)) (P.positive x hx)
    size := P.size
    schedule := by
      rw [← List.map_flatten]
      exact P.schedule.map _
    valid := hc.1
    unit := hc.2.1
    tiny := hc.2.2 }

theorem turn_all (P : Problem dof dim n E nu s cells threads st c num) : List.Forall₂ (Turned dim Q t) cells (cells.map (turn dim Q t)) := by
  rw [List.forall₂_map_right_iff]
  exact List.forall₂_same.2 fun x hx => turn_turned (P.body x hx)

theorem ex_numbers (y : Cell × FemElement ℝ) (hn : ∀ i < y.2.nodes.length, ∃ P < 4, ∀ a < 2, number y.2 i a = 2 * P + a) :
    NodeNumbers 2 8 4 (fun P a => 2 * P + a) [exampleBody, y] where
  lt := by intros; omega
  inj := by intros; omega
  surj i hi := ⟨i / 2, by omega, i % 2, by omega, by omega⟩
  element := by
    intro x hx
    simp only [List.mem_cons, List.not_mem_nil, or_false] at hx
    rcases hx with rfl | rfl
    · intro i hi
      have hi : i < 3 := hi
      refine ⟨i, by omega, fun a ha => ?_⟩
      interval_cases i <;> interval_cases a <;> rfl
    · exact hn

theorem quarter_rotation : Rotation 2 quarter := by
  refine ⟨?_, ?_⟩
  · intro c hc e he
    interval_cases c <;> interval_cases e <;> simp [quarter]
  · rw [Matrix.det_fin_two]
    simp [Jacobian.toMat, quarter]

/-- Constraints on single dofs. -/
noncomputable def fix (l : List (Nat × (ℝ → ℝ))) : Constraints ℝ := ⟨[(0, l.map fun p => ⟨⟨1, p.1, 1⟩, [], p.2⟩)], [], []⟩

theorem fix_eqs (l : List (Nat × (ℝ → ℝ))) : (fix l).equations 0 = l.map fun p => ⟨⟨1, p.1, 1⟩, [], p.2⟩ := by
  simp [fix, Constraints.equations, OMap.find?]

theorem fix_fits (l : List (Nat × (ℝ → ℝ))) (h : ∀ p ∈ l, p.1 < 8) (hd : (l.map (·.1)).Nodup) :
    Constraints.Valid exStore101 ((fix l).equations 0) 8 (fun t => t.comp.toNat) ∧ (∀ e ∈ (fix l).equations 0, e.dep.coef = 1) ∧
      NoTiny ((fix l).equations 0) := by
  rw [fix_eqs]
  refine ⟨⟨?_, ?_, ?_⟩, ?_, ?_⟩
  · intro e he t ht
    obtain ⟨p, hp, rfl⟩ := List.mem_map.1 he
    simp only [List.mem_cons, List.not_mem_nil, or_false] at ht
    subst ht
    have := h p hp
    obtain ⟨k, g⟩ := p
    beta_reduce at this ⊢
    simp only at this ⊢
    interval_cases k <;> simp [Term.dofNumber, Node.getDofNumber, exStore101]
  · simpa [Function.comp_def] using hd
  · intro e _ f hf t ht
    obtain ⟨p, _, rfl⟩ := List.mem_map.1 hf
    simp at ht
  · intro e he
    obtain ⟨p, _, rfl⟩ := List.mem_map.1 he
    rfl
  · intro e he t ht
    obtain ⟨p, _, rfl⟩ := List.mem_map.1 he
    simp at ht

/-- The hypotheses of C126: two triangles after a quarter turn and a shift. The node that is moved in the direction y is now moved
against the direction x. -/
example : Problem 0 2 8 1 0 ⟨[(0, 8)], [(0, 0)]⟩ [exampleBody, exampleBody2] [[exampleBody2], [exampleBody]] exStore101
      (exC101 fun t => t) (fun t => t.comp.toNat) ∧
    Problem 0 2 8 1 0 ⟨[(0, 8)], [(0, 0)]⟩ ([exampleBody, exampleBody2].map (turn 2 quarter fun a => if a = 0 then 5 else 7))
      ([[exampleBody2], [exampleBody]].map (List.map (turn 2 quarter fun a => if a = 0 then 5 else 7))) exStore101
      (fix [(0, fun _ => 0), (1, fun _ => 0), (2, fun t => -t)]) (fun t => t.comp.toNat) ∧
    Rotation 2 quarter ∧
    List.Forall₂ (Turned 2 quarter fun a => if a = 0 then 5 else 7) [exampleBody, exampleBody2]
      ([exampleBody, exampleBody2].map (turn 2 quarter fun a => if a = 0 then 5 else 7)) ∧
    NodeNumbers 2 8 4 (fun P a => 2 * P + a) [exampleBody, exampleBody2] ∧
    Held 2 0 8 [exampleBody, exampleBody2] (exC101 fun t => t) (fun t => t.comp.toNat) ∧
    (∀ t0 t1, TurnedConstraints 2 8 4 (fun P a => 2 * P + a) quarter 0 0 (exC101 fun t => t)
      (fix [(0, fun _ => 0), (1, fun _ => 0), (2, fun t => -t)]) (fun t => t.comp.toNat) (fun t => t.comp.toNat)
      (fun e => e.rhs t1 - e.rhs t0) fun e => e.rhs t1 - e.rhs t0) ∧
    Turns 2 8 4 (fun P a => 2 * P + a) quarter [0, 0, 0, 0, 0, 0, 1, 2] [0, 0, 0, 0, 0, 0, -2, 1] := by
  have P := exC101_problem fun t => t
  refine ⟨P, turn_problem quarter_rotation P (fix_fits _ (by simp) (by simp)), quarter_rotation, turn_all P, ex_numbers _ ?_,
    exC101_held _, ?_, rfl, rfl, ?_⟩
  · intro i hi
    have hi : i < 3 := hi
    refine ⟨if i = 0 then 1 else if i = 1 then 3 else 2, by split_ifs <;> omega, fun a ha => ?_⟩
    interval_cases i <;> interval_cases a <;> rfl
  · intro t0 t1 w w' hw
    have e0 := hw.2.2 0 (by norm_num) 0 (by norm_num)
    have e1 := hw.2.2 0 (by norm_num) 1 (by norm_num)
    have e2 := hw.2.2 1 (by norm_num) 0 (by norm_num)
    simp [sum_range_succ, quarter] at e0 e1 e2
    rw [Satisfies, Satisfies, fix_eqs, exC101_eqs]
    simp [Equation.lhs, e0, e1, e2]
    constructor
    · rintro ⟨h1, h2, h3⟩
      exact ⟨h2, h1, by linarith⟩
    · rintro ⟨h1, h2, h3⟩
      exact ⟨h2, h1, by linarith⟩
  · intro p hp a ha
    interval_cases p <;> interval_cases a <;> simp [sum_range_succ, quarter]

/-- A half turn. -/
def half (a b : Nat) : ℝ := if a = b then -1 else 0

/-- The shift that takes the rectangle of 2 by 3 to itself after a half turn. -/
def halfShift (a : Nat) : ℝ := if a = 0 then 2 else 3

/-- The numbers of the dofs at the opposite nodes. -/
def opposite (i : Nat) : Nat := [6, 7, 4, 5, 2, 3, 0, 1].getD i 0

/-- The second half of the rectangle. -/
noncomputable def otherHalf : Cell × FemElement ℝ :=
  (⟨1, ⟨nodesAt [[2, 3], [0, 3], [2, 0]], Interpolation.triangleLinear⟩, [(1 / 2, [1 / 3, 1 / 3])]⟩,
   ⟨[⟨[[0, 0]], [6, 7]⟩, ⟨[[0, 0]], [4, 5]⟩, ⟨[[0, 0]], [2, 3]⟩], Interpolation.triangleLinear⟩)

theorem half_rotation : Rotation 2 half := by
  refine ⟨?_, ?_⟩
  · intro c hc e he
    interval_cases c <;> interval_cases e <;> simp [half]
  · rw [Matrix.det_fin_two]
    simp [Jacobian.toMat, half]

theorem half_same : Renumbering.Same 2 opposite (turn 2 half halfShift exampleBody) otherHalf where
  coord := by
    simp [turn, exampleBody, otherHalf, nodesAt, Node.ofVector, List.range_succ, sum_range_succ, half, halfShift]
  rule := rfl
  interp := rfl
  nodes := rfl
  number i hi a ha := by
    have hi : i < 3 := hi
    interval_cases i <;> interval_cases a <;> rfl

theorem half_same' : Renumbering.Same 2 opposite (turn 2 half halfShift otherHalf) exampleBody where
  coord := by
    simp [turn, exampleBody, otherHalf, nodesAt, Node.ofVector, List.range_succ, sum_range_succ, half, halfShift]
  rule := rfl
  interp := rfl
  nodes := rfl
  number i hi a ha := by
    have hi : i < 3 := hi
    interval_cases i <;> interval_cases a <;> rfl

theorem half_body : ∀ x ∈ [exampleBody, otherHalf], Body 2 8 x := by
  intro x hx
  simp only [List.mem_cons, List.not_mem_nil, or_false] at hx
  rcases hx with rfl | rfl
  · exact exampleMesh_body _ (by simp)
  · exact {
      dim1 := by norm_num
      dim3 := by norm_num
      dof := ⟨by simp [otherHalf], rfl, by simp [otherHalf, Node.WF]⟩
      coord := ⟨by simp [otherHalf, nodesAt], rfl, by simp [otherHalf, nodesAt, Node.ofVector, Node.WF]⟩
      dofDim := rfl
      coordDim := rfl
      dofUnity := C77_types _ (by simp [exactTypes, otherHalf])
      coordUnity := C77_types _ (by simp [exactTypes, otherHalf])
      numbered := by simp [otherHalf, Numbered] }

theorem half_positive : ∀ x ∈ [exampleBody, otherHalf], ∀ pts, x.1.Points pts → ∀ p ∈ pts, 0 < p.2.jacobian.det * p.1 := by
  have h0 := exampleMesh_weights exampleBody (by simp)
  have b0 := exampleMesh_body exampleBody (by simp)
  intro x hx
  simp only [List.mem_cons, List.not_mem_nil, or_false] at hx
  rcases hx with rfl | rfl
  · exact h0
  · exact half_same.points_ex (C77_points (turn_body b0)) (turned_positive half_rotation b0 (turn_body b0) (turn_turned b0) h0)

/-- The nodes at the ends of the diagonal between the halves are fixed. -/
noncomputable def diagonal : Constraints ℝ := fix [(2, fun _ => 0), (3, fun _ => 0), (4, fun _ => 0), (5, fun _ => 0)]

theorem half_problem : Problem 0 2 8 1 0 ⟨[(0, 8)], [(0, 0)]⟩ [exampleBody, otherHalf] [[exampleBody], [otherHalf]] exStore101 diagonal
    (fun t => t.comp.toNat) := by
  obtain ⟨c1, c2, c3⟩ := fix_fits [(2, fun _ => 0), (3, fun _ => 0), (4, fun _ => 0), (5, fun _ => 0)] (by simp) (by simp)
  exact ⟨by norm_num, by norm_num, by norm_num, by norm_num, half_body, half_positive, rfl, List.Perm.refl _, c1, c2, c3⟩

theorem half_held : Held 2 0 8 [exampleBody, otherHalf] diagonal (fun t => t.comp.toNat) := by
  refine C101_held half_body half_positive ?_ ?_ ?_ exampleBody ⟨by simp, fun y hy => ?_⟩ ?_
  · intro x hx
    simp only [List.mem_cons, List.not_mem_nil, or_false] at hx
    rcases hx with rfl | rfl <;> rfl
  · intro x hx
    simp only [List.mem_cons, List.not_mem_nil, or_false] at hx
    rcases hx with rfl | rfl <;> exact triangleLinear_simplex
  · intro x hx
    simp only [List.mem_cons, List.not_mem_nil, or_false] at hx
    rcases hx with rfl | rfl <;> simp [exampleBody, otherHalf]
  · simp only [List.mem_cons, List.not_mem_nil, or_false] at hy
    rcases hy with rfl | rfl
    · exact Relation.ReflTransGen.refl
    · refine Relation.ReflTransGen.single ⟨by simp, 0, by norm_num, fun i hi hne => ?_⟩
      interval_cases i
      · exact absurd rfl hne
      · exact ⟨2, by norm_num, fun a ha => by
          interval_cases a <;> simp [exampleBody, otherHalf, number, component, nodesAt, Node.ofVector]⟩
      · exact ⟨1, by norm_num, fun a ha => by
          interval_cases a <;> simp [exampleBody, otherHalf, number, component, nodesAt, Node.ofVector]⟩
  · rintro w _ ⟨t, W, hW, hR⟩ hs i hi
    rw [Satisfies, diagonal, fix_eqs] at hs
    simp [Equation.lhs] at hs
    obtain ⟨s2, s3, s4, s5⟩ := hs
    have r := fun i (hi : i ≤ 2) a (ha : a < 2) => hR exampleBody (by simp) i hi a ha
    have q := fun i (hi : i ≤ 2) a (ha : a < 2) => hR otherHalf (by simp) i hi a ha
    have r00 := r 0 (by norm_num) 0 (by norm_num)
    have r01 := r 0 (by norm_num) 1 (by norm_num)
    have r10 := r 1 (by norm_num) 0 (by norm_num)
    have r11 := r 1 (by norm_num) 1 (by norm_num)
    have r20 := r 2 (by norm_num) 0 (by norm_num)
    have r21 := r 2 (by norm_num) 1 (by norm_num)
    have q00 := q 0 (by norm_num) 0 (by norm_num)
    have q01 := q 0 (by norm_num) 1 (by norm_num)
    simp [exampleBody, otherHalf, number, component, nodesAt, Node.ofVector, sum_range_succ, s2, s3, s4, s5] at r00 r01 r10 r11 r20 r21 q00 q01
    have e00 := hW 0 0
    have e11 := hW 1 1
    have e01 := hW 0 1
    have w00 : W 0 0 = 0 := by linarith
    have w11 : W 1 1 = 0 := by linarith
    have t0 : t 0 = 0 := by rw [w00] at r10; linarith
    have t1 : t 1 = 0 := by rw [w11] at r21; linarith
    have w10 : W 1 0 = 0 := by linarith
    have w01 : W 0 1 = 0 := by linarith
    simp [t0, t1, w00, w01, w10, w11] at r00 r01 q00 q01
    interval_cases i <;> simpa

/-- The hypotheses of C126 for a body with symmetry: a rectangle that is pulled at opposite corners in opposite directions. -/
example : Problem 0 2 8 1 0 ⟨[(0, 8)], [(0, 0)]⟩ [exampleBody, otherHalf] [[exampleBody], [otherHalf]] exStore101 diagonal
      (fun t => t.comp.toNat) ∧
    Problem 0 2 8 1 0 ⟨[(0, 8)], [(0, 0)]⟩ ([exampleBody, otherHalf].map (turn 2 half halfShift))
      ([[exampleBody], [otherHalf]].map (List.map (turn 2 half halfShift))) exStore101 diagonal (fun t => t.comp.toNat) ∧
    Rotation 2 half ∧
    List.Forall₂ (Turned 2 half halfShift) [exampleBody, otherHalf] ([exampleBody, otherHalf].map (turn 2 half halfShift)) ∧
    NodeNumbers 2 8 4 (fun P a => 2 * P + a) [exampleBody, otherHalf] ∧
    Renumbered 2 8 opposite ([exampleBody, otherHalf].map (turn 2 half halfShift)) [exampleBody, otherHalf] ∧
    TurnedConstraints 2 8 4 (fun P a => 2 * P + a) half 0 0 diagonal diagonal (fun t => t.comp.toNat) (fun t => t.comp.toNat)
      (fun _ => 0) (fun _ => 0) ∧
    SameConstraints 8 opposite 0 0 diagonal diagonal (fun t => t.comp.toNat) (fun t => t.comp.toNat) (fun _ => 0) (fun _ => 0) ∧
    Held 2 0 8 [exampleBody, otherHalf] diagonal (fun t => t.comp.toNat) ∧
    Turns 2 8 4 (fun P a => 2 * P + a) half [-1, -2, 0, 0, 0, 0, 1, 2] [1, 2, 0, 0, 0, 0, -1, -2] ∧
    Matches 8 opposite [1, 2, 0, 0, 0, 0, -1, -2] [-1, -2, 0, 0, 0, 0, 1, 2] := by
  refine ⟨half_problem, turn_problem half_rotation half_problem (fix_fits _ (by simp) (by simp)), half_rotation, turn_all half_problem,
    ex_numbers _ ?_, ⟨⟨?_, ?_⟩, [otherHalf, exampleBody], List.Perm.swap _ _ _, .cons half_same (.cons half_same' .nil)⟩, ?_, ?_, half_held,
    ⟨rfl, rfl, ?_⟩, rfl, rfl, ?_⟩
  · intro i hi
    have hi : i < 3 := hi
    refine ⟨3 - i, by omega, fun a ha => ?_⟩
    interval_cases i <;> interval_cases a <;> rfl
  · intro i hi
    interval_cases i <;> simp [opposite]
  · intro i hi j hj
    interval_cases i <;> interval_cases j <;> simp [opposite]
  · intro w w' hw
    have e0 := hw.2.2 1 (by norm_num) 0 (by norm_num)
    have e1 := hw.2.2 1 (by norm_num) 1 (by norm_num)
    have e2 := hw.2.2 2 (by norm_num) 0 (by norm_num)
    have e3 := hw.2.2 2 (by norm_num) 1 (by norm_num)
    simp [sum_range_succ, half] at e0 e1 e2 e3
    rw [Satisfies, Satisfies, diagonal, fix_eqs]
    simp [Equation.lhs, e0, e1, e2, e3]
  · intro w w' hw
    have e0 := hw.2.2 2 (by norm_num)
    have e1 := hw.2.2 3 (by norm_num)
    have e2 := hw.2.2 4 (by norm_num)
    have e3 := hw.2.2 5 (by norm_num)
    simp [opposite] at e0 e1 e2 e3
    rw [Satisfies, Satisfies, diagonal, fix_eqs]
    simp [Equation.lhs, e0, e1, e2, e3]
    tauto
  · intro p hp a ha
    interval_cases p <;> interval_cases a <;> simp [sum_range_succ, half]
  · intro i hi
    interval_cases i <;> simp [opposite]

end Objectivity

end NuTo
