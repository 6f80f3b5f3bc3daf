/-
C122: computed displacements and reactions do not depend on the numbering of the dofs, the order of the cells, the order of the
constraints and the choice of the dependent dof of an equation.
-/
import Verif.Props.Reactions
import Verif.Props.FrameInvariance
import Mathlib.Tactic.IntervalCases

namespace NuTo

open Assembly Finset Balance Solve Statics Quasistatic ElasticStep Reactions

namespace Renumbering

/-! ### Specification -/

/-- The same cell with other numbers: number `g` becomes `σ g`. The ids of the cells do not matter. -/
structure Same (dim : Nat) (σ : Nat → Nat) (x y : Cell × FemElement ℝ) : Prop where
  coord : y.1.coordElement = x.1.coordElement
  rule : y.1.rule = x.1.rule
  interp : y.2.interp = x.2.interp
  nodes : y.2.nodes.length = x.2.nodes.length
  number : ∀ i < x.2.nodes.length, ∀ a < dim, number y.2 i a = σ (number x.2 i a)

/-- The numbers below `n` are permuted. -/
structure Permutes (n : Nat) (σ : Nat → Nat) : Prop where
  lt : ∀ i < n, σ i < n
  inj : ∀ i < n, ∀ j < n, σ i = σ j → i = j

/-- The same cells in any order with permuted numbers. -/
structure Renumbered (dim n : Nat) (σ : Nat → Nat) (cells cells' : List (Cell × FemElement ℝ)) : Prop where
  permutes : Permutes n σ
  cells : ∃ l, l.Perm cells' ∧ List.Forall₂ (Same dim σ) cells l

/-- The same vector in the other numbering. -/
def Matches (n : Nat) (σ : Nat → Nat) (u u' : List ℝ) : Prop :=
  u.length = n ∧ u'.length = n ∧ ∀ i < n, u'.getD (σ i) 0 = u.getD i 0

/-- The constraints mean the same. -/
def SameConstraints (n : Nat) (σ : Nat → Nat) (dof dof' : Nat) (c c' : Constraints ℝ) (num num' : Term ℝ → Nat)
    (rhs rhs' : Equation ℝ → ℝ) : Prop :=
  ∀ w w', Matches n σ w w' → (Satisfies c' dof' num' rhs' w' ↔ Satisfies c dof num rhs w)

/-- The terms of an equation: number and coefficient, without regard to which is the dependent one. -/
def terms (num : Term ℝ → Nat) (e : Equation ℝ) : List (Nat × ℝ) := (e.dep :: e.ind).map fun t => (num t, t.coef)

/-- The same equation: the same terms in any order, and the same right-hand side. -/
def SameEquation (σ : Nat → Nat) (num num' : Term ℝ → Nat) (rhs rhs' : Equation ℝ → ℝ) (e e' : Equation ℝ) : Prop :=
  (terms num' e').Perm ((terms num e).map fun t => (σ t.1, t.2)) ∧ rhs' e' = rhs e

/-! ### Proofs -/

variable {dim n dof dof' : Nat} {σ : Nat → Nat} {E nu : ℝ} {s s' : DofSizes} {cells cells' : List (Cell × FemElement ℝ)}
  {threads threads' : List (List (Cell × FemElement ℝ))} {st st' : NodeStore ℝ} {c c' : Constraints ℝ} {num num' : Term ℝ → Nat}

theorem Permutes.surj (h : Permutes n σ) : ∀ j < n, ∃ i < n, σ i = j := by
  intro j hj
  have := Finset.surj_on_of_inj_on_of_card_le (s := range n) (t := range n) (fun a _ => σ a)
    (fun a ha => mem_range.2 (h.lt a (mem_range.1 ha)))
    (fun a b ha hb hab => h.inj a (mem_range.1 ha) b (mem_range.1 hb) hab) le_rfl j (mem_range.2 hj)
  obtain ⟨i, hi, e⟩ := this
  exact ⟨i, mem_range.1 hi, e.symm⟩

theorem Permutes.sum (h : Permutes n σ) (f : Nat → ℝ) : ∑ i ∈ range n, f (σ i) = ∑ i ∈ range n, f i := by
  refine sum_nbij σ (fun i hi => mem_range.2 (h.lt i (mem_range.1 hi))) (fun i hi j hj e => ?_) (fun j hj => ?_) fun _ _ => rfl
  · exact h.inj i (mem_range.1 (by simpa using hi)) j (mem_range.1 (by simpa using hj)) e
  · obtain ⟨i, hi, e⟩ := h.surj j (by simpa using hj)
    exact ⟨i, by simpa using hi, e⟩

/-- the same vector in the other numbering exists, and is unique -/
theorem Permutes.push (h : Permutes n σ) (u : List ℝ) (hu : u.length = n) : ∃ u', Matches n σ u u' := by
  choose! τ h1 h2 using h.surj
  obtain ⟨u', e1, e2⟩ := ofFun n fun j => u.getD (τ j) 0
  refine ⟨u', hu, e1, fun i hi => ?_⟩
  rw [e2 _ (h.lt i hi), h.inj _ (h1 _ (h.lt i hi)) _ hi (h2 _ (h.lt i hi))]

theorem Permutes.pull (h : Permutes n σ) (u' : List ℝ) (hu : u'.length = n) : ∃ u, Matches n σ u u' := by
  obtain ⟨u, e1, e2⟩ := ofFun n fun j => u'.getD (σ j) 0
  exact ⟨u, e1, hu, fun i hi => (e2 i hi).symm⟩

theorem matches_dot (h : Permutes n σ) {u u' f f' : List ℝ} (hu : Matches n σ u u') (hf : Matches n σ f f') :
    ∑ i ∈ range n, f'.getD i 0 * u'.getD i 0 = ∑ i ∈ range n, f.getD i 0 * u.getD i 0 := by
  rw [← h.sum]
  exact sum_congr rfl fun i hi => by rw [hu.2.2 i (mem_range.1 hi), hf.2.2 i (mem_range.1 hi)]

theorem Same.restrict {x y : Cell × FemElement ℝ} (h : Same dim σ x y) (hb : Body dim n x) (R R' : Nat → ℝ)
    (hR : ∀ i < n, R' (σ i) = R i) : Balance.restrict dim y.2 R' = Balance.restrict dim x.2 R := by
  rw [Balance.restrict, Balance.restrict, h.nodes]
  refine List.map_congr_left fun k hk => ?_
  have hk := List.mem_range.1 hk
  have hd : 0 < dim := hb.dim1
  have hi : k / dim < x.2.nodes.length := Nat.div_lt_of_lt_mul hk
  have ha : k % dim < dim := Nat.mod_lt _ hd
  rw [h.number _ hi _ ha, hR]
  exact Frame.number_lt hb hi ha

theorem Same.point {x y : Cell × FemElement ℝ} (h : Same dim σ x y) (i : Nat) (xi : List ℝ) (d d' : IpData)
    (hd : x.1.ipData i xi = .ok d) (hd' : y.1.ipData i xi = .ok d') : d'.coords = d.coords ∧ d'.jacobian = d.jacobian := by
  rw [Cell.ipData] at hd hd'
  rw [h.coord] at hd'
  obtain ⟨v, h1, hd⟩ := Res.bind_eq_ok hd
  obtain ⟨J, h2, hd⟩ := Res.bind_eq_ok hd
  rw [h1, Res.bind_ok', h2, Res.bind_ok'] at hd'
  rw [← Res.ok.inj hd, ← Res.ok.inj hd']
  exact ⟨rfl, rfl⟩

theorem Same.points {x y : Cell × FemElement ℝ} (h : Same dim σ x y) {p q : List (ℝ × IpData)} (hp : x.1.Points p)
    (hq : y.1.Points q) : List.Forall₂ (fun a b => b.1 = a.1 ∧ b.2.coords = a.2.coords ∧ b.2.jacobian = a.2.jacobian) p q := by
  unfold Cell.Points at hp hq
  rw [h.rule] at hq
  generalize x.1.rule.zipIdx = l at hp hq
  induction l generalizing p q with
  | nil =>
    cases hp
    cases hq
    exact .nil
  | cons a l ih =>
    cases hp with
    | cons p1 p2 =>
      cases hq with
      | cons q1 q2 =>
        refine .cons ⟨q1.1.trans p1.1.symm, ?_⟩ (ih p2 q2)
        exact h.point _ _ _ _ p1.2 q1.2

theorem Same.gradients {x y : Cell × FemElement ℝ} (h : Same dim σ x y) (d d' : IpData) (h1 : d'.coords = d.coords)
    (h2 : d'.jacobian = d.jacobian) : gradients y.2 d' = gradients x.2 d := by
  rw [Balance.gradients, Balance.gradients, h.interp, h1, h2]

theorem list_sum₂ {α β : Type} {r : α → β → Prop} (f : α → ℝ) (g : β → ℝ) {A : List α} {B : List β} (h : List.Forall₂ r A B)
    (hr : ∀ a ∈ A, ∀ b ∈ B, r a b → g b = f a) : (B.map g).sum = (A.map f).sum := by
  induction h with
  | nil => rfl
  | @cons a b A B hh _ ih =>
    rw [List.map_cons, List.map_cons, List.sum_cons, List.sum_cons, hr a List.mem_cons_self b List.mem_cons_self hh,
      ih fun a ha b hb => hr a (List.mem_cons_of_mem _ ha) b (List.mem_cons_of_mem _ hb)]

theorem energy (h : Renumbered dim n σ cells cells') (hb : ∀ x ∈ cells, Body dim n x)
    (pts pts' : Cell × FemElement ℝ → List (ℝ × IpData)) (hpts : ∀ x ∈ cells, x.1.Points (pts x))
    (hpts' : ∀ x ∈ cells', x.1.Points (pts' x)) (D : DMat ℝ) (R R' : Nat → ℝ) (hR : ∀ i < n, R' (σ i) = R i) :
    strainEnergy dim D cells' pts' R' = strainEnergy dim D cells pts R := by
  obtain ⟨l, hl, hs⟩ := h.cells
  rw [strainEnergy, strainEnergy, ← (hl.map _).sum_eq]
  refine list_sum₂ _ _ hs fun x hx y hy hxy => ?_
  refine list_sum₂ _ _ (hxy.points (hpts x hx) (hpts' y (hl.mem_iff.1 hy))) fun p _ q _ hpq => ?_
  rw [hxy.gradients _ _ hpq.2.1 hpq.2.2, hxy.restrict (hb x hx) R R' hR, hpq.1, hpq.2.2]

theorem potential_eq (h : Renumbered dim n σ cells cells') (hb : ∀ x ∈ cells, Body dim n x)
    (pts pts' : Cell × FemElement ℝ → List (ℝ × IpData)) (hpts : ∀ x ∈ cells, x.1.Points (pts x))
    (hpts' : ∀ x ∈ cells', x.1.Points (pts' x)) (D : DMat ℝ) {F F' w w' : List ℝ} (hF : Matches n σ F F')
    (hw : Matches n σ w w') : potential dim D cells' pts' F' w' = potential dim D cells pts F w := by
  rw [potential, potential, energy h hb pts pts' hpts hpts' D _ _ hw.2.2, hF.1, hF.2.1, matches_dot h.permutes hw hF]

theorem lhs_terms (num : Term ℝ → Nat) (e : Equation ℝ) (u : Nat → ℝ) :
    e.lhs num u = ((terms num e).map fun t => t.2 * u t.1).sum := by
  simp [Equation.lhs, terms, Function.comp_def]

theorem sameEquation_lhs {e e' : Equation ℝ} {w w' : List ℝ} (hw : Matches n σ w w') (hnum : ∀ t ∈ e.dep :: e.ind, num t < n)
    (hs : (terms num' e').Perm ((terms num e).map fun t => (σ t.1, t.2))) :
    e'.lhs num' (fun i => w'.getD i 0) = e.lhs num fun i => w.getD i 0 := by
  rw [lhs_terms, lhs_terms, (hs.map _).sum_eq, List.map_map]
  congr 1
  refine List.map_congr_left fun t ht => ?_
  obtain ⟨a, ha, rfl⟩ := List.mem_map.1 ht
  simp only [Function.comp]
  rw [hw.2.2 _ (hnum a ha)]

/-- C122: constraints whose equations have the same terms and right-hand sides mean the same: the order of the equations, the
order of their terms and the choice of the dependent term do not matter. -/
theorem C122_constraints {rhs rhs' : Equation ℝ → ℝ}
    (hnum : ∀ e ∈ c.equations dof, ∀ t ∈ e.dep :: e.ind, num t < n)
    (h1 : ∀ e ∈ c.equations dof, ∃ e' ∈ c'.equations dof', SameEquation σ num num' rhs rhs' e e')
    (h2 : ∀ e' ∈ c'.equations dof', ∃ e ∈ c.equations dof, SameEquation σ num num' rhs rhs' e e') :
    SameConstraints n σ dof dof' c c' num num' rhs rhs' := by
  intro w w' hw
  have key : ∀ e ∈ c.equations dof, ∀ e', SameEquation σ num num' rhs rhs' e e' →
      e'.lhs num' (fun i => w'.getD i 0) = e.lhs num fun i => w.getD i 0 := by
    intro e he e' hs
    exact sameEquation_lhs hw (hnum e he) hs.1
  constructor
  · intro h e he
    obtain ⟨e', he', hs⟩ := h1 e he
    rw [← key e he e' hs, h e' he', hs.2]
  · intro h e' he'
    obtain ⟨e, he, hs⟩ := h2 e' he'
    rw [key e he e' hs, h e he, hs.2]

/-- C122 (equilibria): the equilibria of the two problems have the same strains at all integration points; if the constraints
leave no motion without strains, then they have the same displacements. -/
theorem C122_equilibrium (P : Problem dof dim n E nu s cells threads st c num) (ps : PlaneState)
    (hren : Renumbered dim n σ cells cells') {rhs rhs' : Equation ℝ → ℝ}
    (hcon : SameConstraints n σ dof dof' c c' num num' rhs rhs')
    (pts pts' : Cell × FemElement ℝ → List (ℝ × IpData)) (hpts : ∀ x ∈ cells, x.1.Points (pts x))
    (hpts' : ∀ x ∈ cells', x.1.Points (pts' x)) {F F' u u' : List ℝ} (hF : Matches n σ F F')
    (hu : Equilibrium dof dim n (elasticTangent dim E nu ps) cells pts c num F rhs u)
    (hu' : Equilibrium dof' dim n (elasticTangent dim E nu ps) cells' pts' c' num' F' rhs' u') :
    Unstrained dim cells (fun i => u'.getD (σ i) 0 - u.getD i 0) ∧ (Held dim dof n cells c num → Matches n σ u u') := by
  obtain ⟨w, hw⟩ := hren.permutes.pull u' hu'.length
  obtain ⟨v', hv⟩ := hren.permutes.push u hu.length
  have hws := (hcon w u' hw).1 hu'.holds
  have h1 := hu.least w hw.1 hws
  have h2 := hu'.least v' hv.2.1 ((hcon u v' hv).2 hu.holds)
  rw [potential_eq hren P.body pts pts' hpts hpts' _ hF hw, potential_eq hren P.body pts pts' hpts hpts' _ hF hv] at h2
  obtain ⟨h, m, a1, a2, _, _, _, _, a7, a8, a9, a10⟩ := P.matrix ps
  have horth := ((equilibrium_iff P ps pts hpts a1 a2 hF.1).1 hu).2.2
  have hun := ((P.least ps a7 a8 a9 pts (a10 pts hpts) hF.1 hu.length hu.holds horth w hw.1 hws).2).1 (le_antisymm h2 h1)
  constructor
  · intro x hx p hp q hq
    have := hun x hx p hp q hq
    have e : Balance.restrict dim x.2 (fun i => u'.getD (σ i) 0 - u.getD i 0) =
        Balance.restrict dim x.2 fun i => w.getD i 0 - u.getD i 0 := by
      rw [Balance.restrict, Balance.restrict]
      refine List.map_congr_left fun k hk => ?_
      have hk := List.mem_range.1 hk
      have hb := P.body x hx
      rw [hw.2.2 _ (Frame.number_lt hb (Nat.div_lt_of_lt_mul hk) (Nat.mod_lt _ hb.dim1))]
    rw [e]
    exact this
  · intro hh
    obtain ⟨v, v1, v2⟩ := getD_sub n w u hw.1 hu.length
    have hz := hh v v1 (fun e he => (satisfies_sub hws hu.holds v2 e he).trans (sub_self _)) (by simp only [v2]; exact hun)
    refine ⟨hu.length, hu'.length, fun i hi => ?_⟩
    have := hz i hi
    rw [v2] at this
    rw [hw.2.2 i hi]
    linarith

/-- C122 (matrices): the stiffness matrix is permuted. -/
theorem C122_stiffness (P : Problem dof dim n E nu s cells threads st c num)
    (P' : Problem dof' dim n E nu s' cells' threads' st' c' num') (ps : PlaneState) (hren : Renumbered dim n σ cells cells') :
    ∃ h h' m m', assembleMatrix s dof (stiffness dof fun _ _ => .ok (elasticTangent dim E nu ps)) threads = .ok h ∧
      assembleMatrix s' dof' (stiffness dof' fun _ _ => .ok (elasticTangent dim E nu ps)) threads' = .ok h' ∧
      h.find? (toLex (dof, dof)) = some m ∧ h'.find? (toLex (dof', dof')) = some m' ∧
      ∀ i < n, ∀ j < n, m'.entry (σ i) (σ j) = m.entry i j := by
  obtain ⟨h, m, a1, a2, _, _, _, _, a7, _, _, a10⟩ := P.matrix ps
  obtain ⟨h', m', b1, b2, _, _, _, _, b7, _, _, b10⟩ := P'.matrix ps
  refine ⟨h, h', m, m', a1, b1, a2, b2, ?_⟩
  obtain ⟨pts, hpts⟩ := points_choice P
  obtain ⟨pts', hpts'⟩ := points_choice P'
  have hform : ∀ R R' : Nat → ℝ, (∀ i < n, R' (σ i) = R i) → form m' n R' = form m n R := by
    intro R R' hR
    have := energy hren P.body pts pts' hpts hpts' (elasticTangent dim E nu ps) R R' hR
    rw [a10 pts hpts, b10 pts' hpts'] at this
    linarith
  intro i hi j hj
  have hsum : ∀ (m : SpMat ℝ) (k : Nat), k < n → ∀ (R : Nat → ℝ),
      ∑ a ∈ range n, (if a = k then (1 : ℝ) else 0) * ∑ b ∈ range n, m.entry a b * R b = ∑ b ∈ range n, m.entry k b * R b := by
    intro m k hk R
    rw [sum_eq_single k (fun b _ hb => by rw [if_neg hb, zero_mul]) fun h => absurd (mem_range.2 hk) h, if_pos rfl, one_mul]
  have hsum' : ∀ (m : SpMat ℝ) (k l : Nat), l < n → ∑ b ∈ range n, m.entry k b * (if b = l then (1 : ℝ) else 0) = m.entry k l := by
    intro m k l hl
    rw [sum_eq_single l (fun b _ hb => by rw [if_neg hb, mul_zero]) fun h => absurd (mem_range.2 hl) h, if_pos rfl, mul_one]
  have e1 := form_add m a7 (fun a => if a = j then (1 : ℝ) else 0) (fun a => if a = i then (1 : ℝ) else 0) 1
  have e2 := form_add m' b7 (fun a => if a = σ j then (1 : ℝ) else 0) (fun a => if a = σ i then (1 : ℝ) else 0) 1
  rw [hsum m i hi, hsum' m i j hj] at e1
  rw [hsum m' _ (hren.permutes.lt i hi), hsum' m' _ _ (hren.permutes.lt j hj)] at e2
  have hunit : ∀ k < n, ∀ a < n, (if σ a = σ k then (1 : ℝ) else 0) = if a = k then 1 else 0 := by
    intro k hk a ha
    by_cases h : a = k
    · rw [h, if_pos rfl, if_pos rfl]
    · rw [if_neg h, if_neg fun e => h (hren.permutes.inj a ha k hk e)]
  rw [hform (fun a => (if a = j then (1 : ℝ) else 0) + 1 * if a = i then (1 : ℝ) else 0) _ (fun a ha => by
      rw [hunit j hj a ha, hunit i hi a ha]),
    hform (fun a => if a = j then (1 : ℝ) else 0) _ (hunit j hj), hform (fun a => if a = i then (1 : ℝ) else 0) _ (hunit i hi)] at e2
  linarith

/-- C122: if the constraints leave no motion without strains in one numbering, then in the other. -/
theorem C122_held (P : Problem dof dim n E nu s cells threads st c num)
    (P' : Problem dof' dim n E nu s' cells' threads' st' c' num') (ps : PlaneState) (hren : Renumbered dim n σ cells cells')
    (hcon : SameConstraints n σ dof dof' c c' num num' (fun _ => 0) fun _ => 0) :
    Held dim dof n cells c num ↔ Held dim dof' n cells' c' num' := by
  obtain ⟨_, m, _, _, _, _, _, _, _, _, a9, a10⟩ := P.matrix ps
  obtain ⟨_, m', _, _, _, _, _, _, _, _, b9, b10⟩ := P'.matrix ps
  obtain ⟨pts, hpts⟩ := points_choice P
  obtain ⟨pts', hpts'⟩ := points_choice P'
  have hun : ∀ w w', Matches n σ w w' →
      (Unstrained dim cells' (fun i => w'.getD i 0) ↔ Unstrained dim cells fun i => w.getD i 0) := by
    intro w w' hw
    have := energy hren P.body pts pts' hpts hpts' (elasticTangent dim E nu ps) (fun i => w.getD i 0)
      (fun i => w'.getD i 0) hw.2.2
    rw [a10 pts hpts, b10 pts' hpts'] at this
    rw [← a9, ← b9]
    constructor <;> intro h <;> linarith
  constructor
  · intro h w' hl hs hu
    obtain ⟨w, hw⟩ := hren.permutes.pull w' hl
    have hz := h w hw.1 ((hcon w w' hw).1 hs) ((hun w w' hw).1 hu)
    intro j hj
    obtain ⟨i, hi, rfl⟩ := hren.permutes.surj j hj
    rw [hw.2.2 i hi, hz i hi]
  · intro h w hl hs hu
    obtain ⟨w', hw⟩ := hren.permutes.push w hl
    have hz := h w' hw.2.1 ((hcon w w' hw).2 hs) ((hun w w' hw).2 hu)
    intro i hi
    rw [← hw.2.2 i hi, hz _ (hren.permutes.lt i hi)]

/-- C122 (reactions): the residual of the same state is the same. -/
theorem C122_residual (P : Problem dof dim n E nu s cells threads st c num)
    (P' : Problem dof' dim n E nu s' cells' threads' st' c' num') (ps : PlaneState) (hren : Renumbered dim n σ cells cells')
    (load load' : ℝ → List ℝ) (hload : ∀ t, Matches n σ (load t) (load' t)) (t : ℝ) (u u' : List ℝ) (hu : Matches n σ u u') :
    ∃ r r', gradient (setup dof dim E nu ps s threads load) [(dof, u)] t = .ok [(dof, r)] ∧
      gradient (setup dof' dim E nu ps s' threads' load') [(dof', u')] t = .ok [(dof', r')] ∧ Matches n σ r r' := by
  obtain ⟨h, h', m, m', a1, b1, a2, b2, hm⟩ := C122_stiffness P P' ps hren
  obtain ⟨_, r, r1, r2, r3⟩ := gradient_eq P ps a1 a2 load (fun t => (hload t).1) u t
  obtain ⟨_, r', q1, q2, q3⟩ := gradient_eq P' ps b1 b2 load' (fun t => (hload t).2.1) u' t
  refine ⟨r, r', r1, q1, r2, q2, fun i hi => ?_⟩
  rw [q3 _ (hren.permutes.lt i hi), r3 i hi, (hload t).2.2 i hi, ← hren.permutes.sum]
  congr 1
  exact sum_congr rfl fun j hj => by rw [hm i hi j (mem_range.1 hj), hu.2.2 j (mem_range.1 hj)]

/-- C122 (`Solve`): two programs that describe the same elastic body, forces and homogeneous constraints, compute the same
displacements, whatever the solvers. -/
theorem C122_solve (P : Problem dof dim n E nu s cells threads st c num)
    (P' : Problem dof' dim n E nu s' cells' threads' st' c' num') (ps : PlaneState) (hren : Renumbered dim n σ cells cells')
    (hcon : SameConstraints n σ dof dof' c c' num num' (fun _ => 0) fun _ => 0) (hsup : Held dim dof n cells c num) :
    ∃ h h', assembleMatrix s dof (stiffness dof fun _ _ => .ok (elasticTangent dim E nu ps)) threads = .ok h ∧
      assembleMatrix s' dof' (stiffness dof' fun _ _ => .ok (elasticTangent dim E nu ps)) threads' = .ok h' ∧
      ∀ lin lin', LinSolver lin → LinSolver lin' → ∀ (toFloat toFloat' : ℝ → ℝ) (F F' : List ℝ), Matches n σ F F' → ∀ r r',
        Solve.solve lin (c.bcs toFloat st) h [(dof, F)] [dof] = .ok r →
        Solve.solve lin' (c'.bcs toFloat' st') h' [(dof', F')] [dof'] = .ok r' →
        ∃ u u', r.find? dof = some u ∧ r'.find? dof' = some u' ∧ Matches n σ u u' := by
  obtain ⟨pts, hpts⟩ := points_choice P
  obtain ⟨pts', hpts'⟩ := points_choice P'
  obtain ⟨h, a1, a2⟩ := C101_minimum P ps pts hpts
  obtain ⟨h', b1, b2⟩ := C101_minimum P' ps pts' hpts'
  refine ⟨h, h', a1, b1, fun lin lin' hl hl' fl fl' F F' hF r r' hr hr' => ?_⟩
  obtain ⟨u, u1, u2, u3, u4⟩ := a2 lin hl fl F hF.1 r hr
  obtain ⟨u', v1, v2, v3, v4⟩ := b2 lin' hl' fl' F' hF.2.1 r' hr'
  exact ⟨u, u', u1, v1, (C122_equilibrium P ps hren hcon pts pts' hpts hpts' hF ⟨u2, u3, fun w hw hs => (u4 w hw hs).1⟩
    ⟨v2, v3, fun w hw hs => (v4 w hw hs).1⟩).2 hsup⟩

/-- C122 (steps): two programs that describe the same elastic body, forces and constraints, and start from the same displacements,
reach the same displacements in a step of `QuasistaticSolver`, whatever the solvers and tolerances. -/
theorem C122_step (P : Problem dof dim n E nu s cells threads st c num)
    (P' : Problem dof' dim n E nu s' cells' threads' st' c' num') (ps : PlaneState) (hren : Renumbered dim n σ cells cells')
    (hnum : ∀ e ∈ c.equations dof, ∀ t ∈ e.dep :: e.ind, num t < n)
    (h1 : ∀ e ∈ c.equations dof, ∃ e' ∈ c'.equations dof', ∀ t, SameEquation σ num num' (fun e => e.rhs t) (fun e => e.rhs t) e e')
    (h2 : ∀ e' ∈ c'.equations dof', ∃ e ∈ c.equations dof, ∀ t, SameEquation σ num num' (fun e => e.rhs t) (fun e => e.rhs t) e e')
    (hsup : Held dim dof n cells c num)
    (load load' : ℝ → List ℝ) (hload : ∀ t, Matches n σ (load t) (load' t)) (toFloat toFloat' : ℝ → ℝ)
    (hfl : ∀ e ∈ c.equations dof, ∀ t, toFloat (e.rhs t) = e.rhs t)
    (hfl' : ∀ e ∈ c'.equations dof', ∀ t, toFloat' (e.rhs t) = e.rhs t) (c0 c0' : DofSpMat ℝ) (tol tol' : ℝ) (htol : 0 < tol)
    (htol' : 0 < tol') :
    ∃ C C' cmat cmat', c.buildUnitConstraintMatrix st dof n = .ok C ∧ c'.buildUnitConstraintMatrix st' dof' n = .ok C' ∧
      setConstraints (c.bcs toFloat st) (fun _ => n) c0 [dof] = .ok cmat ∧
      setConstraints (c'.bcs toFloat' st') (fun _ => n) c0' [dof'] = .ok cmat' ∧
      ∀ R0 R0', Matches n σ R0 R0' → ∀ t0 t1 : ℝ, ∃ u u', Matches n σ u u' ∧
        ∀ lin lin', SolvesSpd lin → SolvesSpd lin' → ∀ step step' : ℝ,
          trialState (env (setup dof dim E nu ps s threads load) lin (c.bcs toFloat st) cmat tol) ⟨[(dof, R0)], t0, step, ()⟩ t1 =
            .ok [(dof, u)] ∧
          trialState (env (setup dof' dim E nu ps s' threads' load') lin' (c'.bcs toFloat' st') cmat' tol')
            ⟨[(dof', R0')], t0, step', ()⟩ t1 = .ok [(dof', u')] ∧
          (freeNorm C u ≤ 10000000000 → freeNorm C' u' ≤ 10000000000 →
            doStep (env (setup dof dim E nu ps s threads load) lin (c.bcs toFloat st) cmat tol) ⟨[(dof, R0)], t0, step, ()⟩ t1 =
              (⟨[(dof, u)], t1, t1 - t0, ()⟩, .converged 0) ∧
            doStep (env (setup dof' dim E nu ps s' threads' load') lin' (c'.bcs toFloat' st') cmat' tol')
              ⟨[(dof', R0')], t0, step', ()⟩ t1 = (⟨[(dof', u')], t1, t1 - t0, ()⟩, .converged 0)) := by
  obtain ⟨pts, hpts⟩ := points_choice P
  obtain ⟨pts', hpts'⟩ := points_choice P'
  have hsup' := (C122_held P P' ps hren (C122_constraints hnum
    (fun e he => (h1 e he).imp fun e' hs => ⟨hs.1, (hs.2 0).1, rfl⟩)
    fun e' he' => (h2 e' he').imp fun e hs => ⟨hs.1, (hs.2 0).1, rfl⟩)).1 hsup
  obtain ⟨C, cmat, a1, a2, a3⟩ := C105_step_partial P hsup ps pts hpts load (fun t => (hload t).1) toFloat hfl c0 tol htol
  obtain ⟨C', cmat', b1, b2, b3⟩ := C105_step_partial P' hsup' ps pts' hpts' load' (fun t => (hload t).2.1) toFloat' hfl' c0' tol' htol'
  refine ⟨C, C', cmat, cmat', a1, b1, a2, b2, fun R0 R0' hR t0 t1 => ?_⟩
  obtain ⟨u, hu, _, u3⟩ := a3 R0 hR.1 t0 t1
  obtain ⟨u', hu', _, v3⟩ := b3 R0' hR.2.1 t0 t1
  have hsame : ∀ e ∈ c.equations dof, ∀ e', (∀ t, SameEquation σ num num' (fun e => e.rhs t) (fun e => e.rhs t) e e') →
      SameEquation σ num num' (fun e => e.lhs num (fun i => R0.getD i 0) + (e.rhs t1 - e.rhs t0))
        (fun e => e.lhs num' (fun i => R0'.getD i 0) + (e.rhs t1 - e.rhs t0)) e e' := by
    intro e he e' hs
    refine ⟨(hs 0).1, ?_⟩
    have e1 := (hs t1).2
    have e0 := (hs t0).2
    beta_reduce at e1 e0 ⊢
    rw [e1, e0, sameEquation_lhs hR (hnum e he) (hs 0).1]
  have hcon := C122_constraints (σ := σ) (num' := num') (c' := c') (dof' := dof') hnum
    (fun e he => (h1 e he).imp fun e' hs => ⟨hs.1, hsame e he e' hs.2⟩)
    (fun e' he' => (h2 e' he').imp fun e hs => ⟨hs.1, hsame e hs.1 e' hs.2⟩)
  refine ⟨u, u', (C122_equilibrium P ps hren hcon pts pts' hpts hpts' (hload t1) hu hu').2 hsup, fun lin lin' hl hl' step step' => ?_⟩
  obtain ⟨x1, x2, _⟩ := u3 lin hl step
  obtain ⟨y1, y2, _⟩ := v3 lin' hl' step'
  exact ⟨x1, y1, fun hc hc' => ⟨x2 hc, y2 hc'⟩⟩

/-! ### Example -/

/-- The two triangles of C95, the last number first. -/
noncomputable def exTurned : Cell × FemElement ℝ :=
  (⟨5, exampleBody.1.coordElement, exampleBody.1.rule⟩,
   ⟨[⟨[[0, 0]], [7, 6]⟩, ⟨[[1 / 10, 0]], [5, 4]⟩, ⟨[[0, 1 / 5]], [3, 2]⟩], Interpolation.triangleLinear⟩)

noncomputable def exTurned2 : Cell × FemElement ℝ :=
  (⟨2, exampleBody2.1.coordElement, exampleBody2.1.rule⟩,
   ⟨[⟨[[1 / 10, 0]], [5, 4]⟩, ⟨[[0, 0]], [1, 0]⟩, ⟨[[0, 1 / 5]], [3, 2]⟩], Interpolation.triangleLinear⟩)

noncomputable def exStoreTurned : NodeStore ℝ := fun _ => ⟨[List.replicate 8 0], [7, 6, 5, 4, 3, 2, 1, 0]⟩

theorem exTurned_same : Renumbered 2 8 (7 - ·) [exampleBody, exampleBody2] [exTurned2, exTurned] where
  permutes := ⟨fun i hi => by omega, fun i hi j hj h => by omega⟩
  cells := by
    refine ⟨_, List.Perm.swap _ _ _, .cons ⟨rfl, rfl, rfl, rfl, ?_⟩ (.cons ⟨rfl, rfl, rfl, rfl, ?_⟩ .nil)⟩
    all_goals
      intro i hi a ha
      simp only [exampleBody, exampleBody2, List.length_cons, List.length_nil] at hi
      interval_cases i <;> interval_cases a <;> simp [exampleBody, exampleBody2, exTurned, exTurned2, number]

theorem Same.points_ex {x y : Cell × FemElement ℝ} (h : Same dim σ x y) (hx : ∃ p, x.1.Points p)
    (hpos : ∀ pts, x.1.Points pts → ∀ p ∈ pts, 0 < p.2.jacobian.det * p.1) :
    ∀ pts, y.1.Points pts → ∀ p ∈ pts, 0 < p.2.jacobian.det * p.1 := by
  intro pts hp
  obtain ⟨q, hq⟩ := hx
  have hf := h.points hq hp
  have hpos := hpos q hq
  clear hp hq
  induction hf with
  | nil => simp
  | @cons a b A B hab _ ih =>
    intro p hm
    rcases List.mem_cons.1 hm with rfl | hm
    · rw [hab.1, hab.2.2]
      exact hpos a List.mem_cons_self
    · exact ih (fun p hp => hpos p (List.mem_cons_of_mem _ hp)) p hm

theorem exTurned_body : ∀ x ∈ [exTurned2, exTurned], Body 2 8 x := by
  intro x hx
  simp only [List.mem_cons, List.not_mem_nil, or_false] at hx
  rcases hx with rfl | rfl
  · exact { exampleMesh_body exampleBody2 (by simp) with
      dof := ⟨by simp [exTurned2], rfl, by simp [exTurned2, Node.WF]⟩
      numbered := by simp [exTurned2, Numbered] }
  · exact { exampleMesh_body exampleBody (by simp) with
      dof := ⟨by simp [exTurned], rfl, by simp [exTurned, Node.WF]⟩
      numbered := by simp [exTurned, Numbered] }

/-- The same constraints in another order. -/
noncomputable def exTurnedC (g : ℝ → ℝ) : Constraints ℝ :=
  ⟨[(0, [⟨⟨1, 3, 1⟩, [], g⟩, ⟨⟨1, 0, 1⟩, [], fun _ => 0⟩, ⟨⟨1, 1, 1⟩, [], fun _ => 0⟩])],
    [(1, 0), (1, 1), (1, 3)], []⟩

theorem exTurnedC_eqs (g : ℝ → ℝ) : (exTurnedC g).equations 0 =
    [⟨⟨1, 3, 1⟩, [], g⟩, ⟨⟨1, 0, 1⟩, [], fun _ => 0⟩, ⟨⟨1, 1, 1⟩, [], fun _ => 0⟩] := by
  simp [exTurnedC, Constraints.equations, OMap.find?]

theorem exTurned_problem (g : ℝ → ℝ) : Problem 0 2 8 1 0 ⟨[(0, 8)], [(0, 0)]⟩ [exTurned2, exTurned] [[exTurned2, exTurned]]
    exStoreTurned (exTurnedC g) (fun t => 7 - t.comp.toNat) where
  dim1 := by norm_num
  dim3 := by norm_num
  stiff := by norm_num
  poisson := by norm_num
  body := exTurned_body
  positive := by
    obtain ⟨pts, hpts⟩ := points_choice (exC101_problem g)
    obtain ⟨l, _, hs⟩ := exTurned_same.cells
    intro x hx
    simp only [List.mem_cons, List.not_mem_nil, or_false] at hx
    rcases hx with rfl | rfl
    · refine Same.points_ex (dim := 2) (σ := (7 - ·)) (x := exampleBody2) ⟨rfl, rfl, rfl, rfl, ?_⟩ ⟨_, hpts _ (by simp)⟩
        (exampleMesh_weights _ (by simp))
      intro i hi a ha
      simp only [exampleBody2, List.length_cons, List.length_nil] at hi
      interval_cases i <;> interval_cases a <;> simp [exampleBody2, exTurned2, number]
    · refine Same.points_ex (dim := 2) (σ := (7 - ·)) (x := exampleBody) ⟨rfl, rfl, rfl, rfl, ?_⟩ ⟨_, hpts _ (by simp)⟩
        (exampleMesh_weights _ (by simp))
      intro i hi a ha
      simp only [exampleBody, List.length_cons, List.length_nil] at hi
      interval_cases i <;> interval_cases a <;> simp [exampleBody, exTurned, number]
  size := rfl
  schedule := List.Perm.refl _
  valid := by
    rw [exTurnedC_eqs]
    refine ⟨?_, by simp, ?_⟩
    · intro e he t ht
      simp only [List.mem_cons, List.not_mem_nil, or_false] at he
      rcases he with rfl | rfl | rfl <;>
        (simp only [List.mem_cons, List.not_mem_nil, or_false] at ht; subst ht
         simp [Term.dofNumber, Node.getDofNumber, exStoreTurned])
    · intro e _ f hf t ht
      simp only [List.mem_cons, List.not_mem_nil, or_false] at hf
      rcases hf with rfl | rfl | rfl <;> simp at ht
  unit := by
    rw [exTurnedC_eqs]
    simp
  tiny := by
    rw [exTurnedC_eqs]
    intro e he t ht
    simp only [List.mem_cons, List.not_mem_nil, or_false] at he
    rcases he with rfl | rfl | rfl <;> simp at ht

/-- The hypotheses of C122: the last number first, the cells and the constraints in another order. -/
example : Problem 0 2 8 1 0 ⟨[(0, 8)], [(0, 0)]⟩ [exampleBody, exampleBody2] [[exampleBody2], [exampleBody]] exStore101
      (exC101 fun t => t) (fun t => t.comp.toNat) ∧
    Problem 0 2 8 1 0 ⟨[(0, 8)], [(0, 0)]⟩ [exTurned2, exTurned] [[exTurned2, exTurned]] exStoreTurned (exTurnedC fun t => t)
      (fun t => 7 - t.comp.toNat) ∧
    Renumbered 2 8 (7 - ·) [exampleBody, exampleBody2] [exTurned2, exTurned] ∧
    Held 2 0 8 [exampleBody, exampleBody2] (exC101 fun t => t) (fun t => t.comp.toNat) ∧
    (∀ e ∈ (exC101 fun t => t).equations 0, ∃ e' ∈ (exTurnedC fun t => t).equations 0, ∀ t,
      SameEquation (7 - ·) (fun t => t.comp.toNat) (fun t => 7 - t.comp.toNat) (fun e => e.rhs t) (fun e => e.rhs t) e e') ∧
    Matches 8 (7 - ·) [0, 0, 0, 0, 0, 0, 1, 2] [2, 1, 0, 0, 0, 0, 0, 0] := by
  refine ⟨exC101_problem _, exTurned_problem _, exTurned_same, exC101_held _, ?_, rfl, rfl, ?_⟩
  · rw [exC101_eqs, exTurnedC_eqs]
    intro e he
    refine ⟨e, ?_, fun t => ⟨?_, rfl⟩⟩
    · simp only [List.mem_cons, List.not_mem_nil, or_false] at he ⊢
      rcases he with h | h | h <;> simp [h]
    · have hcomp : (fun t : Nat × ℝ => (7 - t.1, t.2)) ∘ (fun t : Term ℝ => (t.comp.toNat, t.coef)) =
          fun t : Term ℝ => (7 - t.comp.toNat, t.coef) := rfl
      simp [terms, hcomp]
  · intro i hi
    interval_cases i <;> norm_num

/-- Another dependent dof: `u_0 + u_3 = g` is `u_3 + u_0 = g`. -/
example (g : ℝ → ℝ) (t : ℝ) : SameEquation id (fun t => t.comp.toNat) (fun t => t.comp.toNat) (fun e => e.rhs t) (fun e => e.rhs t)
    ⟨⟨1, 0, 1⟩, [⟨1, 3, 1⟩], g⟩ ⟨⟨1, 3, 1⟩, [⟨1, 0, 1⟩], g⟩ :=
  ⟨by simpa [terms] using List.Perm.swap _ _ _, rfl⟩

end Renumbering

end NuTo
