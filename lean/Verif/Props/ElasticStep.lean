/-
C105: load steps of linear elastic bodies.
-/
import Verif.Model.ElasticStep
import Verif.Props.Statics
import Verif.Props.Quasistatic

namespace NuTo

open Assembly Finset Balance Solve Statics Quasistatic

namespace ElasticStep

/-! ### Specification -/

/-- The displacements satisfy the constraints with right-hand sides `rhs` and have the least potential energy under the
forces `F` of all that do. -/
structure Equilibrium (dof dim n : Nat) (D : DMat ℝ) (cells : List (Cell × FemElement ℝ))
    (pts : Cell × FemElement ℝ → List (ℝ × IpData)) (c : Constraints ℝ) (num : Term ℝ → Nat) (F : List ℝ)
    (rhs : Equation ℝ → ℝ) (u : List ℝ) : Prop where
  length : u.length = n
  holds : Satisfies c dof num rhs u
  least : ∀ w : List ℝ, w.length = n → Satisfies c dof num rhs w →
    potential dim D cells pts F u ≤ potential dim D cells pts F w

/-- The size of a vector that `Norm` computes: that of the components that do work on motions that satisfy the
constraints. -/
noncomputable def freeNorm (C : SpMat ℝ) (u : List ℝ) : ℝ :=
  Real.sqrt (∑ k ∈ range C.cols, (∑ i ∈ range C.rows, C.entry i k * u.getD i 0) ^ 2)

/-! ### Merged nodes -/

theorem moved_nodes (R : List ℝ) (e : FemElement ℝ) : (moved R e).nodes.length = e.nodes.length := by
  simp [moved]

theorem moved_getD (R : List ℝ) (e : FemElement ℝ) (i : Nat) (hi : i < e.nodes.length) :
    (moved R e).nodes.getD i ⟨[], []⟩ =
      ⟨(e.nodes[i].dofNumbers.map fun g => R.getD g.toNat 0) :: e.nodes[i].values.tail, e.nodes[i].dofNumbers⟩ := by
  rw [List.getD_eq_getElem _ _ (show i < (moved R e).nodes.length by rw [moved_nodes]; exact hi)]
  simp only [moved, List.getElem_map]

theorem moved_number (R : List ℝ) (e : FemElement ℝ) (i a : Nat) (hi : i < e.nodes.length) :
    number (moved R e) i a = number e i a := by
  have hn : e.nodes.getD i ⟨[], []⟩ = e.nodes[i] := List.getD_eq_getElem _ _ hi
  rw [number, number, moved_getD R e i hi, hn]

theorem moved_component {dim : Nat} (R : List ℝ) (e : FemElement ℝ) (h : Nodes dim e) (i a : Nat)
    (hi : i < e.nodes.length) (ha : a < dim) : component (moved R e) i a = R.getD (number e i a) 0 := by
  have hw := (h.wf _ (List.getElem_mem hi)).2
  have hn : e.nodes.getD i ⟨[], []⟩ = e.nodes[i] := List.getD_eq_getElem _ _ hi
  rw [component, number, moved_getD R e i hi, hn, List.headD_cons, List.getD_eq_getElem _ _ (show a < _ by simpa [hw] using ha),
    List.getElem_map, List.getD_eq_getElem (e.nodes[i].dofNumbers) 0 (by omega)]

theorem moved_nodesOk {dim : Nat} (R : List ℝ) (e : FemElement ℝ) (h : Nodes dim e) : Nodes dim (moved R e) := by
  refine ⟨by simpa [moved] using h.ne, by rw [moved_nodes]; exact h.count, fun nd hnd => ?_⟩
  obtain ⟨nd', hm, rfl⟩ := List.mem_map.1 hnd
  refine ⟨⟨by simp, fun v hv => ?_⟩, (h.wf nd' hm).2⟩
  rcases List.mem_cons.1 hv with rfl | hv
  · simp
  · exact (h.wf nd' hm).1.2 v (List.mem_of_mem_tail hv)

theorem moved_body {dim n : Nat} {x : Cell × FemElement ℝ} (h : Body dim n x) (R : List ℝ) :
    Body dim n (x.1, moved R x.2) := by
  refine ⟨h.dim1, h.dim3, moved_nodesOk R x.2 h.dof, h.coord, h.dofDim, h.coordDim, h.dofUnity, h.coordUnity, ?_⟩
  intro nd hnd
  obtain ⟨nd', hm, rfl⟩ := List.mem_map.1 hnd
  exact h.numbered nd' hm

theorem moved_values {dim : Nat} (R : List ℝ) (e : FemElement ℝ) (h : Nodes dim e) :
    values dim (moved R e) = Balance.restrict dim e fun i => R.getD i 0 := by
  rw [values, Balance.restrict, moved_nodes]
  refine List.map_congr_left fun k hk => ?_
  have hk := List.mem_range.1 hk
  have hd : 0 < dim := Nat.pos_of_ne_zero fun h0 => by rw [h0, Nat.zero_mul] at hk; omega
  rw [moved_component R e h _ _ (Nat.div_lt_of_lt_mul hk) (Nat.mod_lt _ hd)]

theorem moved_restrict {dim : Nat} (R : List ℝ) (e : FemElement ℝ) (S : Nat → ℝ) :
    Balance.restrict dim (moved R e) S = Balance.restrict dim e S := by
  rw [Balance.restrict, Balance.restrict, moved_nodes]
  refine List.map_congr_left fun k hk => ?_
  rw [moved_number R e _ _ (Nat.div_lt_of_lt_mul (List.mem_range.1 hk))]

theorem foldlM_map {α β γ : Type} (f : γ → β → Res γ) (g : α → β) (l : List α) (c : γ) :
    Res.foldlM f c (l.map g) = Res.foldlM (fun c a => f c (g a)) c l := by
  induction l generalizing c with
  | nil => rfl
  | cons a l ih =>
    rw [List.map_cons, Res.foldlM_cons, Res.foldlM_cons]
    cases f c (g a) with
    | ok y => simp only [Res.bind_ok', ih]
    | throw => rfl
    | ub => rfl

theorem dofDimension_ok {dim : Nat} {e : FemElement ℝ} (h : Nodes dim e) : e.dofDimension = .ok dim := by
  unfold FemElement.dofDimension
  cases hn : e.nodes with
  | nil => exact absurd hn h.ne
  | cons nd t =>
    obtain ⟨⟨w1, w2⟩, w3⟩ := h.wf nd (by rw [hn]; simp)
    simp only [Res.require, if_pos w1, Node.numValues]
    cases hv : nd.values with
    | nil => exact absurd hv w1
    | cons v t => rw [List.headD_cons, w2 v (by rw [hv]; simp), w3]

theorem moved_numbering {dim : Nat} (R : List ℝ) (e : FemElement ℝ) (h : Nodes dim e) :
    (moved R e).dofNumbering = e.dofNumbering := by
  unfold FemElement.dofNumbering
  rw [dofDimension_ok h, dofDimension_ok (moved_nodesOk R e h), Res.bind_ok', Res.bind_ok', moved, foldlM_map]
  rfl

theorem mulVec_length {B : DMat ℝ} {u v : List ℝ} (h : u.length = v.length) {α : Type} (r : Res α) :
    ((B.mulVec u).bind fun _ => r) = (B.mulVec v).bind fun _ => r := by
  unfold DMat.mulVec Res.require
  rw [h]
  split <;> rfl

theorem moved_stiffness {dim : Nat} (dof : Nat) (D : DMat ℝ) (R : List ℝ) (e : FemElement ℝ) (h : Nodes dim e) (d : IpData) :
    stiffness dof (fun _ _ => .ok D) (moved R e) d = stiffness dof (fun _ _ => .ok D) e d := by
  unfold stiffness
  have hb : bMatrix (moved R e) d = bMatrix e d := rfl
  rw [hb, (moved_nodesOk R e h).read.1, h.read.1]
  cases bMatrix e d with
  | ok B =>
    simp only [Res.bind_ok']
    exact mulVec_length (by rw [values_length, values_length, moved_nodes]) _
  | throw => rfl
  | ub => rfl

theorem moved_matCell {dim : Nat} (dof : Nat) (D : DMat ℝ) (R : List ℝ) (x : Cell × FemElement ℝ) (h : Nodes dim x.2) :
    matCell dof (stiffness dof fun _ _ => .ok D) (x.1, moved R x.2) = matCell dof (stiffness dof fun _ _ => .ok D) x := by
  unfold matCell
  simp only [moved_numbering R x.2 h, show stiffness dof (fun _ _ => .ok D) (moved R x.2) = stiffness dof (fun _ _ => .ok D) x.2 from
    funext (moved_stiffness dof D R x.2 h)]

theorem mapM_map {α β : Type} (f g : α → Res β) (h : α → α) (l : List α) (hl : ∀ x ∈ l, f (h x) = g x) :
    (l.map h).mapM f = l.mapM g := by
  induction l with
  | nil => rfl
  | cons a l ih =>
    rw [List.map_cons, List.mapM_cons, List.mapM_cons, hl a (by simp), ih fun x hx => hl x (by simp [hx])]

/-- The matrix does not depend on the displacements. -/
theorem moved_matrix {dim : Nat} (s : DofSizes) (dof : Nat) (D : DMat ℝ) (threads : List (List (Cell × FemElement ℝ)))
    (h : ∀ x ∈ threads.flatten, Nodes dim x.2) (R : List ℝ) :
    assembleMatrix s dof (stiffness dof fun _ _ => .ok D) (movedThreads R threads) =
      assembleMatrix s dof (stiffness dof fun _ _ => .ok D) threads := by
  unfold assembleMatrix movedThreads
  rw [mapM_map _ (fun t => t.mapM (matCell dof (stiffness dof fun _ _ => .ok D)))]
  intro t ht
  exact mapM_map _ _ _ _ fun x hx => moved_matCell dof D R x (h x (List.mem_flatten.2 ⟨t, ht, hx⟩))

/-! ### Single blocks -/

/-- a container with the block of the dof type only -/
def Single (dof : Nat) (v : DofVec ℝ) : Prop := ∃ x, v = [(dof, x)]

theorem single_set {dof : Nat} {v : DofVec ℝ} (h : Single dof v) (x : List ℝ) : OMap.set v dof x = [(dof, x)] := by
  obtain ⟨y, rfl⟩ := h
  simp [OMap.set]

theorem foldlM_single {α : Type} {dof : Nat} (f : DofVec ℝ → α → Res (DofVec ℝ)) (l : List α)
    (hf : ∀ v, Single dof v → ∀ a ∈ l, ∀ w, f v a = .ok w → Single dof w) :
    ∀ v, Single dof v → ∀ w, Res.foldlM f v l = .ok w → Single dof w := by
  induction l with
  | nil =>
    intro v hv w hw
    obtain rfl := Res.ok.inj hw
    exact hv
  | cons a l ih =>
    intro v hv w hw
    rw [Res.foldlM_cons] at hw
    obtain ⟨y, h1, h2⟩ := Res.bind_eq_ok hw
    exact ih (fun v hv b hb => hf v hv b (by simp [hb])) y (hf v hv a (by simp) y h1) w h2

theorem addAssign_single {dof : Nat} (x y : List ℝ) (h : x.length = y.length) :
    DofVec.addAssign [(dof, x)] [(dof, y)] = .ok [(dof, List.zipWith (· + ·) x y)] := by
  simp [DofVec.addAssign, OMap.mergeWith, OMap.mergeStep, OMap.find?, Res.require, DofVec.SameSize, h, OMap.set, Res.foldlM_cons]

theorem subAssign_single {dof : Nat} (x y : List ℝ) (h : x.length = y.length) :
    DofVec.subAssign [(dof, x)] [(dof, y)] = .ok [(dof, List.zipWith (· - ·) x y)] := by
  simp [DofVec.subAssign, OMap.mergeWith, OMap.mergeStep, OMap.find?, Res.require, DofVec.SameSize, h, OMap.set, Res.foldlM_cons]

theorem addAssign_stays {dof : Nat} {v w r : DofVec ℝ} (hv : Single dof v) (hw : Single dof w) (h : v.addAssign w = .ok r) :
    Single dof r := by
  obtain ⟨x, rfl⟩ := hv
  obtain ⟨y, rfl⟩ := hw
  by_cases hl : x.length = y.length
  · rw [addAssign_single x y hl] at h
    exact ⟨_, (Res.ok.inj h).symm⟩
  · simp [DofVec.addAssign, OMap.mergeWith, OMap.mergeStep, OMap.find?, Res.require, DofVec.SameSize, hl] at h

theorem resized_single {s : DofSizes} {dof : Nat} {v : DofVec ℝ} (h : resizedVector s [dof] = .ok v) : Single dof v := by
  simp only [resizedVector, Res.foldlM_cons, resizeStep] at h
  obtain ⟨y, h1, h2⟩ := Res.bind_eq_ok h
  obtain ⟨k, _, h3⟩ := Res.bind_eq_ok h1
  obtain rfl := Res.ok.inj h3
  obtain rfl := Res.ok.inj h2
  exact ⟨_, rfl⟩

theorem buildVector_single {s : DofSizes} {dof : Nat} {ts : List (List (VecCell ℝ))} {v : DofVec ℝ}
    (h : buildVector s [dof] ts = .ok v) : Single dof v := by
  unfold buildVector throwOnZero at h
  split at h
  · obtain ⟨g, h1, h2⟩ := Res.bind_eq_ok h
    refine foldlM_single _ _ (fun v hv a _ w hw => ?_) g (resized_single h1) v h2
    unfold vecThread at hw
    obtain ⟨v0, h3, hw⟩ := Res.bind_eq_ok hw
    obtain ⟨loc, h4, hw⟩ := Res.bind_eq_ok hw
    refine addAssign_stays hv ?_ hw
    refine foldlM_single _ _ (fun v' hv' a _ w' hw' => ?_) v0 (resized_single h3) loc h4
    unfold vecCellStep at hw'
    refine foldlM_single _ _ (fun v2 hv2 d hd w2 hw2 => ?_) v' hv' w' hw'
    have hd : d = dof := by
      simp only [dofIntersection, List.mem_flatMap, List.mem_map, List.mem_filter, List.mem_singleton] at hd
      obtain ⟨d1, _, d2, ⟨rfl, h6⟩, rfl⟩ := hd
      simpa using h6
    rw [hd] at hw2
    unfold vecDofStep at hw2
    obtain ⟨y, _, hw2⟩ := Res.bind_eq_ok hw2
    obtain ⟨z, _, hw2⟩ := Res.bind_eq_ok hw2
    exact ⟨z, by rw [← Res.ok.inj hw2, single_set hv2]⟩
  · cases h

theorem assembleVector_single {s : DofSizes} {dof : Nat} {f : FemElement ℝ → IpData → Res (DofVec ℝ)}
    {threads : List (List (Cell × FemElement ℝ))} {v : DofVec ℝ} (h : assembleVector s dof f threads = .ok v) :
    Single dof v := by
  unfold assembleVector at h
  obtain ⟨ts, _, h⟩ := Res.bind_eq_ok h
  exact buildVector_single h

theorem trialState_single {dof : Nat} {lin : SpMat ℝ → List ℝ → Res (List ℝ)} {bcs : Bcs ℝ} {h : DofSpMat ℝ} {f : List ℝ}
    {t0 t1 : ℝ} {res : DofVec ℝ} (hr : solveTrialState lin bcs h [(dof, f)] t0 t1 [dof] = .ok res) : Single dof res := by
  unfold solveTrialState at hr
  obtain ⟨_, _, hr⟩ := Res.bind_eq_ok hr
  obtain ⟨_, _, hr⟩ := Res.bind_eq_ok hr
  obtain ⟨_, _, hr⟩ := Res.bind_eq_ok hr
  obtain ⟨_, _, hr⟩ := Res.bind_eq_ok hr
  obtain ⟨_, _, hr⟩ := Res.bind_eq_ok hr
  obtain ⟨_, _, hr⟩ := Res.bind_eq_ok hr
  obtain ⟨_, _, hr⟩ := Res.bind_eq_ok hr
  obtain ⟨_, _, hr⟩ := Res.bind_eq_ok hr
  obtain ⟨_, _, hr⟩ := Res.bind_eq_ok hr
  obtain ⟨_, _, hr⟩ := Res.bind_eq_ok hr
  obtain ⟨_, _, hr⟩ := Res.bind_eq_ok hr
  obtain ⟨_, _, hr⟩ := Res.bind_eq_ok hr
  obtain ⟨_, _, hr⟩ := Res.bind_eq_ok hr
  obtain ⟨_, _, hr⟩ := Res.bind_eq_ok hr
  unfold DofVec.fromEigen at hr
  split at hr
  · obtain ⟨_, hr⟩ := Res.require_eq_ok hr
    obtain ⟨y, h1, hr⟩ := Res.bind_eq_ok hr
    obtain rfl := Res.ok.inj hr
    simp only [DofVec.dofTypes, OMap.keys, List.map_cons, List.map_nil, Res.foldlM_cons] at h1
    obtain ⟨z, h2, h3⟩ := Res.bind_eq_ok h1
    obtain ⟨_, h2⟩ := Res.require_eq_ok h2
    obtain rfl := Res.ok.inj h2
    obtain rfl := Res.ok.inj h3
    exact ⟨_, single_set ⟨f, rfl⟩ _⟩
  · cases hr

/-! ### Internal forces -/

theorem mapM_congr {α β : Type} (f g : α → Res β) (l : List α) (hl : ∀ x ∈ l, f x = g x) : l.mapM f = l.mapM g := by
  have := mapM_map f g id l hl
  rwa [List.map_id] at this

variable {dof dim n : Nat} {E nu : ℝ} {ps : PlaneState} {s : DofSizes} {cells : List (Cell × FemElement ℝ)}
  {threads : List (List (Cell × FemElement ℝ))} {st : NodeStore ℝ} {c : Constraints ℝ} {num : Term ℝ → Nat}

theorem momentum_elastic (P : Problem dof dim n E nu s cells threads st c num) (ps : PlaneState) {x : Cell × FemElement ℝ}
    (h : Body dim n x) :
    vecCell dof (momentum dof fun e _ => elasticStress dim E nu ps e) x =
      vecCell dof (momentum dof fun e _ => .ok (apply (elasticTangent dim E nu ps) e)) x := by
  obtain ⟨_, _, _, e4⟩ := C95_elastic dim P.dim1 P.dim3 E nu ps P.stiff P.poisson.1 P.poisson.2
  obtain ⟨pts, hp⟩ := C77_points h
  have key : x.1.integrateVector (momentum dof (fun e _ => elasticStress dim E nu ps e) x.2) =
      x.1.integrateVector (momentum dof (fun e _ => .ok (apply (elasticTangent dim E nu ps) e)) x.2) := by
    refine integrateGeneric_congr _ _ _ _ _ pts hp fun p hm => ?_
    obtain ⟨j1, j2, _⟩ := h.point hp p hm
    obtain ⟨B, b1, b2, b3⟩ := strain_ok dim h.dim1 h.dim3 (gradients x.2 p.2) j1
    have hrows : (gradients x.2 p.2).rows = x.2.nodes.length := h.dof.count.symm
    rw [hrows] at b2 b3
    have hu := b3 (values dim x.2) (values_length _ _)
    rw [gradients] at b1
    rw [momentum, momentum, bMatrix, Res.require, if_pos (by rw [h.dofDim, j2]), b1, Res.bind_ok', Res.bind_ok', h.dof.read.1,
      Res.bind_ok', Res.bind_ok', hu, Res.bind_ok', Res.bind_ok', e4 _ (strains_length dim h.dim1 h.dim3 _ _)]
  unfold vecCell
  simp only [key]

/-- The internal forces of displacements `R` are the matrix times `R`. -/
theorem elastic_forces (P : Problem dof dim n E nu s cells threads st c num) (ps : PlaneState) {h : DofSpMat ℝ} {m : SpMat ℝ}
    (h1 : assembleMatrix s dof (stiffness dof fun _ _ => .ok (elasticTangent dim E nu ps)) threads = .ok h)
    (h2 : h.find? (toLex (dof, dof)) = some m) (R : List ℝ) :
    assembleMatrix s dof (stiffness dof fun _ _ => .ok (elasticTangent dim E nu ps)) (movedThreads R threads) = .ok h ∧
    ∃ f, assembleVector s dof (momentum dof fun e _ => elasticStress dim E nu ps e) (movedThreads R threads) =
        .ok [(dof, f)] ∧ f.length = n ∧ ∀ i < n, f.getD i 0 = ∑ j ∈ range n, m.entry i j * R.getD j 0 := by
  have hmem : ∀ x ∈ threads.flatten, Body dim n x := fun x hx => P.body x (P.schedule.mem_iff.1 hx)
  have hmat := (moved_matrix s dof (elasticTangent dim E nu ps) threads (fun x hx => (hmem x hx).dof) R).trans h1
  refine ⟨hmat, ?_⟩
  obtain ⟨e1, _, _, _⟩ := C95_elastic dim P.dim1 P.dim3 E nu ps P.stiff P.poisson.1 P.poisson.2
  have hp : (movedThreads R threads).flatten.Perm (cells.map fun x => (x.1, moved R x.2)) := by
    unfold movedThreads
    rw [← List.map_flatten]
    exact P.schedule.map _
  have hb : ∀ y ∈ cells.map fun x => (x.1, moved R x.2), Body dim n y := by
    intro y hy
    obtain ⟨x, hx, rfl⟩ := List.mem_map.1 hy
    exact moved_body (P.body x hx) R
  obtain ⟨h', m', a1, a2, _, _, k⟩ := C95_exists s dof dim n (fun _ _ => elasticTangent dim E nu ps)
    (fun e _ he => by rw [he]; exact e1) _ _ hp P.size hb
  obtain rfl : h = h' := Res.ok.inj (hmat.symm.trans a1)
  obtain rfl : m = m' := Option.some.inj (h2.symm.trans a2)
  obtain ⟨v, f, f1, f2, f3, f4⟩ := C95_forces k (fun _ => elasticTangent dim E nu ps) (fun _ _ => rfl)
    (fun e _ => apply (elasticTangent dim E nu ps) e) (fun e _ => apply_length _ _) (fun _ _ _ => rfl) s _ hp P.size
    (fun i => R.getD i 0) (by
      intro y hy i hi a ha
      obtain ⟨x, hx, rfl⟩ := List.mem_map.1 hy
      rw [moved_nodes] at hi
      rw [moved_component R x.2 (P.body x hx).dof i a hi ha, moved_number R x.2 i a hi])
  have hv : assembleVector s dof (momentum dof fun e _ => elasticStress dim E nu ps e) (movedThreads R threads) = .ok v := by
    rw [← f1]
    unfold assembleVector
    rw [mapM_congr _ (fun t => t.mapM (vecCell dof (momentum dof fun e _ => .ok (apply (elasticTangent dim E nu ps) e))))]
    intro t ht
    refine mapM_congr _ _ _ fun x hx => momentum_elastic P ps (hb x ?_)
    exact hp.mem_iff.1 (List.mem_flatten.2 ⟨t, ht, hx⟩)
  obtain ⟨f', rfl⟩ := assembleVector_single hv
  obtain rfl : f' = f := by simpa [OMap.find?] using f2
  exact ⟨f', hv, f3, f4⟩

/-! ### One load step -/

theorem equilibrium_unique (P : Problem dof dim n E nu s cells threads st c num) (ps : PlaneState)
    (hsup : Held dim dof n cells c num) (pts : Cell × FemElement ℝ → List (ℝ × IpData)) {h : DofSpMat ℝ} {m : SpMat ℝ}
    (h1 : assembleMatrix s dof (stiffness dof fun _ _ => .ok (elasticTangent dim E nu ps)) threads = .ok h)
    (h2 : h.find? (toLex (dof, dof)) = some m) (hpts : ∀ x ∈ cells, x.1.Points (pts x)) {F u : List ℝ} (hF : F.length = n)
    (hu : u.length = n) {rhs : Equation ℝ → ℝ} (hsat : Satisfies c dof num rhs u)
    (horth : ∀ w : List ℝ, w.length = n → Satisfies c dof num (fun _ => 0) w →
      ∑ i ∈ range n, w.getD i 0 * (∑ j ∈ range n, m.entry i j * u.getD j 0 - F.getD i 0) = 0) :
    Equilibrium dof dim n (elasticTangent dim E nu ps) cells pts c num F rhs u ∧
      ∀ w, Equilibrium dof dim n (elasticTangent dim E nu ps) cells pts c num F rhs w → w = u := by
  obtain ⟨h', m', g1, g2, _, _, _, _, a7, a8, a9, a10⟩ := P.matrix ps
  obtain rfl : h = h' := Res.ok.inj (h1.symm.trans g1)
  obtain rfl : m = m' := Option.some.inj (h2.symm.trans g2)
  have hl := fun w hw hws => P.least ps a7 a8 a9 pts (a10 pts hpts) hF hu hsat horth w hw hws
  refine ⟨⟨hu, hsat, fun w hw hws => (hl w hw hws).1⟩, fun w hw => ?_⟩
  have he := (hl w hw.length hw.holds).2.1 (le_antisymm (hw.least u hu hsat) (hl w hw.length hw.holds).1)
  obtain ⟨v, v1, v2⟩ := getD_sub n w u hw.length hu
  have h0 := hsup v v1 (fun e he => (satisfies_sub hw.holds hsat v2 e he).trans (sub_self _)) (by
    simp only [v2]
    exact he)
  refine List.ext_getElem (by rw [hw.length, hu]) fun i i1 i2 => ?_
  have := h0 i (by rw [hw.length] at i1; exact i1)
  rw [v2, List.getD_eq_getElem w 0 i1, List.getD_eq_getElem u 0 i2] at this
  linarith

/-- The norm of a vector of forces that do no work on motions that satisfy the homogeneous constraints is zero. -/
theorem norm_values (P : Problem dof dim n E nu s cells threads st c num) (toFloat : ℝ → ℝ) (c0 : DofSpMat ℝ) :
    ∃ C cmat, c.buildUnitConstraintMatrix st dof n = .ok C ∧
      setConstraints (c.bcs toFloat st) (fun _ => n) c0 [dof] = .ok cmat ∧ C.rows = n ∧
      (∀ u : List ℝ, u.length = n → norm cmat dof [(dof, u)] = .ok (freeNorm C u)) ∧
      ∀ r : List ℝ, r.length = n → (∀ w : List ℝ, w.length = n → Satisfies c dof num (fun _ => 0) w →
        ∑ i ∈ range n, w.getD i 0 * r.getD i 0 = 0) → norm cmat dof [(dof, r)] = .ok 0 := by
  obtain ⟨C, c1, c2, c3, c4, _⟩ := unit_spec st c dof n num P.valid P.unit P.tiny
  obtain ⟨cmat, _, k1, _⟩ := C18_norm_single_partial (c.bcs toFloat st) (fun _ => n) dof C c1 c3 c0
    [(dof, List.replicate n 0)] (List.replicate n 0) (by simp [OMap.find?]) (by simp [c2])
  have hn : ∀ u : List ℝ, u.length = n → norm cmat dof [(dof, u)] = .ok (freeNorm C u) := by
    intro u hu
    obtain ⟨cmat', q, g1, g2, g3, _⟩ := C18_norm_single_partial (c.bcs toFloat st) (fun _ => n) dof C c1 c3 c0
      [(dof, u)] u (by simp [OMap.find?]) (by rw [hu, c2])
    obtain rfl : cmat = cmat' := Res.ok.inj (k1.symm.trans g1)
    rw [norm, g2, Res.bind_ok', g3]
    rfl
  refine ⟨C, cmat, c1, k1, c2, hn, fun r hr hw => ?_⟩
  rw [hn r hr, freeNorm]
  have : ∑ k ∈ range C.cols, (∑ i ∈ range C.rows, C.entry i k * r.getD i 0) ^ 2 = 0 := by
    refine sum_eq_zero fun k hk => ?_
    obtain ⟨e, e1, e2⟩ := ofFun C.cols fun l => if l = k then (1 : ℝ) else 0
    obtain ⟨y, hy⟩ := SpMat.mulVec_ok C e e1
    obtain ⟨_, y1, y2⟩ := SpMat.mulVec_eq_ok c3 hy
    have h0 := hw y (by rw [y1, c2]) ((c4 y (by rw [y1, c2])).2 ⟨_, hy⟩)
    rw [← c2] at h0
    have h1 : ∑ i ∈ range C.rows, C.entry i k * r.getD i 0 = 0 := by
      refine Eq.trans (sum_congr rfl fun i hi => ?_) h0
      rw [y2 i (mem_range.1 hi), sum_eq_single k]
      · rw [e2 k (mem_range.1 hk), if_pos rfl, mul_one]
      · intro b hb hbk
        rw [e2 b (mem_range.1 hb), if_neg hbk, mul_zero]
      · intro h
        exact absurd hk h
    rw [h1]
    norm_num
  rw [this, Real.sqrt_zero]

theorem eq_of_getD {u v : List ℝ} (hl : u.length = v.length) (h : ∀ i < u.length, u.getD i 0 = v.getD i 0) : u = v := by
  refine List.ext_getElem hl fun i i1 i2 => ?_
  have := h i i1
  rwa [List.getD_eq_getElem u 0 i1, List.getD_eq_getElem v 0 i2] at this

/-- The data of a problem. -/
noncomputable def setup (dof dim : Nat) (E nu : ℝ) (ps : PlaneState) (s : DofSizes) (threads : List (List (Cell × FemElement ℝ)))
    (load : ℝ → List ℝ) : Setup := ⟨dof, dim, E, nu, ps, s, threads, load⟩

theorem gradient_eq (P : Problem dof dim n E nu s cells threads st c num) (ps : PlaneState) {h : DofSpMat ℝ} {m : SpMat ℝ}
    (h1 : assembleMatrix s dof (stiffness dof fun _ _ => .ok (elasticTangent dim E nu ps)) threads = .ok h)
    (h2 : h.find? (toLex (dof, dof)) = some m) (load : ℝ → List ℝ) (hload : ∀ t, (load t).length = n) (R : List ℝ) (t : ℝ) :
    hessian (setup dof dim E nu ps s threads load) [(dof, R)] = .ok h ∧
    ∃ f, gradient (setup dof dim E nu ps s threads load) [(dof, R)] t = .ok [(dof, f)] ∧ f.length = n ∧
      ∀ i < n, f.getD i 0 = ∑ j ∈ range n, m.entry i j * R.getD j 0 - (load t).getD i 0 := by
  obtain ⟨k1, f, k2, k3, k4⟩ := elastic_forces P ps h1 h2 R
  have hat : OMap.at' ([(dof, R)] : DofVec ℝ) dof = .ok R := by simp [OMap.at', OMap.find?]
  refine ⟨?_, List.zipWith (· + ·) f ((load t).map fun y => -y), ?_, by simp [k3, hload], fun i hi => ?_⟩
  · unfold hessian setup
    rw [hat, Res.bind_ok']
    exact k1
  · unfold gradient setup
    rw [hat, Res.bind_ok', k2, Res.bind_ok']
    exact addAssign_single _ _ (by simp [k3, hload])
  · rw [← k4 i hi]
    have i1 : i < f.length := by omega
    have i2 : i < (load t).length := by rw [hload]; exact hi
    rw [List.getD_eq_getElem _ _ (by simp [i1, i2]), List.getElem_zipWith, List.getElem_map, List.getD_eq_getElem _ _ i1,
      List.getD_eq_getElem _ _ i2]
    ring

/-- C105 (one step): a load step of a linear elastic body from arbitrary displacements `R0` at the stored time.  The new
displacements are the only ones that change the left-hand sides of the constraints by the change of the prescribed values and
have the least potential energy under the forces at the new time.  No Newton iteration is needed, whatever the tolerance.
The displacements are rejected if those of the free directions are larger than `1e10`. -/
theorem C105_step_partial (P : Problem dof dim n E nu s cells threads st c num) (hsup : Held dim dof n cells c num) (ps : PlaneState)
    (pts : Cell × FemElement ℝ → List (ℝ × IpData)) (hpts : ∀ x ∈ cells, x.1.Points (pts x)) (load : ℝ → List ℝ)
    (hload : ∀ t, (load t).length = n) (toFloat : ℝ → ℝ) (hfl : ∀ e ∈ c.equations dof, ∀ t, toFloat (e.rhs t) = e.rhs t)
    (c0 : DofSpMat ℝ) (tol : ℝ) (htol : 0 < tol) :
    ∃ C cmat, c.buildUnitConstraintMatrix st dof n = .ok C ∧
      setConstraints (c.bcs toFloat st) (fun _ => n) c0 [dof] = .ok cmat ∧
      ∀ (R0 : List ℝ), R0.length = n → ∀ t0 t1 : ℝ,
        ∃ u, Equilibrium dof dim n (elasticTangent dim E nu ps) cells pts c num (load t1)
            (fun e => e.lhs num (fun i => R0.getD i 0) + (e.rhs t1 - e.rhs t0)) u ∧
          (∀ w, Equilibrium dof dim n (elasticTangent dim E nu ps) cells pts c num (load t1)
            (fun e => e.lhs num (fun i => R0.getD i 0) + (e.rhs t1 - e.rhs t0)) w → w = u) ∧
          ∀ lin, SolvesSpd lin → ∀ step : ℝ,
            trialState (env (setup dof dim E nu ps s threads load) lin (c.bcs toFloat st) cmat tol) ⟨[(dof, R0)], t0, step, ()⟩ t1 =
              .ok [(dof, u)] ∧
            (freeNorm C u ≤ 10000000000 →
              doStep (env (setup dof dim E nu ps s threads load) lin (c.bcs toFloat st) cmat tol) ⟨[(dof, R0)], t0, step, ()⟩ t1 =
                (⟨[(dof, u)], t1, t1 - t0, ()⟩, .converged 0)) ∧
            (10000000000 < freeNorm C u →
              doStep (env (setup dof dim E nu ps s threads load) lin (c.bcs toFloat st) cmat tol) ⟨[(dof, R0)], t0, step, ()⟩ t1 =
                (⟨[(dof, R0)], t0, t1 - t0, ()⟩, .noConvergence)) := by
  obtain ⟨C, cmat, c1, c2, c3, c4, c5⟩ := norm_values P toFloat c0
  refine ⟨C, cmat, c1, c2, fun R0 hR0 t0 t1 => ?_⟩
  obtain ⟨h, m, a1, a2, a3⟩ := P.step ps
  obtain ⟨h', b1, b2⟩ := C101_step_solvable P ps hsup
  obtain rfl : h = h' := Res.ok.inj (a1.symm.trans b1)
  obtain ⟨g0, f, g1, g2, g3⟩ := gradient_eq P ps a1 a2 load hload R0 t1
  have hfl' : ∀ e ∈ c.equations dof, toFloat (e.rhs t0) = e.rhs t0 ∧ toFloat (e.rhs t1) = e.rhs t1 :=
    fun e he => ⟨hfl e he _, hfl e he _⟩
  obtain ⟨d, d1, d2⟩ := b2 toFloat t0 t1 hfl' f g2
  obtain ⟨lin0, l1, l2⟩ := ideal_solver
  obtain ⟨res0, r1, r2⟩ := d2 lin0 (l2.solvesSpd l1)
  obtain ⟨d', u, k1, _, k3, k4, k5, k6⟩ := a3 lin0 l1 toFloat t0 t1 hfl' (load t1) f R0 (hload t1) g2 hR0 g3
    (fun e => e.lhs num fun i => R0.getD i 0) (fun _ _ => rfl) res0 r1
  obtain rfl : d = d' := Option.some.inj (r2.symm.trans k1)
  obtain ⟨q1, q2⟩ := equilibrium_unique P ps hsup pts a1 a2 hpts (hload t1) k3 k5 k6
  refine ⟨u, q1, q2, fun lin hlin step => ?_⟩
  obtain ⟨res, r3, r4⟩ := d2 lin hlin
  obtain ⟨d', rfl⟩ := trialState_single r3
  obtain rfl : d' = d := by simpa [OMap.find?] using r4
  have hax : axpy [(dof, R0)] 1 [(dof, d')] = .ok [(dof, u)] := by
    have hmul : DofVec.mulAssign [(dof, d')] (1 : ℝ) = [(dof, d')] := by simp [DofVec.mulAssign]
    rw [axpy, hmul, subAssign_single _ _ (by rw [hR0, d1])]
    congr 3
    refine eq_of_getD (by simp [hR0, d1, k3]) fun i hi => ?_
    have i1 : i < R0.length := by simp at hi; omega
    have i2 : i < d'.length := by omega
    rw [k4 i, List.getD_eq_getElem _ _ hi, List.getElem_zipWith, List.getD_eq_getElem _ _ i1, List.getD_eq_getElem _ _ i2]
  have htrial : trialState (env (setup dof dim E nu ps s threads load) lin (c.bcs toFloat st) cmat tol)
      ⟨[(dof, R0)], t0, step, ()⟩ t1 = .ok [(dof, u)] := by
    unfold trialState env
    simp only
    rw [g0, Res.bind_ok', g1, Res.bind_ok']
    refine (congrArg (fun z => Res.bind z _) r3).trans ?_
    rw [Res.bind_ok']
    exact hax
  obtain ⟨_, r, w1, w2, w3⟩ := gradient_eq P ps a1 a2 load hload u t1
  have hr0 := c5 r w2 (fun w hw hws => by
    refine Eq.trans (sum_congr rfl fun i hi => ?_) (k6 w hw hws)
    rw [w3 i (mem_range.1 hi)])
  have hnewton : (Newton.solve (problem (env (setup dof dim E nu ps s threads load) lin (c.bcs toFloat st) cmat tol)
      ⟨[(dof, R0)], t0, t1 - t0, ()⟩) (env (setup dof dim E nu ps s threads load) lin (c.bcs toFloat st) cmat tol).solve
      (Newton.lineSearch 6) 6 [(dof, u)]).2 = .ok (.converged [(dof, u)] none) := by
    unfold Newton.solve problem env
    simp only [add_sub_cancel, w1]
    rw [show (setup dof dim E nu ps s threads load).dof = dof from rfl, hr0]
    simp only [if_pos htol]
  have hnu : (env (setup dof dim E nu ps s threads load) lin (c.bcs toFloat st) cmat tol).norm [(dof, u)] = .ok (freeNorm C u) :=
    c4 u k3
  refine ⟨htrial, ?_, ?_⟩
  · intro hle
    unfold doStep
    rw [htrial]
    simp only [hnewton, hnu, gt_iff_lt, if_neg (not_lt.2 hle)]
    rfl
  · intro hlt
    unfold doStep
    rw [htrial]
    simp only [hnewton, hnu, gt_iff_lt, if_pos hlt]

/-! ### Sequences of load steps -/

theorem Equilibrium.congr {D : DMat ℝ} {pts : Cell × FemElement ℝ → List (ℝ × IpData)} {F : List ℝ} {rhs rhs' : Equation ℝ → ℝ}
    {u : List ℝ} (h : Equilibrium dof dim n D cells pts c num F rhs u) (he : ∀ e ∈ c.equations dof, rhs e = rhs' e) :
    Equilibrium dof dim n D cells pts c num F rhs' u :=
  ⟨h.length, fun e h1 => (h.holds e h1).trans (he e h1), fun w hw hs => h.least w hw fun e h1 => (hs e h1).trans (he e h1).symm⟩

/-- C105 (any sequence of steps): there is exactly one vector `u t` of displacements for every time that has the least
potential energy under the forces at that time and whose error in the constraints is that of the first displacements at the
first time.  A step to `t` needs no iteration and is accepted if and only if the free displacements of `u t` do not exceed
`1e10`; the stored displacements are those of the last accepted time.  So they depend neither on the times in between, nor
on their order, nor on the schedule of the threads, the linear solver and the tolerance. -/
theorem C105_run_partial (P : Problem dof dim n E nu s cells threads st c num) (hsup : Held dim dof n cells c num) (ps : PlaneState)
    (pts : Cell × FemElement ℝ → List (ℝ × IpData)) (hpts : ∀ x ∈ cells, x.1.Points (pts x)) (load : ℝ → List ℝ)
    (hload : ∀ t, (load t).length = n) (toFloat : ℝ → ℝ) (hfl : ∀ e ∈ c.equations dof, ∀ t, toFloat (e.rhs t) = e.rhs t)
    (c0 : DofSpMat ℝ) (tol : ℝ) (htol : 0 < tol) :
    ∃ C cmat, c.buildUnitConstraintMatrix st dof n = .ok C ∧
      setConstraints (c.bcs toFloat st) (fun _ => n) c0 [dof] = .ok cmat ∧
      ∀ (R0 : List ℝ), R0.length = n → ∀ t0 : ℝ, ∃ u : ℝ → List ℝ,
        (∀ t, Equilibrium dof dim n (elasticTangent dim E nu ps) cells pts c num (load t)
            (fun e => e.rhs t + (e.lhs num (fun i => R0.getD i 0) - e.rhs t0)) (u t) ∧
          ∀ w, Equilibrium dof dim n (elasticTangent dim E nu ps) cells pts c num (load t)
            (fun e => e.rhs t + (e.lhs num (fun i => R0.getD i 0) - e.rhs t0)) w → w = u t) ∧
        ∀ lin, SolvesSpd lin → ∀ (step : ℝ) (ts : List ℝ), ∃ step',
          run (env (setup dof dim E nu ps s threads load) lin (c.bcs toFloat st) cmat tol) ⟨[(dof, R0)], t0, step, ()⟩
              (ts.map .doStep) =
            (⟨[(dof, ((ts.filter fun t => freeNorm C (u t) ≤ 10000000000).getLast?.map u).getD R0)],
                (ts.filter fun t => freeNorm C (u t) ≤ 10000000000).getLast?.getD t0, step', ()⟩,
              ts.map fun t => if freeNorm C (u t) ≤ 10000000000 then some (.converged 0) else some .noConvergence) := by
  obtain ⟨C, cmat, c1, c2, c3⟩ := C105_step_partial P hsup ps pts hpts load hload toFloat hfl c0 tol htol
  refine ⟨C, cmat, c1, c2, fun R0 hR0 t0 => ?_⟩
  have hu : ∀ t, ∃ v, Equilibrium dof dim n (elasticTangent dim E nu ps) cells pts c num (load t)
      (fun e => e.rhs t + (e.lhs num (fun i => R0.getD i 0) - e.rhs t0)) v ∧
      ∀ w, Equilibrium dof dim n (elasticTangent dim E nu ps) cells pts c num (load t)
        (fun e => e.rhs t + (e.lhs num (fun i => R0.getD i 0) - e.rhs t0)) w → w = v := by
    intro t
    obtain ⟨v, v1, v2, _⟩ := c3 R0 hR0 t0 t
    exact ⟨v, v1.congr fun e _ => by ring, fun w hw => v2 w (hw.congr fun e _ => by ring)⟩
  choose u hu using hu
  refine ⟨u, hu, fun lin hlin step ts => ?_⟩
  have hone : ∀ (R : List ℝ) (t : ℝ), R.length = n → (∀ e ∈ c.equations dof,
      e.lhs num (fun i => R.getD i 0) - e.rhs t = e.lhs num (fun i => R0.getD i 0) - e.rhs t0) → ∀ (st' t1 : ℝ),
      (freeNorm C (u t1) ≤ 10000000000 →
        doStep (env (setup dof dim E nu ps s threads load) lin (c.bcs toFloat st) cmat tol) ⟨[(dof, R)], t, st', ()⟩ t1 =
          (⟨[(dof, u t1)], t1, t1 - t, ()⟩, .converged 0)) ∧
      (10000000000 < freeNorm C (u t1) →
        doStep (env (setup dof dim E nu ps s threads load) lin (c.bcs toFloat st) cmat tol) ⟨[(dof, R)], t, st', ()⟩ t1 =
          (⟨[(dof, R)], t, t1 - t, ()⟩, .noConvergence)) := by
    intro R t hR hoff st' t1
    obtain ⟨v, v1, _, v3⟩ := c3 R hR t t1
    obtain rfl : v = u t1 := (hu t1).2 v (v1.congr fun e he => by linarith [hoff e he])
    exact (v3 lin hlin st').2
  have hinv : ∀ l : List ℝ, ((l.getLast?.map u).getD R0).length = n ∧ ∀ e ∈ c.equations dof,
      e.lhs num (fun i => ((l.getLast?.map u).getD R0).getD i 0) - e.rhs (l.getLast?.getD t0) =
        e.lhs num (fun i => R0.getD i 0) - e.rhs t0 := by
    intro l
    cases l.getLast? with
    | none => exact ⟨hR0, fun e _ => rfl⟩
    | some t =>
      refine ⟨(hu t).1.length, fun e he => ?_⟩
      have := (hu t).1.holds e he
      simp only [Option.map_some, Option.getD_some]
      linarith
  induction ts using List.reverseRecOn with
  | nil => exact ⟨step, rfl⟩
  | append_singleton ts t ih =>
    obtain ⟨st', ih⟩ := ih
    obtain ⟨i1, i2⟩ := hinv (ts.filter fun t => freeNorm C (u t) ≤ 10000000000)
    obtain ⟨k1, k2⟩ := hone _ _ i1 i2 st' t
    rw [List.map_append, List.map_singleton, run_append, ih]
    by_cases ha : freeNorm C (u t) ≤ 10000000000
    · refine ⟨t - (ts.filter fun t => freeNorm C (u t) ≤ 10000000000).getLast?.getD t0, ?_⟩
      simp only [op, k1 ha]
      simp [List.filter_append, ha]
    · refine ⟨t - (ts.filter fun t => freeNorm C (u t) ≤ 10000000000).getLast?.getD t0, ?_⟩
      simp only [op, k2 (not_le.1 ha)]
      simp [List.filter_append, ha]

/-! ### Wrong and rejected displacements -/

theorem unstrained_equilibrium (P : Problem dof dim n E nu s cells threads st c num) (ps : PlaneState)
    (pts : Cell × FemElement ℝ → List (ℝ × IpData)) (hpts : ∀ x ∈ cells, x.1.Points (pts x)) {rhs : Equation ℝ → ℝ}
    {u : List ℝ} (hu : u.length = n) (hsat : Satisfies c dof num rhs u) (h0 : Unstrained dim cells fun i => u.getD i 0) :
    Equilibrium dof dim n (elasticTangent dim E nu ps) cells pts c num (List.replicate n 0) rhs u := by
  obtain ⟨h, m, _, _, _, _, _, _, _, a8, a9, a10⟩ := P.matrix ps
  refine ⟨hu, hsat, fun w _ _ => ?_⟩
  have hz : ∀ R : Nat → ℝ, ∑ i ∈ range (List.replicate n (0 : ℝ)).length, (List.replicate n (0 : ℝ)).getD i 0 * R i = 0 := by
    intro R
    refine sum_eq_zero fun i hi => ?_
    rw [List.getD_eq_getElem _ _ (mem_range.1 hi), List.getElem_replicate, zero_mul]
  rw [potential, potential, hz, hz, a10 pts hpts, a10 pts hpts, (a9 _).2 h0]
  have := a8 fun i => w.getD i 0
  linarith

theorem points_choice (P : Problem dof dim n E nu s cells threads st c num) :
    ∃ pts : Cell × FemElement ℝ → List (ℝ × IpData), ∀ x ∈ cells, x.1.Points (pts x) := by
  have hex : ∀ x : Cell × FemElement ℝ, ∃ pts, x ∈ cells → x.1.Points pts := by
    intro x
    by_cases hx : x ∈ cells
    · obtain ⟨pts, h⟩ := C77_points (P.body x hx)
      exact ⟨pts, fun _ => h⟩
    · exact ⟨[], fun h => absurd h hx⟩
  choose pts hpts using hex
  exact ⟨pts, hpts⟩

theorem zero_getD (n i : Nat) : (List.replicate n (0 : ℝ)).getD i 0 = 0 := by
  simp only [List.getD_eq_getElem?_getD, List.getElem?_replicate]
  split <;> rfl

/-- the body of the examples, without forces -/
noncomputable def exSetup (ps : PlaneState) : Setup :=
  setup 0 2 1 0 ps ⟨[(0, 8)], [(0, 0)]⟩ [[exampleBody2], [exampleBody]] fun _ => List.replicate 8 0

/-- the displacements of a rotation: the origin is fixed, the node at `(2, 0)` moves by `t` in the direction y -/
noncomputable def rotated (t : ℝ) : List ℝ := [0, 0, 0, t, -(3 / 2) * t, 0, -(3 / 2) * t, t]

theorem rotated_unstrained (t : ℝ) : Unstrained 2 [exampleBody, exampleBody2] fun i => (rotated t).getD i 0 := by
  intro x hx pts hp p hm
  have hw := exampleMesh_weights x hx pts hp p hm
  refine C77_rigid_strains (exampleMesh_body x hx) hp p hm (fun h0 => ?_) ?_ (fun _ => 0)
    (fun a b => if a = 0 ∧ b = 1 then -(t / 2) else if a = 1 ∧ b = 0 then t / 2 else 0) (fun a b => ?_) _ fun i hi a ha => ?_
  · rw [h0, zero_mul] at hw
    exact lt_irrefl _ hw
  · simp only [List.mem_cons, List.not_mem_nil, or_false] at hx
    rcases hx with rfl | rfl <;> rfl
  · by_cases h1 : a = 0 ∧ b = 1
    · simp [h1.1, h1.2]
    · by_cases h2 : a = 1 ∧ b = 0
      · simp [h2.1, h2.2]
      · rw [if_neg h1, if_neg h2, if_neg fun h => h2 ⟨h.2, h.1⟩, if_neg fun h => h1 ⟨h.2, h.1⟩, neg_zero]
  · simp only [List.mem_cons, List.not_mem_nil, or_false] at hx
    rcases hx with rfl | rfl
    · replace hi : i < 3 := hi
      interval_cases i <;> interval_cases a <;>
        simp [exampleBody, number, component, nodesAt, Node.ofVector, sum_range_succ, rotated] <;> ring
    · replace hi : i < 3 := hi
      interval_cases i <;> interval_cases a <;>
        simp [exampleBody2, number, component, nodesAt, Node.ofVector, sum_range_succ, rotated] <;> ring

theorem rotated_satisfies (t : ℝ) (g : ℝ → ℝ) (rhs : Equation ℝ → ℝ) (h : ∀ e ∈ (exC101 g).equations 0, rhs e = e.rhs t)
    : Satisfies (exC101 g) 0 (fun t => t.comp.toNat) rhs (rotated (g t)) := by
  intro e he
  rw [h e he]
  rw [exC101_eqs] at he
  simp only [List.mem_cons, List.not_mem_nil, or_false] at he
  rcases he with rfl | rfl | rfl <;> simp [Equation.lhs, rotated]

/-- C105 is false if the first displacements do not satisfy the constraints, for example for prescribed values that are
constant in time: a step prescribes the change of the values only.  Here a displacement of 1 is prescribed at all times, all
steps from the unloaded body converge, and the body stays where it is. -/
theorem C105_start_counterexample (ps : PlaneState) (tol : ℝ) (htol : 0 < tol) :
    ∃ cmat, setConstraints ((exC101 fun _ => 1).bcs id exStore101) (fun _ => 8) [] [0] = .ok cmat ∧
      (∀ lin, SolvesSpd lin → ∀ t0 step t1 : ℝ,
        doStep (env (exSetup ps) lin ((exC101 fun _ => 1).bcs id exStore101) cmat tol)
          ⟨[(0, List.replicate 8 0)], t0, step, ()⟩ t1 = (⟨[(0, List.replicate 8 0)], t1, t1 - t0, ()⟩, .converged 0)) ∧
      ∃ e ∈ (exC101 fun _ => 1).equations 0, ∀ t,
        e.lhs (fun t => t.comp.toNat) (fun i => (List.replicate 8 (0 : ℝ)).getD i 0) = 0 ∧ e.rhs t = 1 := by
  have P := exC101_problem fun _ => (1 : ℝ)
  obtain ⟨pts, hpts⟩ := points_choice P
  obtain ⟨C, cmat, _, c2, c3⟩ := C105_step_partial P (exC101_held _) ps pts hpts (fun _ => List.replicate 8 0) (by simp) id
    (fun _ _ _ => rfl) [] tol htol
  refine ⟨cmat, c2, fun lin hlin t0 step t1 => ?_, ⟨⟨1, 3, 1⟩, [], fun _ => 1⟩, by rw [exC101_eqs]; simp, fun t => ⟨?_, rfl⟩⟩
  · obtain ⟨u, _, u2, u3⟩ := c3 (List.replicate 8 0) (by simp) t0 t1
    have hz := u2 (List.replicate 8 0) (unstrained_equilibrium P ps pts hpts (by simp) (fun e he => by
      rw [exC101_eqs] at he
      simp only [List.mem_cons, List.not_mem_nil, or_false] at he
      rcases he with rfl | rfl | rfl <;> simp) (by
        have := rotated_unstrained 0
        have hr : rotated 0 = List.replicate 8 0 := by simp [rotated, List.replicate]
        rwa [hr] at this))
    rw [← hz] at u3
    refine (u3 lin hlin step).2.1 ?_
    have : freeNorm C (List.replicate 8 0) = 0 := by
      simp only [freeNorm, zero_getD, mul_zero, sum_const_zero, ne_eq, OfNat.ofNat_ne_zero, not_false_eq_true, zero_pow,
        Real.sqrt_zero]
    rw [this]
    norm_num
  · simp [Equation.lhs]

/-- C105 is false for large displacements: a step whose displacements are the exact solution is reported as not
converged. -/
theorem C105_large_counterexample (ps : PlaneState) (tol : ℝ) (htol : 0 < tol) :
    ∃ cmat, setConstraints ((exC101 fun t => t).bcs id exStore101) (fun _ => 8) [] [0] = .ok cmat ∧
      ∃ t1 : ℝ, (∀ pts : Cell × FemElement ℝ → List (ℝ × IpData), (∀ x ∈ [exampleBody, exampleBody2], x.1.Points (pts x)) →
          Equilibrium 0 2 8 (elasticTangent 2 1 0 ps) [exampleBody, exampleBody2] pts (exC101 fun t => t)
            (fun t => t.comp.toNat) (List.replicate 8 0) (fun e => e.rhs t1) (rotated t1)) ∧
        ∀ lin, SolvesSpd lin → ∀ step : ℝ,
          trialState (env (exSetup ps) lin ((exC101 fun t => t).bcs id exStore101) cmat tol)
            ⟨[(0, List.replicate 8 0)], 0, step, ()⟩ t1 = .ok [(0, rotated t1)] ∧
          doStep (env (exSetup ps) lin ((exC101 fun t => t).bcs id exStore101) cmat tol)
            ⟨[(0, List.replicate 8 0)], 0, step, ()⟩ t1 = (⟨[(0, List.replicate 8 0)], 0, t1, ()⟩, .noConvergence) := by
  have P := exC101_problem fun t => t
  obtain ⟨pts, hpts⟩ := points_choice P
  obtain ⟨C, cmat, c1, c2, c3⟩ := C105_step_partial P (exC101_held _) ps pts hpts (fun _ => List.replicate 8 0) (by simp) id
    (fun _ _ _ => rfl) [] tol htol
  have hrot : ∀ t1 pts, (∀ x ∈ [exampleBody, exampleBody2], x.1.Points (pts x)) →
      Equilibrium 0 2 8 (elasticTangent 2 1 0 ps) [exampleBody, exampleBody2] pts (exC101 fun t => t)
        (fun t => t.comp.toNat) (List.replicate 8 0) (fun e => e.rhs t1) (rotated t1) := fun t1 pts hpts =>
    unstrained_equilibrium P ps pts hpts (by simp [rotated]) (rotated_satisfies t1 (fun t => t) _ fun _ _ => rfl)
      (rotated_unstrained t1)
  have hscale : ∀ t i, (rotated t).getD i 0 = t * (rotated 1).getD i 0 := by
    intro t i
    by_cases hi : i < 8
    · interval_cases i <;> simp [rotated] <;> ring
    · rw [List.getD_eq_default _ _ (by simp [rotated]; omega), List.getD_eq_default _ _ (by simp [rotated]; omega), mul_zero]
  have hnorm : ∀ t : ℝ, 0 ≤ t → freeNorm C (rotated t) = t * freeNorm C (rotated 1) := by
    intro t ht
    rw [freeNorm, freeNorm, ← Real.sqrt_sq ht, ← Real.sqrt_mul (sq_nonneg _), Real.sqrt_sq ht]
    congr 1
    rw [mul_sum]
    refine sum_congr rfl fun k _ => ?_
    simp only [hscale t]
    rw [← mul_pow, mul_sum]
    congr 1
    exact sum_congr rfl fun i _ => by ring
  have hpos : 0 < freeNorm C (rotated 1) := by
    obtain ⟨C', d1, d2, d3, d4, _⟩ := unit_spec exStore101 (exC101 fun t => t) 0 8 (fun t => t.comp.toNat) P.valid P.unit P.tiny
    obtain rfl : C = C' := Res.ok.inj (c1.symm.trans d1)
    refine lt_of_le_of_ne (Real.sqrt_nonneg _) fun h0 => ?_
    have h1 := (Real.sqrt_eq_zero (sum_nonneg fun k _ => sq_nonneg _)).1 h0.symm
    have h2 : ∀ k ∈ range C.cols, ∑ i ∈ range C.rows, C.entry i k * (rotated 1).getD i 0 = 0 := fun k hk =>
      pow_eq_zero_iff (two_ne_zero) |>.1 ((sum_eq_zero_iff_of_nonneg fun k _ => sq_nonneg _).1 h1 k hk)
    obtain ⟨q, hq⟩ := (d4 [0, 0, 0, 0, 1, 0, 0, 0] rfl).1 (by
      intro e he
      rw [exC101_eqs] at he
      simp only [List.mem_cons, List.not_mem_nil, or_false] at he
      rcases he with rfl | rfl | rfl <;> simp [Equation.lhs])
    obtain ⟨_, _, y2⟩ := SpMat.mulVec_eq_ok d3 hq
    have h3 : ∑ i ∈ range C.rows, ([0, 0, 0, 0, 1, 0, 0, 0] : List ℝ).getD i 0 * (rotated 1).getD i 0 = 0 := by
      calc _ = ∑ i ∈ range C.rows, ∑ k ∈ range C.cols, q.getD k 0 * (C.entry i k * (rotated 1).getD i 0) := by
            refine sum_congr rfl fun i hi => ?_
            rw [y2 i (mem_range.1 hi), sum_mul]
            exact sum_congr rfl fun k _ => by ring
        _ = ∑ k ∈ range C.cols, q.getD k 0 * ∑ i ∈ range C.rows, C.entry i k * (rotated 1).getD i 0 := by
            rw [sum_comm]
            exact sum_congr rfl fun k _ => by rw [mul_sum]
        _ = 0 := sum_eq_zero fun k hk => by rw [h2 k hk, mul_zero]
    rw [d2] at h3
    simp [sum_range_succ, rotated] at h3
  obtain ⟨t1, ht1⟩ : ∃ t1, t1 = 10000000001 / freeNorm C (rotated 1) := ⟨_, rfl⟩
  have hbig : 10000000000 < freeNorm C (rotated t1) := by
    rw [hnorm t1 (by rw [ht1]; positivity), ht1, div_mul_cancel₀ _ (ne_of_gt hpos)]
    norm_num
  refine ⟨cmat, c2, t1, hrot t1, fun lin hlin step => ?_⟩
  obtain ⟨u, _, u2, u3⟩ := c3 (List.replicate 8 0) (by simp) 0 t1
  have hz := u2 (rotated t1) ((hrot t1 pts hpts).congr fun e he => by
    rw [exC101_eqs] at he
    simp only [List.mem_cons, List.not_mem_nil, or_false] at he
    rcases he with rfl | rfl | rfl <;> simp [Equation.lhs])
  rw [← hz] at u3
  refine ⟨(u3 lin hlin step).1, ?_⟩
  have := (u3 lin hlin step).2.2 hbig
  rwa [sub_zero] at this

/-- The hypotheses of C105: the body of the examples with forces that grow in time, and a linear solver. -/
example : Problem 0 2 8 1 0 ⟨[(0, 8)], [(0, 0)]⟩ [exampleBody, exampleBody2] [[exampleBody2], [exampleBody]] exStore101
      (exC101 fun t => t) (fun t => t.comp.toNat) ∧
    Held 2 0 8 [exampleBody, exampleBody2] (exC101 fun t => t) (fun t => t.comp.toNat) ∧
    (∃ pts : Cell × FemElement ℝ → List (ℝ × IpData), ∀ x ∈ [exampleBody, exampleBody2], x.1.Points (pts x)) ∧
    (∀ t : ℝ, ([0, 0, 0, 0, t, 0, 0, 2 * t] : List ℝ).length = 8) ∧
    (∀ e ∈ (exC101 fun t => t).equations 0, ∀ t, id (e.rhs t) = e.rhs t) ∧ ∃ lin, SolvesSpd lin := by
  obtain ⟨lin, h1, h2⟩ := ideal_solver
  exact ⟨exC101_problem _, exC101_held _, points_choice (exC101_problem fun t => t), fun _ => rfl, fun _ _ _ => rfl, lin,
    h2.solvesSpd h1⟩

end ElasticStep

end NuTo
