/-
C109, continued: nonlocal strains leave the range of the local strains; meshes that meet the hypotheses.
-/
import Verif.Props.GradientMesh

namespace NuTo

open Assembly Finset Balance ElasticStep Integrands

namespace GradientMesh

/-! ### Example: two trusses -/

/-- The truss number `k` of length 2 at `2 k`; both elements are linear, three integration points (Lobatto). -/
noncomputable def bar (k : Nat) : Part where
  cell := ⟨k, ⟨[Node.ofVector [2 * (k : ℝ)], Node.ofVector [2 * (k : ℝ) + 2]], Interpolation.trussLinear⟩, [(1 / 3, [-1]), (4 / 3, [0]), (1 / 3, [1])]⟩
  disp := ⟨[⟨[[0]], [k]⟩, ⟨[[0]], [k + 1]⟩], Interpolation.trussLinear⟩
  eeq := ⟨[⟨[[0]], [k]⟩, ⟨[[0]], [k + 1]⟩], Interpolation.trussLinear⟩

/-- The Jacobian of both trusses. -/
noncomputable def barJacobian (k : Nat) : Jacobian :=
  ⟨1, 1, Jacobian.calculate 1 [2 * (k : ℝ), 2 * (k : ℝ) + 2] (Interpolation.trussLinearDeriv fun _ => 0),
    Jacobian.inv1 (Jacobian.calculate 1 [2 * (k : ℝ), 2 * (k : ℝ) + 2] (Interpolation.trussLinearDeriv fun _ => 0)),
    Jacobian.det1 (Jacobian.calculate 1 [2 * (k : ℝ), 2 * (k : ℝ) + 2] (Interpolation.trussLinearDeriv fun _ => 0)), fun _ => 0⟩

noncomputable def barPoints (k : Nat) : List (ℝ × IpData) :=
  [(1 / 3, ⟨k, 0, [-1], barJacobian k⟩), (4 / 3, ⟨k, 1, [0], barJacobian k⟩), (1 / 3, ⟨k, 2, [1], barJacobian k⟩)]

theorem bar_points (k : Nat) : (bar k).cell.Points (barPoints k) := by
  have h : ∀ i c, (bar k).cell.ipData i c = .ok ⟨k, i, c, barJacobian k⟩ := by
    intro i c
    rw [Cell.ipData]
    have : (bar k).cell.coordElement.extractNodeValues 0 = .ok [2 * (k : ℝ), 2 * (k : ℝ) + 2] := by
      rfl
    rw [this, Res.bind_ok']
    show (Jacobian.make _ 1 (Interpolation.trussLinearDeriv fun k => c.getD k 0)).bind _ = _
    rw [make_square1 _ _ (by simp [Interpolation.trussLinearDeriv]) (by simp [Interpolation.trussLinearDeriv])]
    rfl
  exact .cons ⟨rfl, h _ _⟩ (.cons ⟨rfl, h _ _⟩ (.cons ⟨rfl, h _ _⟩ .nil))

theorem bar_fits (k : Nat) (hk : k < 2) : Fits 1 3 3 (bar k) where
  disp := {
    dim1 := by norm_num
    dim3 := by norm_num
    dof := ⟨by simp [bar], rfl, by simp [bar, Node.WF]⟩
    coord := ⟨by simp [bar], rfl, by simp [bar, Node.ofVector, Node.WF]⟩
    dofDim := rfl
    coordDim := rfl
    dofUnity := C77_types _ (by simp [exactTypes, bar])
    coordUnity := C77_types _ (by simp [exactTypes, bar])
    numbered := by simp [bar, Numbered]; omega }
  nodes := ⟨by simp [bar], rfl, by simp [bar, Node.WF]⟩
  unity := C77_types _ (by simp [exactTypes, bar])
  numbered := by simp [bar, Numbered]; omega
  dimension := rfl

theorem bar_det (k : Nat) : (barJacobian k).det = 1 := by
  simp [barJacobian, Jacobian.det1, Jacobian.calculate, Interpolation.trussLinearDeriv, List.range_succ]
  ring

theorem bar_inv (k : Nat) : (barJacobian k).inv 0 0 = 1 := by
  simp [barJacobian, Jacobian.inv1, Jacobian.calculate, Interpolation.trussLinearDeriv, List.range_succ]
  ring_nf

theorem bar_gradients (k : Nat) (p : ℝ × IpData) (hp : p ∈ barPoints k) :
    (gradients (bar k).eeq p.2).coef 0 0 = -(1 / 2) ∧ (gradients (bar k).eeq p.2).coef 1 0 = 1 / 2 := by
  have h : p.2.jacobian = barJacobian k := by
    simp only [barPoints, List.mem_cons, List.not_mem_nil, or_false] at hp
    rcases hp with rfl | rfl | rfl <;> rfl
  have h1 : (barJacobian k).rows = 1 := rfl
  have h2 : (barJacobian k).cols = 1 := rfl
  constructor <;>
    simp [gradients, Jacobian.transform, h, h1, h2, bar_inv, bar, Interpolation.trussLinear, Interpolation.trussLinearDeriv]

theorem bar_strain (k : Nat) (p : ℝ × IpData) (hp : p ∈ barPoints k) (U : Nat → ℝ) :
    strainVec 1 1 (bar k) p.2 U 0 = (U (k + 1) - U k) / 2 := by
  obtain ⟨h1, h2⟩ := bar_gradients k p hp
  have h1' : (gradients (bar k).disp p.2).coef 0 0 = -(1 / 2) := h1
  have h2' : (gradients (bar k).disp p.2).coef 1 0 = 1 / 2 := h2
  have h3 : (gradients (bar k).disp p.2).rows = 2 := rfl
  have hr : Balance.restrict 1 (bar k).disp U = [U k, U (k + 1)] := by
    simp [Balance.restrict, List.range_succ, bar, number]
  simp [strainVec, strainAt, strains, displacementGradient, h3, hr, sum_range_succ, h1', h2']
  ring

theorem bar_slope (k : Nat) (p : ℝ × IpData) (hp : p ∈ barPoints k) (E : Nat → ℝ) :
    slope (bar k) p.2 E 0 = (E (k + 1) - E k) / 2 := by
  obtain ⟨h1, h2⟩ := bar_gradients k p hp
  have h3 : (bar k).eeq.interp.numNodes = 2 := rfl
  simp only [slope, h3, sum_range_succ, sum_range_zero, h1, h2]
  simp [bar, number]
  ring

theorem bar_nonlocal (k i : Nat) (xi : ℝ) (E : Nat → ℝ) :
    nonlocal (bar k) ⟨k, i, [xi], barJacobian k⟩ E = 1 / 2 * (1 - xi) * E k + 1 / 2 * (1 + xi) * E (k + 1) := by
  have h3 : (bar k).eeq.interp.numNodes = 2 := rfl
  simp only [nonlocal, h3, sum_range_succ, sum_range_zero]
  simp [bar, number, Interpolation.trussLinear, Interpolation.trussLinearShape]

/-- The cells and their points. -/
noncomputable def bars : List Part := [bar 0, bar 1]

noncomputable def barsPoints (x : Part) : List (ℝ × IpData) := barPoints x.cell.id.toNat

/-- Any integrand with a history for these points. -/
theorem bars_setting (g : GradientDamage 1) (hr : g.history = History.resize 2 3) :
    Setting ⟨[(0, 3), (1, 3)], [(0, 0), (1, 0)]⟩ 0 1 g 1 3 3 bars barsPoints fun _ => 0 where
  types := by norm_num
  size := rfl
  sizeDisp := rfl
  sizeEeq := rfl
  fits := by
    intro x hx
    simp only [bars, List.mem_cons, List.not_mem_nil, or_false] at hx
    rcases hx with rfl | rfl
    · exact bar_fits 0 (by norm_num)
    · exact bar_fits 1 (by norm_num)
  points := by
    intro x hx
    simp only [bars, List.mem_cons, List.not_mem_nil, or_false] at hx
    rcases hx with rfl | rfl
    · exact bar_points 0
    · exact bar_points 1
  history := by
    intro x hx p hp
    rw [hr]
    simp only [bars, List.mem_cons, List.not_mem_nil, or_false] at hx
    rcases hx with rfl | rfl <;>
    · simp only [barsPoints, barPoints, bar, Int.toNat_natCast, List.mem_cons, List.not_mem_nil, or_false] at hp
      rcases hp with rfl | rfl | rfl <;> simp [History.get, History.resize]

theorem bars_weights : ∀ x ∈ bars, ∀ p ∈ barsPoints x, 0 < p.2.jacobian.det * p.1 := by
  intro x hx p hp
  simp only [bars, List.mem_cons, List.not_mem_nil, or_false] at hx
  rcases hx with rfl | rfl <;>
  · simp only [barsPoints, barPoints, bar, Int.toNat_natCast, List.mem_cons, List.not_mem_nil, or_false] at hp
    rcases hp with rfl | rfl | rfl <;> simp [bar_det]

/-- The nonlocal strains of the displacements 0, 0, 2 for the parameter `c = 1 / 3` and a constant interaction. -/
theorem bars_solves (g : GradientDamage 1) (hr : g.history = History.resize 2 3) (hc : g.c = 1 / 3)
    (hf : ∀ w, g.interaction.factor w = 1) (h0 : ∀ e, e 0 = 0 → g.norm e = 0) (h1 : ∀ e, e 0 = 1 → g.norm e = 1)
    (junk : Nat → Nat → ℝ) :
    Solves ⟨[(0, 3), (1, 3)], [(0, 0), (1, 0)]⟩ junk 0 1 g [bars] [0, 0, 2] [-(1 / 10), 1 / 2, 11 / 10] := by
  have S := bars_setting g hr
  obtain ⟨v, _, b, k1, _, k2, _, k3, _, k4⟩ := C109_weak_form _ junk S.types g S.size bars [bars] (by simp) S.sizeDisp S.sizeEeq
    S.fits barsPoints S.points (fun _ => 0) S.history [0, 0, 2] [-(1 / 10), 1 / 2, 11 / 10]
  refine ⟨v, b, k1, k2, entries_zero k3 fun R => ?_⟩
  rw [k4 R]
  have hn0 : ∀ p ∈ barPoints 0, g.norm (strainVec 1 1 (bar 0) p.2 fun i => ([0, 0, 2] : List ℝ).getD i 0) = 0 := fun p hp =>
    h0 _ (by rw [bar_strain 0 p hp]; simp)
  have hn1 : ∀ p ∈ barPoints 1, g.norm (strainVec 1 1 (bar 1) p.2 fun i => ([0, 0, 2] : List ℝ).getD i 0) = 1 := fun p hp =>
    h1 _ (by rw [bar_strain 1 p hp]; simp)
  have hs : ∀ k, ∀ p ∈ barPoints k, ∀ E, slope (bar k) p.2 E 0 = (E (k + 1) - E k) / 2 := fun k p hp E => bar_slope k p hp E
  have hp0 : barsPoints (bar 0) = barPoints 0 := rfl
  have hp1 : barsPoints (bar 1) = barPoints 1 := rfl
  simp only [bars, List.map_cons, List.map_nil, hp0, hp1, List.sum_cons, List.sum_nil, hf, hc, sum_range_one]
  simp only [barPoints, List.mem_cons, List.not_mem_nil, or_false, forall_eq_or_imp, forall_eq] at hn0 hn1 hs
  obtain ⟨a1, a2, a3⟩ := hn0
  obtain ⟨b1, b2, b3⟩ := hn1
  simp only [barPoints, List.map_cons, List.map_nil, List.sum_cons, List.sum_nil, a1, a2, a3, b1, b2, b3, bar_nonlocal, bar_det,
    (hs 0).1, (hs 0).2.1, (hs 0).2.2, (hs 1).1, (hs 1).2.1, (hs 1).2.2]
  norm_num
  ring

/-- C109 fails pointwise: local strains between 0 and 1, the nonlocal strains that solve the equation are negative at an
integration point and above 1 at another one. -/
theorem C109_range_counterexample : ∃ (g : GradientDamage 1) (s : DofSizes) (cells : List Part) (pts : Part → List (ℝ × IpData))
    (U E : List ℝ), Setting s 0 1 g 1 3 3 cells pts (fun _ => 0) ∧ (∀ x ∈ cells, ∀ p ∈ pts x, 0 < p.2.jacobian.det * p.1) ∧
    0 < g.c ∧ g.interaction = .constant ∧ (∀ junk, Solves s junk 0 1 g [cells] U E) ∧
    (∀ x ∈ cells, ∀ p ∈ pts x, 0 ≤ localStrain g 1 U x p.2 ∧ localStrain g 1 U x p.2 ≤ 1) ∧
    (∃ x ∈ cells, ∃ p ∈ pts x, nonlocalStrain E x p.2 < 0) ∧ ∃ x ∈ cells, ∃ p ∈ pts x, 1 < nonlocalStrain E x p.2 := by
  obtain ⟨g, hg⟩ : ∃ g : GradientDamage 1, g = { GradientDamage.make (1 / 3) (LinearElasticDamage.make 1 1 1 0 .full .planeStress)
    (DamageLaw.exponential 1 1 1) (fun e => |e 0|) (fun _ _ => 1) .constant with history := History.resize 2 3 } := ⟨_, rfl⟩
  have hr : g.history = History.resize 2 3 := by rw [hg]
  have hn : ∀ e, g.norm e = |e 0| := by rw [hg]; exact fun _ => rfl
  refine ⟨g, _, bars, barsPoints, [0, 0, 2], [-(1 / 10), 1 / 2, 11 / 10], bars_setting g hr, bars_weights, by rw [hg]; norm_num [GradientDamage.make],
    by rw [hg]; rfl, fun junk => bars_solves g hr (by rw [hg]; rfl) (by rw [hg]; exact fun _ => rfl)
      (fun e he => by rw [hn, he, abs_zero]) (fun e he => by rw [hn, he, abs_one]) junk, ?_, ?_, ?_⟩
  · intro x hx p hp
    rw [localStrain, hn]
    simp only [bars, List.mem_cons, List.not_mem_nil, or_false] at hx
    rcases hx with rfl | rfl
    · rw [bar_strain 0 p hp]; norm_num
    · rw [bar_strain 1 p hp]; norm_num
  · refine ⟨bar 0, by simp [bars], (1 / 3, ⟨0, 0, [-1], barJacobian 0⟩), by simp [barsPoints, barPoints, bar], ?_⟩
    have := bar_nonlocal 0 0 (-1) fun i => ([-(1 / 10), 1 / 2, 11 / 10] : List ℝ).getD i 0
    rw [nonlocalStrain]
    refine lt_of_eq_of_lt this ?_
    norm_num
  · refine ⟨bar 1, by simp [bars], (1 / 3, ⟨1, 2, [1], barJacobian 1⟩), by simp [barsPoints, barPoints, bar], ?_⟩
    have := bar_nonlocal 1 2 1 fun i => ([-(1 / 10), 1 / 2, 11 / 10] : List ℝ).getD i 0
    rw [nonlocalStrain]
    refine lt_of_lt_of_eq ?_ this.symm
    norm_num

/-! ### Example: the three triangles of `C88` with linear nonlocal strains -/

/-- A triangle of the patch. -/
noncomputable def patchPart (p q r : Nat) : Part :=
  ⟨(patchCell p q r).1, (patchCell p q r).2, ⟨[p, q, r].map fun (P : Nat) => ⟨[[0]], [(P : Int)]⟩, Interpolation.triangleLinear⟩⟩

noncomputable def patchParts : List Part := [patchPart 0 1 3, patchPart 1 2 3, patchPart 2 0 3]

theorem patchParts_body : patchParts.map body = patchCells := rfl

theorem patchParts_mem {x : Part} (hx : x ∈ patchParts) : ∃ p q r, x = patchPart p q r ∧ p < 4 ∧ q < 4 ∧ r < 4 ∧
    body x ∈ patchCells := by
  simp only [patchParts, List.mem_cons, List.not_mem_nil, or_false] at hx
  rcases hx with rfl | rfl | rfl
  · exact ⟨0, 1, 3, rfl, by norm_num, by norm_num, by norm_num, by simp [patchCells, body, patchPart]⟩
  · exact ⟨1, 2, 3, rfl, by norm_num, by norm_num, by norm_num, by simp [patchCells, body, patchPart]⟩
  · exact ⟨2, 0, 3, rfl, by norm_num, by norm_num, by norm_num, by simp [patchCells, body, patchPart]⟩

/-- The mesh, the displacements `x / 10`, `y / 5` and uniform nonlocal strains meet the hypotheses of
`C109_homogeneous_plane`. -/
example (g : GradientDamage 3) (hr : g.history = History.resize 1 1) (k : ℝ)
    (hk : k = g.norm fun i => (voigt 2 fun a b => if a = b then (if a = 0 then 1 / 10 else 1 / 5) else 0).getD i 0) :
    Connected 2 8 (patchParts.map body) patchLabel (fun P a => 2 * P + a) patchPos ∧
    (∀ x ∈ patchParts, Polygon (1 / 2) (body x)) ∧
    Statics.AffineVector 2 (patchParts.map body) patchLabel (fun P a => 2 * P + a) patchPos (fun _ => 0)
      (fun a b => if a = b then (if a = 0 then 1 / 10 else 1 / 5) else 0) Statics.exW103 ∧
    (∃ pts : Cell × FemElement ℝ → List (ℝ × IpData), Setting ⟨[(0, 8), (1, 4)], [(0, 0), (1, 0)]⟩ 0 1 g 2 8 4 patchParts (fun x => pts (body x)) (fun _ => 0) ∧
      ∀ x ∈ patchParts, ∀ p ∈ pts (body x), 0 < p.2.jacobian.det * p.1) ∧
    (∀ x ∈ patchParts, ∀ i < x.eeq.nodes.length, [k, k, k, k].getD (number x.eeq i 0) 0 =
      g.norm fun i => (voigt 2 fun a b => if a = b then (if a = 0 then 1 / 10 else 1 / 5) else 0).getD i 0) := by
  rw [patchParts_body]
  refine ⟨patch_connected, ?_, ?_, ?_, ?_⟩
  · intro x hx
    obtain ⟨p, q, r, rfl, _⟩ := patchParts_mem hx
    exact Or.inl ⟨rfl, by simp [patchPart, body, patchCell]⟩
  · intro x hx i hi a ha
    obtain ⟨p, q, r, rfl, hp, hq, hr, _⟩ := patch_mem hx
    have hi' : i < 3 := hi
    rw [patchCell_label p q r i hi']
    have h4 : [p, q, r].getD i 0 < 4 := by interval_cases i <;> simpa
    generalize [p, q, r].getD i 0 = z at *
    interval_cases z <;> interval_cases a <;> norm_num [Statics.exW103, patchPos, sum_range_succ]
  · obtain ⟨pts, hpts⟩ := Statics.points_exist patch_connected.body
    refine ⟨pts, ⟨by norm_num, rfl, rfl, rfl, ?_, ?_, ?_⟩, ?_⟩
    · intro x hx
      obtain ⟨p, q, r, rfl, hp, hq, hr, _⟩ := patchParts_mem hx
      exact ⟨patchCell_ok p q r hp hq hr, ⟨by simp [patchPart], rfl, by simp [patchPart, Node.WF]⟩,
        C77_types _ (by simp [exactTypes, patchPart]), by simp [patchPart, Numbered]; omega, rfl⟩
    · intro x hx
      obtain ⟨_, _, _, _, _, _, _, hb⟩ := patchParts_mem hx
      exact hpts (body x) hb
    · intro x hx pt hm
      obtain ⟨p, q, r, rfl, _, _, _, hb⟩ := patchParts_mem hx
      have h := hpts _ hb
      unfold Cell.Points at h
      rw [show (body (patchPart p q r)).1.rule = [(1 / 2, [1 / 3, 1 / 3])] from rfl] at h
      cases h' : pts (body (patchPart p q r)) with
      | nil => rw [h'] at hm; cases hm
      | cons y ys =>
        rw [h'] at h hm
        cases h with
        | cons hh ht =>
          cases ht
          obtain rfl := List.mem_singleton.1 hm
          have h2 := hh.2
          rw [Cell.ipData] at h2
          obtain ⟨v, _, h2⟩ := Res.bind_eq_ok h2
          obtain ⟨J, _, h2⟩ := Res.bind_eq_ok h2
          rw [← Res.ok.inj h2, hr]
          simp [History.get, History.resize, body, patchPart, patchCell]
    · intro x hx
      obtain ⟨_, _, _, _, _, _, _, hb⟩ := patchParts_mem hx
      exact Statics.patch_weights (body x) hb _ (hpts _ hb)
  · intro x hx i hi
    obtain ⟨p, q, r, rfl, hp, hq, hr, _⟩ := patchParts_mem hx
    rw [← hk]
    have hi' : i < 3 := hi
    have h4 : number (patchPart p q r).eeq i 0 < 4 := by
      interval_cases i <;> simpa [patchPart, number]
    generalize number (patchPart p q r).eeq i 0 = z at *
    interval_cases z <;> rfl

end GradientMesh

end NuTo
