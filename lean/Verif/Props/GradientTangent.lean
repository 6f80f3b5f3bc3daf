/-
C110: the assembled `Hessian0` of gradient enhanced damage is the derivative of the assembled residual.
-/
import Verif.Model.GradientTangent
import Verif.Props.GradientMeshExample
import Verif.Props.StiffnessTangent
import Mathlib.Analysis.Calculus.Deriv.Abs
import Mathlib.Data.Fin.VecNotation

namespace NuTo

open Assembly Finset Balance ElasticStep Integrands Matrix

namespace GradientMesh

variable {N : Nat}

/-! ### Assembly of four blocks -/

theorem scatter2_two (n n' : Nat) (nums nums' : List Int) (m : DMat ℝ) (R S : Nat → ℝ)
    (h : ∀ g ∈ nums, 0 ≤ g ∧ g < (n : Int)) (h' : ∀ g ∈ nums', 0 ≤ g ∧ g < (n' : Int)) :
    ∑ i ∈ range n, ∑ j ∈ range n', R i * scatter2 nums nums' m i j * S j =
      ∑ k ∈ range nums.length, ∑ l ∈ range nums'.length,
        R (nums.getD k 0).toNat * m.coef k l * S (nums'.getD l 0).toNat := by
  have hb : ∀ k ∈ range nums.length, 0 ≤ nums.getD k 0 ∧ nums.getD k 0 < (n : Int) := by
    intro k hk
    refine h _ ?_
    rw [List.getD_eq_getElem _ _ (mem_range.1 hk)]
    exact List.getElem_mem _
  have hb' : ∀ k ∈ range nums'.length, 0 ≤ nums'.getD k 0 ∧ nums'.getD k 0 < (n' : Int) := by
    intro k hk
    refine h' _ ?_
    rw [List.getD_eq_getElem _ _ (mem_range.1 hk)]
    exact List.getElem_mem _
  simp only [scatter2, sum_range_list, sum_mul, mul_sum]
  calc ∑ i ∈ range n, ∑ j ∈ range n', ∑ k ∈ range nums.length, ∑ l ∈ range nums'.length,
        R i * (if nums.getD k 0 = (i : Int) ∧ nums'.getD l 0 = (j : Int) then m.coef k l else 0) * S j
      = ∑ k ∈ range nums.length, ∑ l ∈ range nums'.length, ∑ i ∈ range n, ∑ j ∈ range n',
        R i * (if nums.getD k 0 = (i : Int) ∧ nums'.getD l 0 = (j : Int) then m.coef k l else 0) * S j := by
        simp only [fun i => sum_comm (s := range n') (t := range nums.length)
          (f := fun j k => ∑ l ∈ range nums'.length,
            R i * (if nums.getD k 0 = (i : Int) ∧ nums'.getD l 0 = (j : Int) then m.coef k l else 0) * S j)]
        rw [sum_comm]
        refine sum_congr rfl fun k _ => ?_
        simp only [fun i => sum_comm (s := range n') (t := range nums'.length)
          (f := fun j l =>
            R i * (if nums.getD k 0 = (i : Int) ∧ nums'.getD l 0 = (j : Int) then m.coef k l else 0) * S j)]
        rw [sum_comm]
    _ = _ := by
        refine sum_congr rfl fun k hk => sum_congr rfl fun l hl => ?_
        obtain ⟨k0, k1⟩ := hb k hk
        obtain ⟨l0, l1⟩ := hb' l hl
        rw [sum_eq_single_of_mem (nums.getD k 0).toNat (mem_range.2 (by omega)),
          sum_eq_single_of_mem (nums'.getD l 0).toNat (mem_range.2 (by omega)), if_pos ⟨by omega, by omega⟩]
        · intro j _ hne
          rw [if_neg (by omega), mul_zero, zero_mul]
        · intro i _ hne
          refine sum_eq_zero fun j _ => ?_
          rw [if_neg (by omega), mul_zero, zero_mul]

/-- The sum of the added values of one block of a cell, weighted by `R` and `S`. -/
theorem adds_two (r : DofDMat ℝ) (I J n n' : Nat) (num : Nat → List Int) (R S : Nat → ℝ)
    (hn : ∀ g ∈ num I, 0 ≤ g ∧ g < (n : Int)) (hn' : ∀ g ∈ num J, 0 ≤ g ∧ g < (n' : Int)) :
    ∑ i ∈ range n, ∑ j ∈ range n', R i * MatCell.adds ⟨r, num⟩ I J i j * S j =
      ∑ k ∈ range (num I).length, ∑ l ∈ range (num J).length,
        R ((num I).getD k 0).toNat * DofDMat.coef r I J k l * S ((num J).getD l 0).toNat := by
  unfold MatCell.adds DofDMat.coef
  dsimp only
  cases r.find? (toLex (I, J)) with
  | none => simp
  | some vals => exact scatter2_two n n' _ _ vals R S hn hn'

theorem find_blocks {disp eeq : Nat} (h : disp ≠ eeq) (M : Nat → Nat → DMat ℝ) {I J : Nat} (hI : I ∈ [disp, eeq])
    (hJ : J ∈ [disp, eeq]) :
    (setBlocks disp eeq (M disp disp) (M eeq disp) (M eeq eeq) (M disp eeq)).find? (toLex (I, J)) = some (M I J) := by
  simp only [List.mem_cons, List.not_mem_nil, or_false] at hI hJ
  have hk : ∀ a b c d : Nat, (toLex (a, b) = toLex (c, d)) ↔ a = c ∧ b = d := fun a b c d => by simp
  rw [setBlocks, OMap.find?_set, OMap.find?_set, OMap.find?_set, OMap.find?_set]
  simp only [hk]
  rcases hI with rfl | rfl <;> rcases hJ with rfl | rfl <;> simp [h, Ne.symm h]

theorem find_blocks_none {disp eeq : Nat} (M : Nat → Nat → DMat ℝ) {I J : Nat} (x : DMat ℝ)
    (hx : (setBlocks disp eeq (M disp disp) (M eeq disp) (M eeq eeq) (M disp eeq)).find? (toLex (I, J)) = some x) :
    I ∈ [disp, eeq] ∧ J ∈ [disp, eeq] := by
  have hk : ∀ a b c d : Nat, (toLex (a, b) = toLex (c, d)) ↔ a = c ∧ b = d := fun a b c d => by simp
  rw [setBlocks, OMap.find?_set, OMap.find?_set, OMap.find?_set, OMap.find?_set] at hx
  simp only [hk] at hx
  split_ifs at hx with h1 h2 h3 h4
  · simp [h1]
  · simp [h2]
  · simp [h3]
  · simp [h4]
  · simp [OMap.find?] at hx

/-- Entries of a vector of all dofs of a type that belong to a cell. -/
noncomputable def localValues (disp dim : Nat) (x : Part) (I : Nat) (R : Nat → ℝ) : List ℝ :=
  if I = disp then Balance.restrict dim x.disp R else Balance.restrict 1 x.eeq R

/-- Number of dofs of a type in a cell. -/
def localSize (disp dim : Nat) (x : Part) (I : Nat) : Nat :=
  if I = disp then dim * x.disp.nodes.length else 1 * x.eeq.nodes.length

/-- Integration and assembly of the four blocks. -/
theorem assembled4 (s : DofSizes) {disp eeq : Nat} (hne : disp ≠ eeq) (dim nd ne : Nat) (cells : List Part) (φ : Part → Part)
    (threads : List (List Part)) (hp : threads.flatten.Perm cells) (hsd : s.size disp = .ok nd) (hse : s.size eeq = .ok ne)
    (f : Part → IpData → Res (DofDMat ℝ)) (M : Part → IpData → Nat → Nat → DMat ℝ) (pts : Part → List (ℝ × IpData))
    (hb : ∀ x ∈ cells, Fits dim nd ne (φ x)) (hpts : ∀ x ∈ cells, (φ x).cell.Points (pts x))
    (hc : ∀ x ∈ cells, ∀ p ∈ pts x, f (φ x) p.2 = .ok (setBlocks disp eeq (M x p.2 disp disp) (M x p.2 eeq disp)
        (M x p.2 eeq eeq) (M x p.2 disp eeq)) ∧
      ∀ I ∈ [disp, eeq], ∀ J ∈ [disp, eeq], (M x p.2 I J).rows = localSize disp dim (φ x) I ∧
        (M x p.2 I J).cols = localSize disp dim (φ x) J) :
    ∃ h, assembleMatrix2 s disp eeq f (threads.map fun t => t.map φ) = .ok h ∧
      ∀ I ∈ [disp, eeq], ∀ J ∈ [disp, eeq], ∃ K, h.find? (toLex (I, J)) = some K ∧
        K.rows = (if I = disp then nd else ne) ∧ K.cols = (if J = disp then nd else ne) ∧
        ∀ R S : Nat → ℝ, ∑ i ∈ range (if I = disp then nd else ne), ∑ j ∈ range (if J = disp then nd else ne),
            R i * K.entry i j * S j =
          (cells.map fun x => ((pts x).map fun p => (∑ k ∈ range (localSize disp dim (φ x) I),
            ∑ l ∈ range (localSize disp dim (φ x) J), (localValues disp dim (φ x) I R).getD k 0 * (M x p.2 I J).coef k l *
              (localValues disp dim (φ x) J S).getD l 0) * p.2.jacobian.det * p.1).sum).sum := by
  have hcell : ∀ x ∈ cells, ∃ V, matCell2 disp eeq f (φ x) = .ok V ∧
      MatCell.Fits V [disp, eeq] (fun d => if d = disp then nd else ne) ∧
      ∀ I ∈ [disp, eeq], ∀ J ∈ [disp, eeq], ∀ R S : Nat → ℝ,
        ∑ i ∈ range (if I = disp then nd else ne), ∑ j ∈ range (if J = disp then nd else ne),
          R i * MatCell.adds V I J i j * S j =
        ((pts x).map fun p => (∑ k ∈ range (localSize disp dim (φ x) I),
            ∑ l ∈ range (localSize disp dim (φ x) J), (localValues disp dim (φ x) I R).getD k 0 * (M x p.2 I J).coef k l *
              (localValues disp dim (φ x) J S).getD l 0) * p.2.jacobian.det * p.1).sum := by
    intro x hx
    have hx' := hb x hx
    obtain ⟨r, r1, _, r3, r4, r5⟩ := C57_matrix (φ x).cell (pts x) (hpts x hx)
      (fun d => setBlocks disp eeq (M x d disp disp) (M x d eeq disp) (M x d eeq eeq) (M x d disp eeq))
      (fun k => (localSize disp dim (φ x) (ofLex k).1, localSize disp dim (φ x) (ofLex k).2))
      (fun p _ => by
        unfold setBlocks
        exact OMap.sorted_set (OMap.sorted_set (OMap.sorted_set (OMap.sorted_set (by simp [OMap.Sorted]) _ _) _ _) _ _) _ _)
      (fun p hp k y hy => by
        obtain ⟨I, J, rfl⟩ : ∃ I J, k = toLex (I, J) := ⟨(ofLex k).1, (ofLex k).2, rfl⟩
        obtain ⟨hI, hJ⟩ := find_blocks_none (M x p.2) y hy
        rw [find_blocks hne (M x p.2) hI hJ] at hy
        cases hy
        obtain ⟨s1, s2⟩ := (hc x hx p hp).2 I hI J hJ
        rw [s1, s2]
        rfl)
    have r1' : (φ x).cell.integrateMatrix (f (φ x)) = .ok r := by
      rw [← r1]
      exact integrateGeneric_congr _ (φ x).cell _ _ _ (pts x) (hpts x hx) fun p hp => (hc x hx p hp).1
    obtain ⟨_, nums, n1, n2, n3, n4⟩ := hx'.disp.dof.read
    obtain ⟨_, nums', m1, m2, m3, m4⟩ := hx'.nodes.read
    have n5 := n4 nd hx'.disp.numbered
    have m5 := m4 ne hx'.numbered
    obtain ⟨num, hnum⟩ : ∃ num : Nat → List Int, num = fun d => if d = disp then nums else if d = eeq then nums' else [] :=
      ⟨_, rfl⟩
    have num5 : ∀ I ∈ [disp, eeq], (∀ g ∈ num I, 0 ≤ g ∧ g < ((if I = disp then nd else ne : Nat) : Int)) ∧
        (num I).length = localSize disp dim (φ x) I ∧
        ∀ (R : Nat → ℝ), ∀ k < localSize disp dim (φ x) I, R ((num I).getD k 0).toNat =
          (localValues disp dim (φ x) I R).getD k 0 := by
      intro I hI
      have hres : ∀ (d : Nat) (e : FemElement ℝ) (R : Nat → ℝ), ∀ k < d * e.nodes.length,
          (Balance.restrict d e R).getD k 0 = R (number e (k / d) (k % d)) := by
        intro d e R k hk
        rw [Balance.restrict, List.getD_eq_getElem _ _ (by simpa using hk)]
        simp only [List.getElem_map, List.getElem_range]
      rw [hnum]
      dsimp only [localSize, localValues]
      by_cases hd : I = disp
      · rw [if_pos hd, if_pos hd, if_pos hd]
        simp only [if_pos hd]
        exact ⟨n5, n2, fun R k hk => by rw [n3 k hk, hres dim (φ x).disp R k hk]⟩
      · have he : I = eeq := by
          simp only [List.mem_cons, List.not_mem_nil, or_false] at hI
          exact hI.resolve_left hd
        rw [if_neg hd, if_pos he, if_neg hd, if_neg hd]
        simp only [if_neg hd]
        exact ⟨m5, m2, fun R k hk => by rw [m3 k hk, hres 1 (φ x).eeq R k hk]⟩
    refine ⟨⟨r, num⟩, ?_, ?_, fun I hI J hJ R S => ?_⟩
    · rw [matCell2, r1', Res.bind_ok', n1, Res.bind_ok', m1, Res.bind_ok', hnum]
    · intro I hI J hJ hI2 _
      obtain ⟨k, hk, _⟩ := (mem_dofTypes2 _ _).1 hI2
      obtain ⟨p, hp', _⟩ := (r4 k).1 (OMap.find?_isSome_iff.2 hk)
      obtain ⟨y, hy⟩ := Option.isSome_iff_exists.1 ((r4 (toLex (I, J))).2 ⟨p, hp', by rw [find_blocks hne (M x p.2) hI hJ]; rfl⟩)
      have hsz := r3 _ y hy
      have s1 : y.rows = localSize disp dim (φ x) I := congrArg Prod.fst hsz
      have s2 : y.cols = localSize disp dim (φ x) J := congrArg Prod.snd hsz
      exact ⟨y, hy, ⟨(num5 I hI).1, by rw [(num5 I hI).2.1, s1]⟩, ⟨(num5 J hJ).1, by rw [(num5 J hJ).2.1, s2]⟩⟩
    · rw [adds_two r I J _ _ num R S (num5 I hI).1 (num5 J hJ).1, (num5 I hI).2.1, (num5 J hJ).2.1]
      calc _ = ∑ k ∈ range (localSize disp dim (φ x) I), ∑ l ∈ range (localSize disp dim (φ x) J), ((pts x).map fun p =>
            (localValues disp dim (φ x) I R).getD k 0 * (M x p.2 I J).coef k l *
              (localValues disp dim (φ x) J S).getD l 0 * p.2.jacobian.det * p.1).sum := by
            refine sum_congr rfl fun k hk => sum_congr rfl fun l hl => ?_
            rw [(num5 I hI).2.2 R k (mem_range.1 hk), (num5 J hJ).2.2 S l (mem_range.1 hl), r5, ← List.sum_map_mul_left,
              ← List.sum_map_mul_right]
            congr 1
            refine List.map_congr_left fun p _ => ?_
            rw [DofDMat.coef, find_blocks hne (M x p.2) hI hJ]
            ring
        _ = _ := by
            simp only [list_sum_range]
            congr 1
            refine List.map_congr_left fun p _ => ?_
            simp only [sum_mul]
  have : Inhabited (MatCell ℝ) := ⟨⟨[], fun _ => []⟩⟩
  choose! V hV1 hV2 hV3 using hcell
  have hmem : ∀ t ∈ threads, ∀ x ∈ t, x ∈ cells := fun t ht x hx =>
    hp.mem_iff.1 (List.mem_flatten.2 ⟨t, ht, hx⟩)
  have hmap : ((threads.map fun t => t.map φ).mapM fun (t : List Part) => t.mapM (matCell2 disp eeq f)) =
      .ok (threads.map fun t => t.map V) := by
    rw [List.mapM_map]
    refine Res.mapM_ok _ _ _ fun t ht => ?_
    show (t.map φ).mapM (matCell2 disp eeq f) = _
    rw [List.mapM_map]
    exact Res.mapM_ok _ _ _ fun x hx => hV1 x (hmem t ht x hx)
  have hperm : (threads.map fun t => t.map V).flatten.Perm (cells.map V) := by
    rw [← List.map_flatten]
    exact hp.map V
  obtain ⟨h, h1, _, h4⟩ := C14_buildMatrix s [disp, eeq] (fun d => if d = disp then nd else ne) (cells.map V) _ hperm
    (by simp [hne]) (fun d hd => by
      rcases List.mem_cons.1 hd with rfl | hd
      · rw [if_pos rfl]; exact hsd
      · obtain rfl := List.mem_singleton.1 hd
        rw [if_neg (Ne.symm hne)]; exact hse) (fun c hc => by
      obtain ⟨x, hx, rfl⟩ := List.mem_map.1 hc
      exact hV2 x hx)
  refine ⟨h, by rw [assembleMatrix2, hmap, Res.bind_ok', h1], fun I hI J hJ => ?_⟩
  obtain ⟨m, g1, g2, g3, _, g5⟩ := h4 I hI J hJ
  refine ⟨m, g1, g2, g3, fun R S => ?_⟩
  rw [← List.map_congr_left fun c hc => hV3 c hc I hI J hJ R S, ← list_sum_range]
  refine sum_congr rfl fun i _ => ?_
  rw [← list_sum_range]
  refine sum_congr rfl fun j _ => ?_
  rw [g5, List.map_map, List.sum_map_mul_right, List.sum_map_mul_left]
  rfl

/-! ### Derivative at an integration point -/

/-- The matrices an integration point reads do not depend on the state. -/
theorem point_read (disp eeq : Nat) (g : GradientDamage N) {dim nd ne : Nat} {x : Part}
    (h : Fits dim nd ne x) (hN : N = voigtSize dim) {pts : List (ℝ × IpData)} (hp : x.cell.Points pts) (p : ℝ × IpData)
    (hm : p ∈ pts) :
    ∃ Bd Be Ne : DMat ℝ, Be.rows = dim ∧ Bd.cols = dim * x.disp.nodes.length ∧ Be.cols = 1 * x.eeq.nodes.length ∧
      (∀ R : Nat → ℝ, (fun i : Fin N => ∑ k : Fin Bd.cols, Bd.coef i k * (Balance.restrict dim x.disp R).getD k 0) =
        strainVec N dim x p.2 R) ∧
      (∀ R : Nat → ℝ, ∑ k : Fin Be.cols, Ne.coef 0 k * (Balance.restrict 1 x.eeq R).getD k 0 = nonlocal x p.2 R) ∧
      (∀ (junk : Nat → Nat → ℝ) (U E : List ℝ), gradient junk disp eeq g (movedPart U E x) p.2 =
        (g.gradient (point (N := N) Bd Be Ne (Balance.restrict dim x.disp fun i => U.getD i 0)
          (Balance.restrict 1 x.eeq fun i => E.getD i 0) p.2)).bind fun r =>
            .ok (((OMap.set [] disp (List.ofFn r.1)).set eeq (List.ofFn r.2)))) ∧
      ∀ (junk : Nat → Nat → ℝ) (U E : List ℝ), hessian junk disp eeq g (movedPart U E x) p.2 =
        (g.hessian0 (point (N := N) Bd Be Ne (Balance.restrict dim x.disp fun i => U.getD i 0)
          (Balance.restrict 1 x.eeq fun i => E.getD i 0) p.2)).bind fun H =>
            .ok (setBlocks disp eeq (dense H.dd) (dense H.ed) (dense H.ee) (dense H.de)) := by
  obtain ⟨j1, j2, _⟩ := h.disp.point hp p hm
  obtain ⟨B, b1, b2, b3⟩ := strain_ok dim h.disp.dim1 h.disp.dim3 (gradients x.disp p.2) j1
  have hrows : (gradients x.disp p.2).rows = x.disp.nodes.length := h.disp.dof.count.symm
  rw [hrows] at b2 b3
  have hval : ∀ R : Nat → ℝ, ∀ i < B.rows, (strainAt dim x p.2 R).getD i 0 =
      ∑ k : Fin B.cols, B.coef i k * (Balance.restrict dim x.disp R).getD k 0 := by
    intro R i hi
    have := b3 (Balance.restrict dim x.disp R) (restrict_length _ _ _)
    rw [DMat.mulVec, Res.require, if_pos (by rw [b2, restrict_length])] at this
    rw [strainAt, ← Res.ok.inj this, List.getD_eq_getElem _ _ (by simpa using hi)]
    simp only [List.getElem_map, List.getElem_range]
    rw [sum_range_list, ← Fin.sum_univ_eq_sum_range (fun k => B.coef i k * (Balance.restrict dim x.disp R).getD k 0)]
  have hBr : B.rows = N := by
    have hu := b3 (Balance.restrict dim x.disp fun _ => 0) (restrict_length _ _ _)
    rw [DMat.mulVec, Res.require, if_pos (by rw [b2, restrict_length])] at hu
    have hl := congrArg List.length (Res.ok.inj hu)
    rw [hN, ← Balance.strains_length dim h.disp.dim1 h.disp.dim3 (gradients x.disp p.2)
      (Balance.restrict dim x.disp fun _ => 0), ← hl]
    simp
  have hs : x.eeq.interp.numNodes ≤ (x.eeq.interp.shape fun k => p.2.coords.getD k 0).length := (h.unity.shapeLen _).ge
  have hfold : ∀ junk : Nat → Nat → ℝ, ∃ Ne : DMat ℝ, (∀ E, (moved E x.eeq).nMatrix junk (fun k => p.2.coords.getD k 0) = .ok Ne) ∧
      Ne.rows = 1 ∧ Ne.cols = 1 * x.eeq.interp.numNodes ∧
      ∀ i < x.eeq.interp.numNodes, Ne.coef 0 i = (x.eeq.interp.shape fun k => p.2.coords.getD k 0).getD i 0 := by
    intro junk
    obtain ⟨Ne, h1, h2, h3, h4⟩ := nMatrix_fold junk (x.eeq.interp.shape fun k => p.2.coords.getD k 0) 1
      (1 * x.eeq.interp.numNodes) x.eeq.interp.numNodes hs
    refine ⟨Ne, fun E => ?_, h2, h3, fun i hi => ?_⟩
    · rw [FemElement.nMatrix, (moved_nodesOk E x.eeq h.nodes).dimension, Res.bind_ok']
      exact h1
    · have := h4 i hi 0 one_pos 0 one_pos
      simpa using this
  obtain ⟨Ne, _, _, _, hNe⟩ := hfold fun _ _ => 0
  have hsum : ∀ R : Nat → ℝ,
      ∑ k : Fin x.eeq.interp.numNodes, Ne.coef 0 k * (Balance.restrict 1 x.eeq R).getD k 0 = nonlocal x p.2 R := by
    intro R
    rw [nonlocal, ← Fin.sum_univ_eq_sum_range
      (fun i => (x.eeq.interp.shape fun k => p.2.coords.getD k 0).getD i 0 * R (number x.eeq i 0))]
    refine sum_congr rfl fun k _ => ?_
    rw [hNe k k.2, restrict_one h.nodes R k.2]
  have hul : ∀ R, (Balance.restrict dim x.disp R).length = B.cols := fun R => by rw [restrict_length, b2]
  have hel : ∀ R, (Balance.restrict 1 x.eeq R).length = x.eeq.interp.numNodes := fun R => by
    rw [restrict_length, one_mul, h.nodes.count]
  have hg : ∀ E, gMatrix (moved E x.eeq) p.2 = .ok (Nabla.gradient (gradients x.eeq p.2)) := by
    intro E
    rw [gMatrix, Res.require, if_pos (show (moved E x.eeq).interp.dim = p.2.jacobian.cols from h.dimension.trans j2.symm)]
    rfl
  have hbm : ∀ U, bMatrix (moved U x.disp) p.2 = .ok B := by
    intro U
    rw [bMatrix, Res.require, if_pos (show (moved U x.disp).interp.dim = p.2.jacobian.cols from h.disp.dofDim.trans j2.symm)]
    exact b1
  have hue : ∀ U, (moved U x.disp).extractNodeValues 0 = .ok (Balance.restrict dim x.disp fun i => U.getD i 0) := by
    intro U
    rw [(moved_nodesOk U x.disp h.disp.dof).read.1, moved_values U x.disp h.disp.dof]
  have hee : ∀ E, (moved E x.eeq).extractNodeValues 0 = .ok (Balance.restrict 1 x.eeq fun i => E.getD i 0) := by
    intro E
    rw [(moved_nodesOk E x.eeq h.nodes).read.1, moved_values E x.eeq h.nodes]
  refine ⟨B, Nabla.gradient (gradients x.eeq p.2), Ne, j1, b2, ?_, fun R => ?_, hsum, fun junk U E => ?_, fun junk U E => ?_⟩
  · rw [one_mul, h.nodes.count]; rfl
  · funext i
    rw [strainVec, hval R i (by rw [hBr]; exact i.2)]
  · obtain ⟨N', n1, h2, h3, n4⟩ := hfold junk
    have hpt : ∀ u e, point (N := N) B (Nabla.gradient (gradients x.eeq p.2)) N' u e p.2 =
        point B (Nabla.gradient (gradients x.eeq p.2)) Ne u e p.2 := by
      intro u e
      have : (fun (i : Fin 1) (j : Fin (Nabla.gradient (gradients x.eeq p.2)).cols) => N'.coef i j) =
          fun (i : Fin 1) (j : Fin (Nabla.gradient (gradients x.eeq p.2)).cols) => Ne.coef i j := by
        funext i j
        rw [Fin.fin_one_eq_zero i]
        exact (n4 j j.2).trans (hNe j j.2).symm
      unfold point
      rw [this]
    rw [gradient]
    simp only [movedPart]
    rw [hbm, Res.bind_ok', hg, Res.bind_ok', n1, Res.bind_ok', hue, Res.bind_ok', hee, Res.bind_ok', Res.require,
      if_pos ⟨hBr, (hul _).symm, (hel _).symm, h2, by rw [h3, hel, one_mul]⟩, hpt]
  · obtain ⟨N', n1, h2, h3, n4⟩ := hfold junk
    have hpt : ∀ u e, point (N := N) B (Nabla.gradient (gradients x.eeq p.2)) N' u e p.2 =
        point B (Nabla.gradient (gradients x.eeq p.2)) Ne u e p.2 := by
      intro u e
      have : (fun (i : Fin 1) (j : Fin (Nabla.gradient (gradients x.eeq p.2)).cols) => N'.coef i j) =
          fun (i : Fin 1) (j : Fin (Nabla.gradient (gradients x.eeq p.2)).cols) => Ne.coef i j := by
        funext i j
        rw [Fin.fin_one_eq_zero i]
        exact (n4 j j.2).trans (hNe j j.2).symm
      unfold point
      rw [this]
    rw [hessian]
    simp only [movedPart]
    rw [hbm, Res.bind_ok', hg, Res.bind_ok', n1, Res.bind_ok', hue, Res.bind_ok', hee, Res.bind_ok', Res.require,
      if_pos ⟨hBr, (hul _).symm, (hel _).symm, h2, by rw [h3, hel, one_mul]⟩, hpt]

/-- Selection of entries. -/
noncomputable def gather (n m : Nat) (f : Nat → Nat) : (Fin n → ℝ) →L[ℝ] (Fin m → ℝ) :=
  ContinuousLinearMap.pi fun k => if h : f k < n then ContinuousLinearMap.proj ⟨f k, h⟩ else 0

theorem gather_apply (n m : Nat) (f : Nat → Nat) (y : Fin n → ℝ) (k : Fin m) :
    gather n m f y k = (List.ofFn y).getD (f k) 0 := by
  rw [gather, ContinuousLinearMap.pi_apply]
  by_cases h : f k < n
  · rw [dif_pos h, List.getD_eq_getElem _ _ (by simpa using h)]
    simp
  · rw [dif_neg h, List.getD_eq_default _ _ (by simpa using h)]
    rfl

theorem restrict_gather (n : Nat) {d m : Nat} (e : FemElement ℝ) (hm : m = d * e.nodes.length) (y : Fin n → ℝ) :
    (fun k : Fin m => (Balance.restrict d e fun i => (List.ofFn y).getD i 0).getD k 0) =
      gather n m (fun k => number e (k / d) (k % d)) y := by
  subst hm
  funext k
  rw [gather_apply, Balance.restrict, List.getD_eq_getElem _ _ (by simp)]
  simp only [List.getElem_map, List.getElem_range]

theorem dense_sum {m n : Nat} (A : Matrix (Fin m) (Fin n) ℝ) (r s : Nat → ℝ) :
    ∑ k ∈ range m, ∑ l ∈ range n, r k * (dense A).coef k l * s l = ∑ k : Fin m, r k * grad (A k) fun l => s l := by
  rw [← Fin.sum_univ_eq_sum_range (fun k => ∑ l ∈ range n, r k * (dense A).coef k l * s l)]
  refine sum_congr rfl fun k _ => ?_
  rw [grad_apply, ← Fin.sum_univ_eq_sum_range (fun l => r k * (dense A).coef k l * s l), mul_sum]
  refine sum_congr rfl fun l _ => ?_
  have : (dense A).coef k l = A k l := by simp [dense]
  rw [this]
  ring

theorem hasFDerivAt_list {α X : Type} [NormedAddCommGroup X] [NormedSpace ℝ X] (l : List α) (f c : α → X → ℝ) (x : X)
    (h : ∀ a ∈ l, ∃ L : X →L[ℝ] ℝ, HasFDerivAt (f a) L x ∧ ∀ v, L v = c a v) :
    ∃ L : X →L[ℝ] ℝ, HasFDerivAt (fun y => (l.map fun a => f a y).sum) L x ∧ ∀ v, L v = (l.map fun a => c a v).sum := by
  induction l with
  | nil => exact ⟨0, by simpa using hasFDerivAt_const (0 : ℝ) x, fun v => by simp⟩
  | cons a l ih =>
    obtain ⟨L1, h1, h2⟩ := h a List.mem_cons_self
    obtain ⟨L2, h3, h4⟩ := ih fun b hb => h b (List.mem_cons_of_mem _ hb)
    refine ⟨L1 + L2, ?_, fun v => ?_⟩
    · simp only [List.map_cons, List.sum_cons]
      exact h1.add h3
    · rw [_root_.add_apply, h2, h4, List.map_cons, List.sum_cons]

/-- The conditions at an integration point: no switch of the unilateral law, away from the loading threshold, damage law,
interaction and strain norm with the derivatives they announce. -/
structure SmoothPoint (g : GradientDamage N) (old : ℝ) (strain : Fin N → ℝ) (e : ℝ) : Prop where
  elastic : g.elastic.Smooth strain
  threshold : e ≠ old
  law : old < e → HasDerivAt g.law.damage (g.law.derivative e) e
  norm : HasFDerivAt g.norm (grad (g.dNorm strain)) strain

/-- One integration point: both blocks of the residual and their derivatives. -/
theorem point_derivative (junk junk' : Nat → Nat → ℝ) {disp eeq : Nat} (hne : disp ≠ eeq) (g : GradientDamage N) {dim nd ne : Nat}
    {x : Part} (h : Fits dim nd ne x) (hN : N = voigtSize dim) (E nu : ℝ) (app : DamageApplication) (ps : PlaneState)
    (hl : g.elastic = LinearElasticDamage.make dim N E nu app ps)
    (hint : ∀ w, HasDerivAt g.interaction.factor (g.interaction.derivative w) w)
    {pts : List (ℝ × IpData)} (hp : x.cell.Points pts) (p : ℝ × IpData)
    (hm : p ∈ pts) (hr : g.history.InRange p.2.cellId p.2.ipId) (y0 : (Fin nd → ℝ) × (Fin ne → ℝ))
    (hsm : SmoothPoint g (g.history.val p.2.cellId.toNat p.2.ipId)
      (strainVec N dim x p.2 fun i => (List.ofFn y0.1).getD i 0) (nonlocal x p.2 fun i => (List.ofFn y0.2).getD i 0)) :
    ∃ (F : (Fin nd → ℝ) × (Fin ne → ℝ) → Nat → List ℝ) (M : Nat → Nat → DMat ℝ),
      (∀ y, gradient junk disp eeq g (movedPart (List.ofFn y.1) (List.ofFn y.2) x) p.2 =
        .ok ((OMap.set [] disp (F y disp)).set eeq (F y eeq))) ∧
      (∀ y, ∀ I ∈ [disp, eeq], (F y I).length = localSize disp dim x I) ∧
      hessian junk' disp eeq g (movedPart (List.ofFn y0.1) (List.ofFn y0.2) x) p.2 =
        .ok (setBlocks disp eeq (M disp disp) (M eeq disp) (M eeq eeq) (M disp eeq)) ∧
      (∀ I ∈ [disp, eeq], ∀ J ∈ [disp, eeq], (M I J).rows = localSize disp dim x I ∧ (M I J).cols = localSize disp dim x J) ∧
      ∀ I ∈ [disp, eeq], ∀ R : Nat → ℝ, ∃ L : (Fin nd → ℝ) × (Fin ne → ℝ) →L[ℝ] ℝ,
        HasFDerivAt (fun y => dot (F y I) (localValues disp dim x I R)) L y0 ∧
        ∀ v, L v = (∑ k ∈ range (localSize disp dim x I), ∑ l ∈ range (localSize disp dim x disp),
            (localValues disp dim x I R).getD k 0 * (M I disp).coef k l *
              (localValues disp dim x disp fun i => (List.ofFn v.1).getD i 0).getD l 0) +
          ∑ k ∈ range (localSize disp dim x I), ∑ l ∈ range (localSize disp dim x eeq),
            (localValues disp dim x I R).getD k 0 * (M I eeq).coef k l *
              (localValues disp dim x eeq fun i => (List.ofFn v.2).getD i 0).getD l 0 := by
  obtain ⟨Bd, Be, Ne, c0, c1, c2, c3, c4, c5, c6⟩ := point_read disp eeq g h hN hp p hm
  subst c0
  have hd1 : localSize disp Be.rows x disp = Bd.cols := by rw [localSize, if_pos rfl, c1]
  have hd2 : localSize disp Be.rows x eeq = Be.cols := by rw [localSize, if_neg (hne.symm), c2]
  obtain ⟨q, hq⟩ : ∃ q : GradientDamage.Ip N Be.rows Bd.cols Be.cols, q = point Bd Be Ne
    (Balance.restrict Be.rows x.disp fun i => (List.ofFn y0.1).getD i 0) (Balance.restrict 1 x.eeq fun i => (List.ofFn y0.2).getD i 0) p.2 :=
    ⟨_, rfl⟩
  set G1 := gather nd Bd.cols (fun k => number x.disp (k / Be.rows) (k % Be.rows)) with hG1
  set G2 := gather ne Be.cols (fun k => number x.eeq (k / 1) (k % 1)) with hG2
  have hv1 : ∀ y : Fin nd → ℝ, (fun k : Fin Bd.cols => (Balance.restrict Be.rows x.disp fun i => (List.ofFn y).getD i 0).getD k 0) = G1 y :=
    fun y => restrict_gather nd x.disp c1 y
  have hv2 : ∀ y : Fin ne → ℝ, (fun k : Fin Be.cols => (Balance.restrict 1 x.eeq fun i => (List.ofFn y).getD i 0).getD k 0) = G2 y :=
    fun y => restrict_gather ne x.eeq c2 y
  have hpoint : ∀ y : (Fin nd → ℝ) × (Fin ne → ℝ), point Bd Be Ne
      (Balance.restrict Be.rows x.disp fun i => (List.ofFn y.1).getD i 0)
      (Balance.restrict 1 x.eeq fun i => (List.ofFn y.2).getD i 0) p.2 = q.withValues (G1 y.1, G2 y.2) := by
    intro y
    rw [hq, point, point, GradientDamage.Ip.withValues, ← hv1, ← hv2]
  have hqs : q.disp.B *ᵥ q.disp.values = strainVec N Be.rows x p.2 fun i => (List.ofFn y0.1).getD i 0 := by
    rw [← c3, hq]
    rfl
  have hqe : (q.eeq.N *ᵥ q.eeq.values) 0 = nonlocal x p.2 fun i => (List.ofFn y0.2).getD i 0 := by
    rw [← c4, hq]
    rfl
  have hqi : q.cellId = p.2.cellId ∧ q.ipId = p.2.ipId := by rw [hq]; exact ⟨rfl, rfl⟩
  obtain ⟨Rr, H, k1, k2, k3, k4⟩ := GradientDamage.C64_gradient_damage E nu app ps g hl q (by rw [hqi.1, hqi.2]; exact hr)
    (g.history.val p.2.cellId.toNat p.2.ipId) (by rw [hqi.1, hqi.2, Int.toNat_natCast]) (by rw [hqs]; exact hsm.elastic)
    (by rw [hqe]; exact hsm.threshold) (by rw [hqe]; exact hsm.law) hint (by rw [hqs]; exact hsm.norm)
  have hqv : (q.disp.values, q.eeq.values) = (G1 y0.1, G2 y0.2) := by
    rw [← hv1, ← hv2, hq]
    rfl
  rw [hqv] at k3 k4
  set L0 := (G1.comp (ContinuousLinearMap.fst ℝ (Fin nd → ℝ) (Fin ne → ℝ))).prod
    (G2.comp (ContinuousLinearMap.snd ℝ (Fin nd → ℝ) (Fin ne → ℝ))) with hL0
  have hL0v : ∀ v, L0 v = (G1 v.1, G2 v.2) := fun v => rfl
  refine ⟨fun y I => if I = disp then List.ofFn (Rr (L0 y)).1 else List.ofFn (Rr (L0 y)).2,
    fun I J => if I = disp then (if J = disp then dense H.dd else dense H.de) else (if J = disp then dense H.ed else dense H.ee),
    fun y => ?_, fun y I hI => ?_, ?_, fun I hI J hJ => ?_, fun I hI R => ?_⟩
  · beta_reduce
    rw [c5, hpoint, k1, Res.bind_ok', if_pos rfl, if_neg (hne.symm)]
    rfl
  · rw [localSize]
    beta_reduce
    by_cases hd : I = disp
    · rw [if_pos hd, if_pos hd, List.length_ofFn, c1]
    · rw [if_neg hd, if_neg hd, List.length_ofFn, c2]
  · rw [c6, ← hq, k2, Res.bind_ok']
    simp only [if_pos, if_neg (hne.symm)]
  · rw [localSize, localSize]
    by_cases hd : I = disp <;> by_cases hd' : J = disp <;> simp only [hd, hd', if_true, if_false, dense] <;>
      simp only [c1, c2, and_self]
  · have hcomp1 : ∀ a, HasFDerivAt (fun y => (Rr (L0 y)).1 a)
        (((grad (H.dd a)).comp (.fst ℝ _ _) + (grad (H.de a)).comp (.snd ℝ _ _)).comp L0) y0 := fun a =>
      HasFDerivAt.comp (g := fun y => (Rr y).1 a) y0 (k3 a) L0.hasFDerivAt
    have hcomp2 : ∀ b, HasFDerivAt (fun y => (Rr (L0 y)).2 b)
        (((grad (H.ed b)).comp (.fst ℝ _ _) + (grad (H.ee b)).comp (.snd ℝ _ _)).comp L0) y0 := fun b =>
      HasFDerivAt.comp (g := fun y => (Rr y).2 b) y0 (k4 b) L0.hasFDerivAt
    have hw1 : ∀ v : (Fin nd → ℝ) × (Fin ne → ℝ), (fun l : Fin Bd.cols => (localValues disp Be.rows x disp fun i => (List.ofFn v.1).getD i 0).getD l 0) =
        G1 v.1 := fun v => by
      rw [← hv1, localValues, if_pos rfl]
    have hw2 : ∀ v : (Fin nd → ℝ) × (Fin ne → ℝ), (fun l : Fin Be.cols => (localValues disp Be.rows x eeq fun i => (List.ofFn v.2).getD i 0).getD l 0) =
        G2 v.2 := fun v => by
      rw [← hv2, localValues, if_neg (hne.symm)]
    by_cases hd : I = disp
    · subst hd
      refine ⟨∑ a : Fin Bd.cols, (localValues I Be.rows x I R).getD a 0 • (((grad (H.dd a)).comp (.fst ℝ _ _) + (grad (H.de a)).comp (.snd ℝ _ _)).comp L0), ?_, fun v => ?_⟩
      · simp only [if_true, ofFn_dot]
        refine HasFDerivAt.fun_sum fun a _ => ?_
        exact (hcomp1 a).mul_const _
      · rw [hd1, hd2]
        simp only [if_true, if_neg (hne.symm)]
        rw [dense_sum H.dd, dense_sum H.de, hw1, hw2, ← sum_add_distrib, _root_.sum_apply]
        refine sum_congr rfl fun a _ => ?_
        rw [_root_.smul_apply, ContinuousLinearMap.comp_apply, _root_.add_apply, ContinuousLinearMap.comp_apply,
          ContinuousLinearMap.comp_apply, hL0v, smul_eq_mul, mul_add]
        rfl
    · have he : I = eeq := by
        simp only [List.mem_cons, List.not_mem_nil, or_false] at hI
        exact hI.resolve_left hd
      subst he
      refine ⟨∑ a : Fin Be.cols, (localValues disp Be.rows x I R).getD a 0 • (((grad (H.ed a)).comp (.fst ℝ _ _) + (grad (H.ee a)).comp (.snd ℝ _ _)).comp L0), ?_, fun v => ?_⟩
      · simp only [if_neg hd, ofFn_dot]
        refine HasFDerivAt.fun_sum fun a _ => ?_
        exact (hcomp2 a).mul_const _
      · rw [hd1, hd2]
        simp only [if_neg hd, if_true]
        rw [dense_sum H.ed, dense_sum H.ee, hw1, hw2, ← sum_add_distrib, _root_.sum_apply]
        refine sum_congr rfl fun a _ => ?_
        rw [_root_.smul_apply, ContinuousLinearMap.comp_apply, _root_.add_apply, ContinuousLinearMap.comp_apply,
          ContinuousLinearMap.comp_apply, hL0v, smul_eq_mul, mul_add]
        rfl

/-! ### Derivative of the residual -/

theorem pickRow2 (n m i : Nat) (hi : i < n) (f : Nat → Nat → ℝ) (S : Nat → ℝ) :
    ∑ a ∈ range n, ∑ b ∈ range m, (if a = i then 1 else 0) * f a b * S b = ∑ b ∈ range m, f i b * S b := by
  rw [sum_eq_single i]
  · simp
  · intro a _ ha
    simp [ha]
  · intro h
    exact absurd (mem_range.2 hi) h

/-- `Hessian0` of the state `y0` has four blocks with the sizes of the dof types, and they are the derivatives of the two blocks
of the residual with respect to all displacements and nonlocal strains, with the history held fixed. -/
def ExactTangent (s : DofSizes) (junk junk' : Nat → Nat → ℝ) (disp eeq : Nat) (g : GradientDamage N)
    (threads threads' : List (List Part)) {nd ne : Nat} (y0 : (Fin nd → ℝ) × (Fin ne → ℝ)) : Prop :=
  ∃ (h : DofSpMat ℝ) (dd de ed ee : SpMat ℝ) (v : (Fin nd → ℝ) × (Fin ne → ℝ) → DofVec ℝ)
      (a b : (Fin nd → ℝ) × (Fin ne → ℝ) → List ℝ),
      tangent s junk' disp eeq g threads' (List.ofFn y0.1) (List.ofFn y0.2) = .ok h ∧
      (h.find? (toLex (disp, disp)) = some dd ∧ dd.rows = nd ∧ dd.cols = nd) ∧
      (h.find? (toLex (disp, eeq)) = some de ∧ de.rows = nd ∧ de.cols = ne) ∧
      (h.find? (toLex (eeq, disp)) = some ed ∧ ed.rows = ne ∧ ed.cols = nd) ∧
      (h.find? (toLex (eeq, eeq)) = some ee ∧ ee.rows = ne ∧ ee.cols = ne) ∧
      (∀ y, residual s junk disp eeq g threads (List.ofFn y.1) (List.ofFn y.2) = .ok (v y) ∧ (v y).find? disp = some (a y) ∧
        (v y).find? eeq = some (b y) ∧ (a y).length = nd ∧ (b y).length = ne) ∧
      (∀ i < nd, HasFDerivAt (fun y => (a y).getD i 0)
        ((grad fun j : Fin nd => dd.entry i j).comp (.fst ℝ _ _) + (grad fun j : Fin ne => de.entry i j).comp (.snd ℝ _ _)) y0) ∧
      ∀ i < ne, HasFDerivAt (fun y => (b y).getD i 0)
        ((grad fun j : Fin nd => ed.entry i j).comp (.fst ℝ _ _) + (grad fun j : Fin ne => ee.entry i j).comp (.snd ℝ _ _)) y0

/-- C110: wherever the material is differentiable at all integration points, the assembled `Hessian0` is the derivative of
the assembled residual, for all schedules of the threads of both assemblies. -/
theorem C110_tangent (s : DofSizes) (junk junk' : Nat → Nat → ℝ) {disp eeq : Nat} (hne : disp ≠ eeq) (g : GradientDamage N)
    {dim nd ne : Nat} (hN : N = voigtSize dim) (E nu : ℝ) (app : DamageApplication) (ps : PlaneState)
    (hl : g.elastic = LinearElasticDamage.make dim N E nu app ps)
    (hint : ∀ w, HasDerivAt g.interaction.factor (g.interaction.derivative w) w)
    (cells : List Part) (threads threads' : List (List Part))
    (hp : threads.flatten.Perm cells) (hp' : threads'.flatten.Perm cells)
    (hsd : s.size disp = .ok nd) (hse : s.size eeq = .ok ne)
    (hb : ∀ x ∈ cells, Fits dim nd ne x) (pts : Part → List (ℝ × IpData)) (hpts : ∀ x ∈ cells, x.cell.Points (pts x))
    (hr : ∀ x ∈ cells, ∀ p ∈ pts x, g.history.InRange p.2.cellId p.2.ipId) (y0 : (Fin nd → ℝ) × (Fin ne → ℝ))
    (hsm : ∀ x ∈ cells, ∀ p ∈ pts x, SmoothPoint g (g.history.val p.2.cellId.toNat p.2.ipId)
      (strainVec N dim x p.2 fun i => (List.ofFn y0.1).getD i 0) (nonlocal x p.2 fun i => (List.ofFn y0.2).getD i 0)) :
    ExactTangent s junk junk' disp eeq g threads threads' y0 := by
  have hex : ∀ (x : Part) (d : IpData), ∃ FM : ((Fin nd → ℝ) × (Fin ne → ℝ) → Nat → List ℝ) × (Nat → Nat → DMat ℝ),
      (x ∈ cells ∧ ∃ p ∈ pts x, p.2 = d) →
      (∀ y, gradient junk disp eeq g (movedPart (List.ofFn y.1) (List.ofFn y.2) x) d =
        .ok ((OMap.set [] disp (FM.1 y disp)).set eeq (FM.1 y eeq))) ∧
      (∀ y, ∀ I ∈ [disp, eeq], (FM.1 y I).length = localSize disp dim x I) ∧
      hessian junk' disp eeq g (movedPart (List.ofFn y0.1) (List.ofFn y0.2) x) d =
        .ok (setBlocks disp eeq (FM.2 disp disp) (FM.2 eeq disp) (FM.2 eeq eeq) (FM.2 disp eeq)) ∧
      (∀ I ∈ [disp, eeq], ∀ J ∈ [disp, eeq], (FM.2 I J).rows = localSize disp dim x I ∧ (FM.2 I J).cols = localSize disp dim x J) ∧
      ∀ I ∈ [disp, eeq], ∀ R : Nat → ℝ, ∃ L : (Fin nd → ℝ) × (Fin ne → ℝ) →L[ℝ] ℝ,
        HasFDerivAt (fun y => dot (FM.1 y I) (localValues disp dim x I R)) L y0 ∧
        ∀ v, L v = (∑ k ∈ range (localSize disp dim x I), ∑ l ∈ range (localSize disp dim x disp),
            (localValues disp dim x I R).getD k 0 * (FM.2 I disp).coef k l *
              (localValues disp dim x disp fun i => (List.ofFn v.1).getD i 0).getD l 0) +
          ∑ k ∈ range (localSize disp dim x I), ∑ l ∈ range (localSize disp dim x eeq),
            (localValues disp dim x I R).getD k 0 * (FM.2 I eeq).coef k l *
              (localValues disp dim x eeq fun i => (List.ofFn v.2).getD i 0).getD l 0 := by
    intro x d
    by_cases hx : x ∈ cells ∧ ∃ p ∈ pts x, p.2 = d
    · obtain ⟨hx, p, hm, rfl⟩ := hx
      obtain ⟨F, M, h⟩ := point_derivative junk junk' hne g (hb x hx) hN E nu app ps hl hint (hpts x hx) p hm (hr x hx p hm) y0
        (hsm x hx p hm)
      exact ⟨(F, M), fun _ => h⟩
    · exact ⟨(fun _ _ => [], fun _ _ => ⟨0, 0, fun _ _ => 0⟩), fun h => absurd h hx⟩
  choose FM hFM using hex
  have hsz : ∀ (y : (Fin nd → ℝ) × (Fin ne → ℝ)) (x : Part) (I : Nat),
      localSize disp dim (movedPart (List.ofFn y.1) (List.ofFn y.2) x) I = localSize disp dim x I := by
    intro y x I
    simp [localSize, movedPart, moved]
  have hrd : ∀ (y : (Fin nd → ℝ) × (Fin ne → ℝ)) (x : Part) (R : Nat → ℝ),
      Balance.restrict dim (movedPart (List.ofFn y.1) (List.ofFn y.2) x).disp R = Balance.restrict dim x.disp R := by
    intro y x R
    exact moved_restrict _ _ _
  have hre : ∀ (y : (Fin nd → ℝ) × (Fin ne → ℝ)) (x : Part) (R : Nat → ℝ),
      Balance.restrict 1 (movedPart (List.ofFn y.1) (List.ofFn y.2) x).eeq R = Balance.restrict 1 x.eeq R := by
    intro y x R
    exact moved_restrict _ _ _
  have hlv : ∀ (y : (Fin nd → ℝ) × (Fin ne → ℝ)) (x : Part) (I : Nat) (R : Nat → ℝ),
      localValues disp dim (movedPart (List.ofFn y.1) (List.ofFn y.2) x) I R = localValues disp dim x I R := by
    intro y x I R
    rw [localValues, localValues, hrd, hre]
  have hres : ∀ y : (Fin nd → ℝ) × (Fin ne → ℝ), ∃ v a b,
      residual s junk disp eeq g threads (List.ofFn y.1) (List.ofFn y.2) = .ok v ∧ v.find? disp = some a ∧
      v.find? eeq = some b ∧ a.length = nd ∧ b.length = ne ∧
      (∀ R : Nat → ℝ, ∑ i ∈ range nd, a.getD i 0 * R i = (cells.map fun x => ((pts x).map fun p =>
        dot ((FM x p.2).1 y disp) (localValues disp dim x disp R) * p.2.jacobian.det * p.1).sum).sum) ∧
      ∀ R : Nat → ℝ, ∑ i ∈ range ne, b.getD i 0 * R i = (cells.map fun x => ((pts x).map fun p =>
        dot ((FM x p.2).1 y eeq) (localValues disp dim x eeq R) * p.2.jacobian.det * p.1).sum).sum := by
    intro y
    obtain ⟨v, a, b, h1, h2, h3, h4, h5, h6, h7⟩ := assembled s hne dim nd ne cells (movedPart (List.ofFn y.1) (List.ofFn y.2))
      threads hp hsd hse (gradient junk disp eeq g) (fun x d => (FM x d).1 y disp) (fun x d => (FM x d).1 y eeq) pts
      (fun x hx => moved_fits (hb x hx) _ _) hpts (fun x hx p hp' => by
        obtain ⟨k1, k2, _⟩ := hFM x p.2 ⟨hx, p, hp', rfl⟩
        refine ⟨k1 y, ?_, ?_⟩
        · have := k2 y disp (by simp)
          rw [localSize, if_pos rfl] at this
          rw [this]; simp [movedPart, moved_nodes]
        · have := k2 y eeq (by simp)
          rw [localSize, if_neg hne.symm] at this
          rw [this]; simp [movedPart, moved_nodes])
    refine ⟨v, a, b, h1, h2, h3, h4, h5, fun R => ?_, fun R => ?_⟩
    · rw [h6 R]
      simp only [hrd]
      rw [show localValues disp dim = fun x I R => if I = disp then Balance.restrict dim x.disp R else Balance.restrict 1 x.eeq R from rfl]
      simp only [if_true]
    · rw [h7 R]
      simp only [hre]
      rw [show localValues disp dim = fun x I R => if I = disp then Balance.restrict dim x.disp R else Balance.restrict 1 x.eeq R from rfl]
      simp only [if_neg hne.symm]
  choose v a b q1 q2 q3 q4 q5 q6 q7 using hres
  obtain ⟨h, h1, h2⟩ := assembled4 s hne dim nd ne cells (movedPart (List.ofFn y0.1) (List.ofFn y0.2)) threads' hp' hsd hse
    (hessian junk' disp eeq g) (fun x d => (FM x d).2) pts (fun x hx => moved_fits (hb x hx) _ _) hpts (fun x hx p hp' => by
      obtain ⟨_, _, k3, k4, _⟩ := hFM x p.2 ⟨hx, p, hp', rfl⟩
      simp only [hsz]
      exact ⟨k3, k4⟩)
  have hD : ∀ I ∈ [disp, eeq], ∀ R : Nat → ℝ, ∃ L : (Fin nd → ℝ) × (Fin ne → ℝ) →L[ℝ] ℝ,
      HasFDerivAt (fun y => (cells.map fun x => ((pts x).map fun p =>
        dot ((FM x p.2).1 y I) (localValues disp dim x I R) * p.2.jacobian.det * p.1).sum).sum) L y0 ∧
      ∀ v, L v = (cells.map fun x => ((pts x).map fun p => (∑ k ∈ range (localSize disp dim x I),
            ∑ l ∈ range (localSize disp dim x disp), (localValues disp dim x I R).getD k 0 * ((FM x p.2).2 I disp).coef k l *
              (localValues disp dim x disp fun i => (List.ofFn v.1).getD i 0).getD l 0) * p.2.jacobian.det * p.1).sum).sum +
        (cells.map fun x => ((pts x).map fun p => (∑ k ∈ range (localSize disp dim x I),
            ∑ l ∈ range (localSize disp dim x eeq), (localValues disp dim x I R).getD k 0 * ((FM x p.2).2 I eeq).coef k l *
              (localValues disp dim x eeq fun i => (List.ofFn v.2).getD i 0).getD l 0) * p.2.jacobian.det * p.1).sum).sum := by
    intro I hI R
    simp only [← List.sum_map_add]
    refine hasFDerivAt_list cells _ _ y0 fun x hx => ?_
    refine hasFDerivAt_list (pts x) _ _ y0 fun p hm => ?_
    obtain ⟨L, l1, l2⟩ := (hFM x p.2 ⟨hx, p, hm, rfl⟩).2.2.2.2 I hI R
    refine ⟨p.1 • p.2.jacobian.det • L, (l1.mul_const _).mul_const _, fun v => ?_⟩
    rw [_root_.smul_apply, _root_.smul_apply, l2, smul_eq_mul, smul_eq_mul]
    ring
  have hpick : ∀ (n i : Nat) (c : List ℝ), i < n → ∑ j ∈ range n, c.getD j 0 * (if j = i then 1 else 0) = c.getD i 0 := by
    intro n i c hi
    rw [sum_eq_single i]
    · simp
    · intro j _ hj
      simp [hj]
    · intro h
      exact absurd (mem_range.2 hi) h
  have hgr : ∀ (n : Nat) (f : Nat → ℝ) (w : Fin n → ℝ), grad (fun j : Fin n => f j) w =
      ∑ j ∈ range n, f j * (List.ofFn w).getD j 0 := by
    intro n f w
    rw [grad_apply, ← Fin.sum_univ_eq_sum_range (fun j => f j * (List.ofFn w).getD j 0)]
    refine sum_congr rfl fun j _ => ?_
    rw [List.getD_eq_getElem _ _ (by simp)]
    simp
  have md : disp ∈ [disp, eeq] := by simp
  have me : eeq ∈ [disp, eeq] := by simp
  obtain ⟨dd, dd1, dd2, dd3, dd4⟩ := h2 disp md disp md
  obtain ⟨de, de1, de2, de3, de4⟩ := h2 disp md eeq me
  obtain ⟨ed, ed1, ed2, ed3, ed4⟩ := h2 eeq me disp md
  obtain ⟨ee, ee1, ee2, ee3, ee4⟩ := h2 eeq me eeq me
  simp only [if_true, if_neg hne.symm] at dd2 dd3 dd4 de2 de3 de4 ed2 ed3 ed4 ee2 ee3 ee4
  simp only [hsz, hlv] at dd4 de4 ed4 ee4
  refine ⟨h, dd, de, ed, ee, v, a, b, h1, ⟨dd1, dd2, dd3⟩, ⟨de1, de2, de3⟩, ⟨ed1, ed2, ed3⟩, ⟨ee1, ee2, ee3⟩,
    fun y => ⟨q1 y, q2 y, q3 y, q4 y, q5 y⟩, fun i hi => ?_, fun i hi => ?_⟩
  · obtain ⟨L, l1, l2⟩ := hD disp md fun j => if j = i then 1 else 0
    have hf : (fun y => (a y).getD i 0) = fun y => (cells.map fun x => ((pts x).map fun p =>
        dot ((FM x p.2).1 y disp) (localValues disp dim x disp fun j => if j = i then 1 else 0) * p.2.jacobian.det * p.1).sum).sum := by
      funext y
      rw [← q6 y, hpick nd i (a y) hi]
    rw [hf]
    refine l1.congr_fderiv (ContinuousLinearMap.ext fun w => ?_)
    rw [l2, ← dd4, ← de4, pickRow2 nd nd i hi, pickRow2 nd ne i hi, _root_.add_apply, ContinuousLinearMap.comp_apply,
      ContinuousLinearMap.comp_apply]
    exact congrArg₂ (· + ·) (hgr nd (fun j => dd.entry i j) w.1).symm (hgr ne (fun j => de.entry i j) w.2).symm
  · obtain ⟨L, l1, l2⟩ := hD eeq me fun j => if j = i then 1 else 0
    have hf : (fun y => (b y).getD i 0) = fun y => (cells.map fun x => ((pts x).map fun p =>
        dot ((FM x p.2).1 y eeq) (localValues disp dim x eeq fun j => if j = i then 1 else 0) * p.2.jacobian.det * p.1).sum).sum := by
      funext y
      rw [← q7 y, hpick ne i (b y) hi]
    rw [hf]
    refine l1.congr_fderiv (ContinuousLinearMap.ext fun w => ?_)
    rw [l2, ← ed4, ← ee4, pickRow2 ne nd i hi, pickRow2 ne ne i hi, _root_.add_apply, ContinuousLinearMap.comp_apply,
      ContinuousLinearMap.comp_apply]
    exact congrArg₂ (· + ·) (hgr nd (fun j => ed.entry i j) w.1).symm (hgr ne (fun j => ee.entry i j) w.2).symm

/-! ### Materials -/

/-- The exponential law has the derivative it announces except at the elastic limit. -/
theorem exponential_deriv (k0 beta alpha : ℝ) (hk0 : 0 < k0) (hb : 0 ≤ beta) (ha0 : 0 ≤ alpha) (ha1 : alpha ≤ 1) {k : ℝ}
    (hk : k ≠ k0) : HasDerivAt (DamageLaw.exponential k0 beta alpha).damage ((DamageLaw.exponential k0 beta alpha).derivative k) k := by
  have hgood := C37_exponential k0 beta alpha hk0 hb ha0 ha1
  refine hgood.deriv _ ?_
  rcases lt_or_gt_of_ne hk with hlt | hgt
  · have hev : (DamageLaw.exponential k0 beta alpha).damage =ᶠ[nhds k] fun _ => 0 := by
      filter_upwards [Iio_mem_nhds hlt] with x hx
      exact hgood.elastic x (le_of_lt hx)
    exact (differentiableAt_const _).congr_of_eventuallyEq hev
  · have hev : (DamageLaw.exponential k0 beta alpha).damage =ᶠ[nhds k] fun x => 1 - k0 / x *
        (1 - alpha + alpha * Real.exp (beta * (k0 - x))) := by
      filter_upwards [Ioi_mem_nhds hgt] with x hx
      simp only [DamageLaw.exponential]
      rw [if_neg (not_lt.2 (le_of_lt hx))]
    have hk' : k ≠ 0 := (hk0.trans hgt).ne'
    refine DifferentiableAt.congr_of_eventuallyEq ?_ hev
    fun_prop (disch := assumption)

/-- C110 for meshes of solids with the modified von Mises norm, exponential softening and one of the two interactions: the
tangent is exact at all states with a deviatoric strain, with a change of volume if the damage is unilateral, whose nonlocal
strain is neither at the threshold of the history nor at the elastic limit, at all integration points. -/
theorem C110_softening3D (s : DofSizes) (junk junk' : Nat → Nat → ℝ) {disp eeq : Nat} (hne : disp ≠ eeq)
    (m : Softening ℝ) (hE : 0 < m.E) (hft : 0 < m.ft) (hgf : 0 < m.gf)
    (hmin0 : 0 < m.fMin) (hmin1 : m.fMin ≤ m.ft) (hadm : MisesNorm.Admissible m.nu (m.fc / m.ft)) (hist : History)
    (app : DamageApplication) (R eta : ℝ) (inter : Interaction)
    (hinter : inter = .constant ∨ inter = .decreasing R eta) (g : GradientDamage 6)
    (hg : g = { GradientDamage.make m.c (LinearElasticDamage.ofSoftening 3 6 m app) (DamageLaw.exponentialOf m)
      (MisesNorm.ofSoftening m).value3 (MisesNorm.ofSoftening m).derivative3 inter with history := hist })
    {nd ne : Nat} (cells : List Part) (threads threads' : List (List Part))
    (hp : threads.flatten.Perm cells) (hp' : threads'.flatten.Perm cells)
    (hsd : s.size disp = .ok nd) (hse : s.size eeq = .ok ne)
    (hb : ∀ x ∈ cells, Fits 3 nd ne x) (pts : Part → List (ℝ × IpData)) (hpts : ∀ x ∈ cells, x.cell.Points (pts x))
    (hr : ∀ x ∈ cells, ∀ p ∈ pts x, hist.InRange p.2.cellId p.2.ipId) (y0 : (Fin nd → ℝ) × (Fin ne → ℝ))
    (eps : Part → IpData → Fin 6 → ℝ) (heps : ∀ x d, eps x d = strainVec 6 3 x d fun i => (List.ofFn y0.1).getD i 0)
    (hv : ∀ x ∈ cells, ∀ p ∈ pts x, app = .unilateral → eps x p.2 0 + eps x p.2 1 + eps x p.2 2 ≠ 0)
    (hJ : ∀ x ∈ cells, ∀ p ∈ pts x, StrainInvariants.J2 (eps x p.2) ≠ 0)
    (hthr : ∀ x ∈ cells, ∀ p ∈ pts x, nonlocal x p.2 (fun i => (List.ofFn y0.2).getD i 0) ≠ hist.val p.2.cellId.toNat p.2.ipId)
    (hk0 : ∀ x ∈ cells, ∀ p ∈ pts x, nonlocal x p.2 (fun i => (List.ofFn y0.2).getD i 0) ≠ m.ft / m.E) :
    ExactTangent s junk junk' disp eeq g threads threads' y0 := by
  have hgh : g.history = hist := by rw [hg]
  refine C110_tangent s junk junk' hne g rfl m.E m.nu app m.planeState (by rw [hg]; rfl) (fun w => ?_) cells threads threads' hp hp'
    hsd hse hb pts hpts (by rw [hgh]; exact hr) y0 (fun x hx p hm => ?_)
  · have : g.interaction = inter := by rw [hg]; rfl
    rw [this]
    rcases hinter with rfl | rfl
    · exact (C64_interaction R eta w).1
    · exact (C64_interaction R eta w).2
  · rw [← heps, hgh]
    refine ⟨?_, hthr x hx p hm, fun _ => ?_, ?_⟩
    · rw [hg]
      intro ha h0
      refine hv x hx p hm ha ?_
      have hv' : (LinearElasticDamage.ofSoftening 3 6 m app).volumetric (eps x p.2) =
          1 / 3 * (eps x p.2 0 + eps x p.2 1 + eps x p.2 2) := by
        simp [LinearElasticDamage.volumetric, LinearElasticDamage.ofSoftening, LinearElasticDamage.make, Fin.sum_univ_six]
      have h0' : (LinearElasticDamage.ofSoftening 3 6 m app).volumetric (eps x p.2) = 0 := h0
      rw [hv'] at h0'
      linarith
    · have : g.law = DamageLaw.exponentialOf m := by rw [hg]; rfl
      rw [this]
      have h2 : m.fMin / m.ft ≤ 1 := (div_le_one hft).2 hmin1
      have h3 : 0 < m.fMin / m.ft := by positivity
      exact exponential_deriv _ _ _ (by positivity) (by positivity) (by linarith) (by linarith) (hk0 x hx p hm)
    · have hA : (MisesNorm.ofSoftening m).A (eps x p.2) ≠ 0 := fun h0 =>
        hJ x hx p hm ((C38_singular hadm .planeStrain _).1 h0).1
      have := C38_derivative3 (MisesNorm.ofSoftening m) _ hA
      rw [hg]
      exact this

/-! ### Example: two trusses in tension -/

/-- Two trusses with the strains 1/2 and 1 and uniform nonlocal strains of twice the elastic limit meet all hypotheses of
`C110_tangent`. -/
example (g : GradientDamage 1) (hg : g = { GradientDamage.make (1 / 3) (LinearElasticDamage.make 1 1 1 0 .full .planeStress)
    (DamageLaw.exponential (1 / 2) 1 1) (fun e => |e 0|) (fun e _ => SignType.sign (e 0)) .constant with history := History.resize 2 3 })
    (junk junk' : Nat → Nat → ℝ) :
    ExactTangent ⟨[(0, 3), (1, 3)], [(0, 0), (1, 0)]⟩ junk junk' 0 1 g [bars] [[bar 1], [bar 0]] (nd := 3) (ne := 3)
      (![0, 1, 3], ![1, 1, 1]) := by
  have hh : g.history = History.resize 2 3 := by rw [hg]
  have S := bars_setting g hh
  have hnn : ∀ x ∈ bars, ∀ p ∈ barsPoints x, nonlocal x p.2 (fun i => (List.ofFn (![1, 1, 1] : Fin 3 → ℝ)).getD i 0) = 1 := by
    intro x hx p hp
    simp only [bars, List.mem_cons, List.not_mem_nil, or_false] at hx
    rcases hx with rfl | rfl <;>
    · simp only [barsPoints, barPoints, bar, Int.toNat_natCast, List.mem_cons, List.not_mem_nil, or_false] at hp
      rcases hp with rfl | rfl | rfl <;> refine (bar_nonlocal _ _ _ _).trans ?_ <;> norm_num
  have hss : ∀ x ∈ bars, ∀ p ∈ barsPoints x, 0 < strainVec 1 1 x p.2 (fun i => (List.ofFn (![0, 1, 3] : Fin 3 → ℝ)).getD i 0) 0 := by
    intro x hx p hp
    simp only [bars, List.mem_cons, List.not_mem_nil, or_false] at hx
    rcases hx with rfl | rfl
    · rw [bar_strain 0 p hp]; norm_num
    · rw [bar_strain 1 p hp]; norm_num
  refine C110_tangent _ junk junk' S.types g S.size 1 0 .full .planeStress (by rw [hg]; rfl) (fun w => ?_) bars _ _ (by simp)
    (by simpa [bars] using List.Perm.swap _ _ _) S.sizeDisp S.sizeEeq S.fits barsPoints S.points (fun x hx p hp => ?_) _ (fun x hx p hp => ?_)
  · have : g.interaction = .constant := by rw [hg]; rfl
    rw [this]
    exact (C64_interaction 0 0 w).1
  · have := S.history x hx p hp
    rw [History.get] at this
    by_contra h
    rw [if_neg (by exact h)] at this
    cases this
  · refine ⟨?_, ?_, fun _ => ?_, ?_⟩
    · rw [hg]
      intro ha
      cases ha
    · rw [hnn x hx p hp, hh]
      simp [History.resize]
    · rw [hnn x hx p hp, hg]
      exact exponential_deriv _ _ _ (by norm_num) (by norm_num) (by norm_num) (by norm_num) (by norm_num)
    · have h0 := hss x hx p hp
      generalize strainVec 1 1 x p.2 (fun i => (List.ofFn (![0, 1, 3] : Fin 3 → ℝ)).getD i 0) = e at h0
      have hpr : HasFDerivAt (fun e : Fin 1 → ℝ => e 0) (ContinuousLinearMap.proj 0 : (Fin 1 → ℝ) →L[ℝ] ℝ) e := hasFDerivAt_apply 0 e
      have := (hasDerivAt_abs h0.ne').comp_hasFDerivAt e hpr
      rw [hg]
      refine HasFDerivAt.congr_fderiv this (ContinuousLinearMap.ext fun v => ?_)
      rw [grad_apply]
      simp [GradientDamage.make]

/-! ### Example: a solid element -/

/-- The unit tetrahedron with one integration point. -/
noncomputable def tet : Part where
  cell := ⟨0, ⟨[Node.ofVector [0, 0, 0], Node.ofVector [1, 0, 0], Node.ofVector [0, 1, 0], Node.ofVector [0, 0, 1]],
    Interpolation.tetrahedronLinear⟩, [(1 / 6, [1 / 4, 1 / 4, 1 / 4])]⟩
  disp := ⟨[⟨[[0, 0, 0]], [0, 1, 2]⟩, ⟨[[0, 0, 0]], [3, 4, 5]⟩, ⟨[[0, 0, 0]], [6, 7, 8]⟩, ⟨[[0, 0, 0]], [9, 10, 11]⟩],
    Interpolation.tetrahedronLinear⟩
  eeq := ⟨[⟨[[0]], [0]⟩, ⟨[[0]], [1]⟩, ⟨[[0]], [2]⟩, ⟨[[0]], [3]⟩], Interpolation.tetrahedronLinear⟩

theorem tet_fits : Fits 3 12 4 tet where
  disp := {
    dim1 := by norm_num
    dim3 := by norm_num
    dof := ⟨by simp [tet], rfl, by simp [tet, Node.WF]⟩
    coord := ⟨by simp [tet], rfl, by simp [tet, Node.ofVector, Node.WF]⟩
    dofDim := rfl
    coordDim := rfl
    dofUnity := C77_types _ (by simp [exactTypes, tet])
    coordUnity := C77_types _ (by simp [exactTypes, tet])
    numbered := by simp [tet, Numbered] }
  nodes := ⟨by simp [tet], rfl, by simp [tet, Node.WF]⟩
  unity := C77_types _ (by simp [exactTypes, tet])
  numbered := by simp [tet, Numbered]
  dimension := rfl

noncomputable def tetMatrix : Nat → Nat → ℝ :=
  Jacobian.calculate 3 [0, 0, 0, 1, 0, 0, 0, 1, 0, 0, 0, 1] (Interpolation.tetrahedronLinearDeriv fun _ => 0)

theorem tetMatrix_eq : ∀ i < 3, ∀ j < 3, tetMatrix i j = if i = j then 1 else 0 := by
  intro i hi j hj
  interval_cases i <;> interval_cases j <;>
    simp [tetMatrix, Jacobian.calculate, Interpolation.tetrahedronLinearDeriv, List.range_succ]

noncomputable def tetJacobian : Jacobian :=
  ⟨3, 3, tetMatrix, Jacobian.inv3 tetMatrix, Jacobian.det3 tetMatrix, fun _ => 0⟩

noncomputable def tetPoints : List (ℝ × IpData) := [(1 / 6, ⟨0, 0, [1 / 4, 1 / 4, 1 / 4], tetJacobian⟩)]

theorem tet_points : tet.cell.Points tetPoints := by
  refine .cons ⟨rfl, ?_⟩ .nil
  rw [Cell.ipData]
  have : tet.cell.coordElement.extractNodeValues 0 = .ok [0, 0, 0, 1, 0, 0, 0, 1, 0, 0, 0, 1] := by
    rfl
  rw [this, Res.bind_ok']
  show (Jacobian.make _ 3 (Interpolation.tetrahedronLinearDeriv fun k => [1 / 4, 1 / 4, 1 / 4].getD k 0)).bind _ = _
  rw [make_square3 _ _ (by simp [Interpolation.tetrahedronLinearDeriv]) (by simp [Interpolation.tetrahedronLinearDeriv])]
  rfl

theorem tet_inv : ∀ i < 3, ∀ j < 3, tetJacobian.inv i j = if i = j then 1 else 0 := by
  intro i hi j hj
  show Jacobian.inv3 tetMatrix i j = _
  have h := tetMatrix_eq
  interval_cases i <;> interval_cases j <;>
    simp [Jacobian.inv3, Jacobian.cofactor3, Jacobian.det3, Jacobian.brute3, h]

theorem tet_strain (d : IpData) (hd : d.jacobian = tetJacobian) (U : Nat → ℝ) (hU : ∀ i, U i = if i = 3 then 1 else 0) :
    strainAt 3 tet d U = [1, 0, 0, 0, 0, 0] := by
  have hr : (gradients tet.disp d).rows = 4 := rfl
  have hc : ∀ i < 4, ∀ b < 3, (gradients tet.disp d).coef i b =
      ((Interpolation.tetrahedronLinearDeriv (fun _ => (0 : ℝ))).getD i []).getD b 0 := by
    intro i hi b hb
    show d.jacobian.transform (Interpolation.tetrahedronLinearDeriv fun _ => (0 : ℝ)) i b = _
    rw [hd, Jacobian.transform, show tetJacobian.cols = 3 from rfl]
    have h := tet_inv
    interval_cases i <;> interval_cases b <;>
      simp [List.range_succ, h, Interpolation.tetrahedronLinearDeriv]
  have hu : Balance.restrict 3 tet.disp U = [0, 0, 0, 1, 0, 0, 0, 0, 0, 0, 0, 0] := by
    simp [Balance.restrict, tet, number, hU, List.range_succ]
  simp [strainAt, strains, displacementGradient, hr, hu, sum_range_succ, hc, Interpolation.tetrahedronLinearDeriv]

/-- The tetrahedron in uniaxial tension with nonlocal strains above the elastic limit meets the hypotheses of
`C110_softening3D` with unilateral damage. -/
example (m : Softening ℝ) (hm : m = { E := 30000, nu := 1 / 5, ft := 4, fc := 40, gf := 1 / 10, c := 1, fMin := 4 / 100 })
    (g : GradientDamage 6)
    (hg : g = { GradientDamage.make m.c (LinearElasticDamage.ofSoftening 3 6 m .unilateral) (DamageLaw.exponentialOf m)
      (MisesNorm.ofSoftening m).value3 (MisesNorm.ofSoftening m).derivative3 (.decreasing (1 / 100) 5) with history := History.resize 1 1 })
    (junk junk' : Nat → Nat → ℝ) :
    ExactTangent ⟨[(0, 12), (1, 4)], [(0, 0), (1, 0)]⟩ junk junk' 0 1 g [[tet]] [[], [tet]] (nd := 12) (ne := 4)
      (fun i => if i = 3 then 1 else 0, fun _ => 1) := by
  have hst : strainAt 3 tet ⟨0, 0, [1 / 4, 1 / 4, 1 / 4], tetJacobian⟩
      (fun i => (List.ofFn (fun i : Fin 12 => if i = 3 then (1 : ℝ) else 0)).getD i 0) = [1, 0, 0, 0, 0, 0] := by
    refine tet_strain _ rfl _ fun i => ?_
    by_cases hi : i < 12
    · interval_cases i <;> rfl
    · rw [List.getD_eq_default _ _ (by simpa using hi), if_neg (by omega)]
  have hnl : nonlocal tet ⟨0, 0, [1 / 4, 1 / 4, 1 / 4], tetJacobian⟩
      (fun i => (List.ofFn (fun _ : Fin 4 => (1 : ℝ))).getD i 0) = 1 := by
    have h3 : tet.eeq.interp.numNodes = 4 := rfl
    simp only [nonlocal, h3, sum_range_succ, sum_range_zero]
    simp [tet, number, Interpolation.tetrahedronLinear, Interpolation.tetrahedronLinearShape]
    norm_num
  refine C110_softening3D _ junk junk' (by norm_num) m (by rw [hm]; norm_num) (by rw [hm]; norm_num) (by rw [hm]; norm_num)
    (by rw [hm]; norm_num) (by rw [hm]; norm_num) (by rw [hm]; exact ⟨by norm_num, by norm_num, by norm_num⟩) (History.resize 1 1)
    .unilateral (1 / 100) 5 _ (Or.inr rfl) g hg [tet] _ _ (by simp) (by simp) rfl rfl
    (fun x hx => by rw [List.mem_singleton.1 hx]; exact tet_fits) (fun _ => tetPoints)
    (fun x hx => by rw [List.mem_singleton.1 hx]; exact tet_points) ?_ _ _ (fun _ _ => rfl) ?_ ?_ ?_ ?_
  · intro x hx p hp
    obtain rfl := List.mem_singleton.1 hx
    obtain rfl := List.mem_singleton.1 hp
    simp [History.InRange, History.resize]
  · intro x hx p hp
    obtain rfl := List.mem_singleton.1 hx
    obtain rfl := List.mem_singleton.1 hp
    intro _
    simp only [strainVec, hst]
    norm_num
  · intro x hx p hp
    obtain rfl := List.mem_singleton.1 hx
    obtain rfl := List.mem_singleton.1 hp
    simp only [StrainInvariants.J2, strainVec, hst]
    norm_num
  · intro x hx p hp
    obtain rfl := List.mem_singleton.1 hx
    obtain rfl := List.mem_singleton.1 hp
    rw [hnl]
    simp [History.resize]
  · intro x hx p hp
    obtain rfl := List.mem_singleton.1 hx
    obtain rfl := List.mem_singleton.1 hp
    rw [hnl, hm]
    norm_num

end GradientMesh

end NuTo
