import Verif.Model.Solve
import Verif.Props.DofMatrix
import Verif.Props.DofVector
import Verif.Lemmas.MatrixAssembler

set_option linter.unusedSectionVars false
namespace NuTo
variable {K : Type _} [Field K]

namespace SpMat

theorem mulVec_eq_ok {m : SpMat K} (hw : m.WF) {x y : List K} (h : m.mulVec x = .ok y) :
    x.length = m.cols ∧ y.length = m.rows ∧
      ∀ i, i < m.rows → y.getD i 0 = ∑ j ∈ Finset.range m.cols, m.entry i j * x.getD j 0 := by
  unfold mulVec at h
  obtain ⟨h1, h2⟩ := Res.require_eq_ok h
  simp only [Res.ok.injEq] at h2
  subst h2
  refine ⟨h1, by simp, ?_⟩
  intro i hi
  rw [← SpMat.mulVec_sum m hw x i]
  simp [List.getD_eq_getElem?_getD, hi]

theorem mulVec_ok (m : SpMat K) (x : List K) (h : x.length = m.cols) : ∃ y, m.mulVec x = .ok y := by
  unfold mulVec Res.require
  rw [if_pos h]
  exact ⟨_, rfl⟩

theorem transpose_entry (m : SpMat K) (i j : Nat) : m.transpose.entry i j = m.entry j i := by
  unfold entry transpose
  simp only [List.map_map]
  congr 1
  apply List.map_congr_left
  intro t _
  simp only [Function.comp, and_comm]

theorem transpose_wf {m : SpMat K} (h : m.WF) : m.transpose.WF := by
  intro t ht
  simp only [transpose, List.mem_map] at ht ⊢
  obtain ⟨s, hs, rfl⟩ := ht
  exact ⟨(h s hs).2, (h s hs).1⟩

theorem mul_eq_ok {a b m : SpMat K} (h : mul a b = .ok m) (ha : a.WF) (hb : b.WF) :
    m.WF ∧ m.rows = a.rows ∧ m.cols = b.cols ∧ a.cols = b.rows ∧
      ∀ x y z, m.mulVec x = .ok y → b.mulVec x = .ok z → a.mulVec z = .ok y := by
  unfold mul at h
  obtain ⟨hd, h⟩ := Res.require_eq_ok h
  simp only [Res.ok.injEq] at h
  subst h
  refine ⟨?_, rfl, rfl, hd, ?_⟩
  · intro t ht
    simp only [List.mem_flatMap, List.mem_map, List.mem_filter] at ht
    obtain ⟨s, hs, u, hu, rfl⟩ := ht
    exact ⟨(ha s hs).1, (hb u hu.1).2⟩
  · intro x y z hy hz
    unfold mulVec at hy hz ⊢
    obtain ⟨hx, hy⟩ := Res.require_eq_ok hy
    obtain ⟨_, hz⟩ := Res.require_eq_ok hz
    simp only [Res.ok.injEq] at hy hz
    subst hy
    subst hz
    unfold Res.require
    rw [if_pos (by simp [hd])]
    congr 1
    apply List.map_congr_left
    intro i _
    rw [DofSpMat.sum_map_flatMap]
    congr 1
    apply List.map_congr_left
    intro s hs
    have hsc := (ha s hs).2
    rw [hd] at hsc
    rw [List.map_map]
    simp only [Function.comp_def]
    by_cases hi : s.row = i
    · simp only [hi, if_true]
      rw [Assembly.map_range_getD _ _ _ hsc]
      generalize b.entries = L
      induction L with
      | nil => simp
      | cons u L ih =>
        rw [List.filter_cons]
        by_cases hu : s.col = u.row
        · simp only [hu, decide_true, if_true, List.map_cons, List.sum_cons, mul_add]
          rw [hu] at ih
          rw [ih]; ring
        · have hu' : ¬ u.row = s.col := fun e => hu e.symm
          simp only [hu, hu', decide_false, List.map_cons, List.sum_cons, if_false, zero_add, ih, Bool.false_eq_true]
    · simp [hi]

/-- `∑_k z_k (Cᵀ r)_k = ∑_i (C z)_i r_i` -/
theorem transpose_dot {C : SpMat K} (hw : C.WF) {r z t y : List K} (h1 : C.transpose.mulVec r = .ok t)
    (h2 : C.mulVec z = .ok y) :
    ∑ k ∈ Finset.range C.cols, z.getD k 0 * t.getD k 0 = ∑ i ∈ Finset.range C.rows, y.getD i 0 * r.getD i 0 := by
  obtain ⟨_, _, a⟩ := mulVec_eq_ok (transpose_wf hw) h1
  obtain ⟨_, _, b⟩ := mulVec_eq_ok hw h2
  have e1 : ∀ k ∈ Finset.range C.cols, z.getD k 0 * t.getD k 0 =
      ∑ i ∈ Finset.range C.rows, z.getD k 0 * (C.entry i k * r.getD i 0) := by
    intro k hk
    rw [a k (Finset.mem_range.mp hk), Finset.mul_sum]
    apply Finset.sum_congr rfl
    intro i _
    rw [transpose_entry]
  have e2 : ∀ i ∈ Finset.range C.rows, y.getD i 0 * r.getD i 0 =
      ∑ k ∈ Finset.range C.cols, z.getD k 0 * (C.entry i k * r.getD i 0) := by
    intro i hi
    rw [b i (Finset.mem_range.mp hi), Finset.sum_mul]
    apply Finset.sum_congr rfl
    intro k _
    ring
  rw [Finset.sum_congr rfl e1, Finset.sum_congr rfl e2, Finset.sum_comm]

end SpMat

theorem find?_mapKey {β : Type _} (l : List Nat) (q : Nat → β) (d : Nat) (hd : d ∈ l) :
    OMap.find? (l.map fun e => (e, q e)) d = some (q d) := by
  induction l with
  | nil => cases hd
  | cons e l ih =>
    simp only [List.map_cons, OMap.find?]
    by_cases h : d = e
    · subst h; simp
    · rw [if_neg h]
      rcases List.mem_cons.mp hd with hd | hd
      · exact absurd hd h
      · exact ih hd

/-- a flat vector of the right size is a concatenation of blocks -/
theorem exists_blocks (size : Nat → Nat) (dofs : List Nat) (hn : dofs.Nodup) : ∀ (x : List K),
    x.length = (dofs.map size).sum → ∃ q : Nat → List K, x = dofs.flatMap q ∧ ∀ d ∈ dofs, (q d).length = size d := by
  induction dofs with
  | nil => intro x h; exact ⟨fun _ => [], by simpa using h, by simp⟩
  | cons d ds ih =>
    intro x h
    simp only [List.map_cons, List.sum_cons] at h
    obtain ⟨hd, hn'⟩ := List.nodup_cons.mp hn
    obtain ⟨q, hq1, hq2⟩ := ih hn' (x.drop (size d)) (by rw [List.length_drop]; omega)
    refine ⟨fun e => if e = d then x.take (size d) else q e, ?_, ?_⟩
    · rw [List.flatMap_cons]
      simp only [if_true]
      have : ds.flatMap (fun e => if e = d then x.take (size d) else q e) = ds.flatMap q := by
        apply List.flatMap_congr
        intro e he
        have : e ≠ d := fun h' => hd (h' ▸ he)
        rw [if_neg this]
      rw [this, ← hq1, List.take_append_drop]
    · intro e he
      simp only
      by_cases h' : e = d
      · subst h'; simp; omega
      · rw [if_neg h']
        exact hq2 e (by simpa [h'] using he)

/-- sums over a flat index range, block by block -/
theorem sum_flat (size : Nat → Nat) (dofs : List Nat) (g : Nat → K) (h : Nat → Nat → K)
    (hg : ∀ p i (hp : p < dofs.length), i < size dofs[p] → g (blockOffset size dofs p + i) = h dofs[p] i) :
    ∑ i ∈ Finset.range (dofs.map size).sum, g i = (dofs.map fun d => ∑ i ∈ Finset.range (size d), h d i).sum := by
  rw [sum_range_blocks, ← Fin.sum_univ_fun_getElem]
  apply Finset.sum_congr rfl
  intro p _
  apply Finset.sum_congr rfl
  intro i hi
  exact hg p i p.2 (Finset.mem_range.mp hi)

theorem blockOffset_lt (size : Nat → Nat) (dofs : List Nat) (p i : Nat) (hp : p < dofs.length) (hi : i < size dofs[p]) :
    blockOffset size dofs p + i < (dofs.map size).sum := by
  unfold blockOffset
  have e : (dofs.map size).sum = ((dofs.take p).map size).sum + ((dofs.drop p).map size).sum := by
    rw [← List.sum_append, ← List.map_append, List.take_append_drop]
  rw [e, List.drop_eq_getElem_cons hp, List.map_cons, List.sum_cons]
  omega

theorem eq_flatMap (size : Nat → Nat) (dofs : List Nat) (hn : dofs.Nodup) (z : Nat → List K)
    (hz : ∀ d ∈ dofs, (z d).length = size d) (y : List K) (hy : y.length = (dofs.map size).sum)
    (h : ∀ p i (hp : p < dofs.length), i < size dofs[p] → y.getD (blockOffset size dofs p + i) 0 = (z dofs[p]).getD i 0) :
    y = dofs.flatMap z := by
  obtain ⟨q, rfl, hq⟩ := exists_blocks size dofs hn y hy
  apply List.flatMap_congr
  intro d hd
  obtain ⟨p, hp, rfl⟩ := List.getElem_of_mem hd
  apply List.ext_getElem
  · rw [hq _ hd, hz _ hd]
  · intro i h1 h2
    have := h p i hp (by rw [← hq _ hd]; exact h1)
    have e := flatMap_getD q dofs p hp i h1
    have e2 : ((dofs.take p).map fun d => (q d).length) = (dofs.take p).map size :=
      List.map_congr_left fun d hd => hq d (List.mem_of_mem_take hd)
    rw [e2] at e
    unfold blockOffset at this
    rw [e] at this
    simpa [List.getD_eq_getElem?_getD, h1, h2] using this

theorem flat_getD (size : Nat → Nat) (dofs : List Nat) (z : Nat → List K)
    (hz : ∀ d ∈ dofs, (z d).length = size d) (p i : Nat) (hp : p < dofs.length) (hi : i < size dofs[p]) :
    (dofs.flatMap z).getD (blockOffset size dofs p + i) 0 = (z dofs[p]).getD i 0 := by
  have e := flatMap_getD z dofs p hp i (by rw [hz _ (List.getElem_mem hp)]; exact hi)
  have e2 : ((dofs.take p).map fun d => (z d).length) = (dofs.take p).map size :=
    List.map_congr_left fun d hd => hz d (List.mem_of_mem_take hd)
  rw [e2] at e
  exact e

theorem flat_length (size : Nat → Nat) (dofs : List Nat) (z : Nat → List K) (hz : ∀ d ∈ dofs, (z d).length = size d) :
    (dofs.flatMap z).length = (dofs.map size).sum := by
  rw [List.length_flatMap]
  congr 1
  exact List.map_congr_left fun d hd => hz d hd

namespace Solve

/-- the blocks of the unit constraint matrix -/
def unitBlock (Cd : Nat → SpMat K) (r c : Nat) : SpMat K := if r = c then Cd r else ⟨(Cd r).rows, (Cd c).cols, []⟩

theorem diagLoop (bcs : Bcs K) (f : DofVec K) (fb : Nat → List K) (Cd : Nat → SpMat K) (dofs : List Nat)
    (hf : ∀ d ∈ dofs, f.find? d = some (fb d)) (hC : ∀ d ∈ dofs, bcs.unit d (fb d).length = .ok (Cd d)) :
    ∀ c0 : DofSpMat K, ∃ c, Res.foldlM (diagStep bcs f) c0 dofs = .ok c ∧
      ∀ p : Nat × Nat, c.find? (toLex p) = if p.1 = p.2 ∧ p.1 ∈ dofs then some (Cd p.1) else c0.find? (toLex p) := by
  induction dofs with
  | nil => intro c0; exact ⟨c0, rfl, by simp⟩
  | cons d ds ih =>
    intro c0
    obtain ⟨c, h1, h2⟩ := ih (fun e he => hf e (by simp [he])) (fun e he => hC e (by simp [he]))
      (OMap.set c0 (toLex (d, d)) (Cd d))
    refine ⟨c, ?_, ?_⟩
    · rw [Res.foldlM_cons]
      simp only [diagStep, OMap.at', hf d (by simp), Res.bind_ok', hC d (by simp)]
      exact h1
    · intro p
      rw [h2, OMap.find?_set]
      obtain ⟨a, b⟩ := p
      simp only [List.mem_cons]
      by_cases hab : a = b
      · subst hab
        by_cases hd : a ∈ ds
        · simp [hd]
        · by_cases had : a = d
          · subst had; simp [hd]
          · have : toLex (a, a) ≠ toLex (d, d) := fun e => had (by simpa using congrArg Prod.fst (toLex.injective e))
            simp [hd, had, this]
      · have : toLex (a, b) ≠ toLex (d, d) := by
          intro e
          have := toLex.injective e
          simp only [Prod.mk.injEq] at this
          exact hab (this.1.trans this.2.symm)
        simp [hab, this]

theorem offDiagLoop (Cd : Nat → SpMat K) (dofs : List Nat) (P : List (Nat × Nat)) : ∀ c0 : DofSpMat K,
    (∀ d ∈ dofs, c0.find? (toLex (d, d)) = some (Cd d)) → (∀ p ∈ P, p.1 ∈ dofs ∧ p.2 ∈ dofs) →
    (∀ d ∈ dofs, OMap.find? (P.foldl offDiagStep c0) (toLex (d, d)) = some (Cd d)) ∧
    ∀ p : Nat × Nat, p.1 ≠ p.2 → OMap.find? (P.foldl offDiagStep c0) (toLex p) =
      if p ∈ P then some ⟨(Cd p.1).rows, (Cd p.2).cols, []⟩ else c0.find? (toLex p) := by
  induction P with
  | nil => intro c0 h _; exact ⟨h, by simp⟩
  | cons q P ih =>
    intro c0 h hP
    have hq := hP q (by simp)
    have hset : ∀ p : Nat × Nat, OMap.find? (offDiagStep c0 q) (toLex p) =
        if p = q ∧ q.1 ≠ q.2 then some ⟨(Cd q.1).rows, (Cd q.2).cols, []⟩ else c0.find? (toLex p) := by
      intro p
      unfold offDiagStep
      by_cases hne : q.1 ≠ q.2
      · rw [if_pos hne, OMap.find?_set, h q.1 hq.1, h q.2 hq.2]
        by_cases hpq : p = q
        · subst hpq; simp [hne]
        · have : toLex p ≠ toLex q := fun e => hpq (toLex.injective e)
          simp [hpq, this]
      · rw [if_neg hne]; simp only [hne, and_false, if_false]
    obtain ⟨i1, i2⟩ := ih (offDiagStep c0 q) (by
      intro d hd
      rw [hset, if_neg]
      · exact h d hd
      · rintro ⟨e, hne⟩
        exact hne (by rw [← e])) (fun p hp => hP p (by simp [hp]))
    refine ⟨i1, ?_⟩
    intro p hp
    rw [List.foldl_cons, i2 p hp, hset]
    by_cases hpq : p = q
    · subst hpq; simp [hp]
    · simp [hpq]

theorem mem_allPairs {dofs : List Nat} {p : Nat × Nat} : p ∈ allPairs dofs ↔ p.1 ∈ dofs ∧ p.2 ∈ dofs :=
  Assembly.mem_pairs

theorem unitMatrix_ok (bcs : Bcs K) (f : DofVec K) (fb : Nat → List K) (Cd : Nat → SpMat K) (dofs : List Nat)
    (hf : ∀ d ∈ dofs, f.find? d = some (fb d)) (hC : ∀ d ∈ dofs, bcs.unit d (fb d).length = .ok (Cd d))
    (hr : ∀ d ∈ dofs, (Cd d).rows = (fb d).length) (hw : ∀ d ∈ dofs, (Cd d).WF) :
    ∃ c, unitMatrix bcs f dofs = .ok c ∧
      DofSpMat.Consistent c dofs (fun d => (fb d).length) (fun d => (Cd d).cols) (unitBlock Cd) := by
  obtain ⟨c, h1, h2⟩ := diagLoop bcs f fb Cd dofs hf hC []
  obtain ⟨h3, h4⟩ := offDiagLoop Cd dofs (allPairs dofs) c (by
    intro d hd; rw [h2]; simp [hd]) (fun p hp => mem_allPairs.mp hp)
  refine ⟨_, by unfold unitMatrix; rw [h1]; rfl, ⟨?_, ?_, ?_, ?_⟩⟩
  · intro r hr' c' hc'
    unfold DofSpMat.at2 OMap.at' unitBlock
    by_cases h : r = c'
    · subst h; rw [h3 r hr']; simp
    · rw [h4 (r, c') h, if_pos (mem_allPairs.mpr ⟨hr', hc'⟩)]
      simp [h]
  · intro r hr' c' hc'
    unfold unitBlock
    split <;> exact hr r hr'
  · intro r hr' c' hc'
    unfold unitBlock
    split
    · rename_i h; subst h; rfl
    · rfl
  · intro r hr' c' hc'
    unfold unitBlock
    split
    · exact hw r hr'
    · intro t ht; cases ht

/-- the flat unit matrix applied to a flat vector: block by block -/
theorem unit_mul (Cd : Nat → SpMat K) (size : Nat → Nat) (dofs : List Nat) (cdof : DofSpMat K) (C : SpMat K)
    (hr : ∀ d ∈ dofs, (Cd d).rows = size d) (hw : ∀ d ∈ dofs, (Cd d).WF) (hn : dofs.Nodup)
    (h : DofSpMat.Consistent cdof dofs size (fun d => (Cd d).cols) (unitBlock Cd)) (hC : cdof.toEigen dofs = .ok C)
    (q z : Nat → List K) (hz : ∀ d ∈ dofs, (Cd d).mulVec (q d) = .ok (z d)) :
    C.mulVec (dofs.flatMap q) = .ok (dofs.flatMap z) := by
  have hq : ∀ d ∈ dofs, (q d).length = (Cd d).cols := fun d hd => (SpMat.mulVec_eq_ok (hw d hd) (hz d hd)).1
  obtain ⟨M, xs, y, h1, h2, h3, h4, h5⟩ := C04_toEigen_product cdof dofs size (fun d => (Cd d).cols) (unitBlock Cd) h
    (dofs.map fun d => (d, q d)) q (fun d hd => find?_mapKey dofs q d hd) hq
  rw [hC] at h1
  simp only [Res.ok.injEq] at h1
  subst h1
  rw [DofVec.toEigen_eq _ q dofs (fun d hd => find?_mapKey dofs q d hd)] at h2
  simp only [Res.ok.injEq] at h2
  subst h2
  rw [h3]
  congr 1
  apply eq_flatMap size dofs hn z (fun d hd => by rw [(SpMat.mulVec_eq_ok (hw d hd) (hz d hd)).2.1, hr d hd]) y h4
  intro p i hp hi
  have hd : dofs[p] ∈ dofs := List.getElem_mem hp
  obtain ⟨_, _, e⟩ := SpMat.mulVec_eq_ok (hw _ hd) (hz _ hd)
  rw [e i (by rw [hr _ hd]; exact hi), h5 p i hp hi]
  rw [Finset.sum_eq_single (⟨p, hp⟩ : Fin dofs.length)]
  · simp [unitBlock]
  · intro b _ hb
    have hne : dofs[p] ≠ dofs[(b : Nat)] := by
      intro e'
      exact hb (Fin.ext ((List.Nodup.getElem_inj_iff hn).mp e').symm)
    apply Finset.sum_eq_zero
    intro j _
    simp [unitBlock, hne, SpMat.entry]
  · intro hb; exact absurd (Finset.mem_univ _) hb

/-- row `i` of block row `d` of a block matrix times a block vector -/
def blockMul (kb : Nat → Nat → SpMat K) (size : Nat → Nat) (dofs : List Nat) (u : Nat → List K) (d i : Nat) : K :=
  (dofs.map fun e => ∑ j ∈ Finset.range (size e), (kb d e).entry i j * (u e).getD j 0).sum

theorem flat_mul (kb : Nat → Nat → SpMat K) (size : Nat → Nat) (dofs : List Nat) (Kmat : DofSpMat K) (Kf : SpMat K)
    (h : DofSpMat.Consistent Kmat dofs size size kb) (hK : Kmat.toEigen dofs = .ok Kf)
    (u : Nat → List K) (hu : ∀ d ∈ dofs, (u d).length = size d) :
    ∃ y, Kf.mulVec (dofs.flatMap u) = .ok y ∧ y.length = (dofs.map size).sum ∧
      ∀ p i (hp : p < dofs.length), i < size dofs[p] →
        y.getD (blockOffset size dofs p + i) 0 = blockMul kb size dofs u dofs[p] i := by
  obtain ⟨M, xs, y, h1, h2, h3, h4, h5⟩ := C04_toEigen_product Kmat dofs size size kb h
    (dofs.map fun d => (d, u d)) u (fun d hd => find?_mapKey dofs u d hd) hu
  rw [hK] at h1
  simp only [Res.ok.injEq] at h1
  subst h1
  rw [DofVec.toEigen_eq _ u dofs (fun d hd => find?_mapKey dofs u d hd)] at h2
  simp only [Res.ok.injEq] at h2
  subst h2
  refine ⟨y, h3, h4, ?_⟩
  intro p i hp hi
  rw [h5 p i hp hi]
  unfold blockMul
  rw [← Fin.sum_univ_fun_getElem]
  rfl

theorem deltaLoop (bcs : Bcs K) (f : DofVec K) (fb ra rb : Nat → List K) (t0 t1 : K) (dofs : List Nat)
    (hn : dofs.Nodup) (hf : ∀ d ∈ dofs, f.find? d = some (fb d))
    (ha : ∀ d ∈ dofs, bcs.rhs d (fb d).length t1 = .ok (ra d)) (hb : ∀ d ∈ dofs, bcs.rhs d (fb d).length t0 = .ok (rb d))
    (hal : ∀ d ∈ dofs, (ra d).length = (fb d).length) (hbl : ∀ d ∈ dofs, (rb d).length = (fb d).length) :
    ∀ v0 : DofVec K, (∀ d ∈ dofs, v0.find? d = some ((fb d).map fun _ => 0)) →
    ∃ v, Res.foldlM (deltaStep bcs f t0 t1) v0 dofs = .ok v ∧
      (∀ d ∈ dofs, OMap.find? v d = some (List.zipWith (· - ·) (ra d) (rb d))) ∧
      ∀ d, d ∉ dofs → OMap.find? v d = OMap.find? v0 d := by
  induction dofs with
  | nil => intro v0 _; exact ⟨v0, rfl, by simp, by simp⟩
  | cons d ds ih =>
    intro v0 h0
    obtain ⟨hd, hn'⟩ := List.nodup_cons.mp hn
    have hz : List.zipWith (· + ·) ((fb d).map fun _ => (0 : K)) (List.zipWith (· - ·) (ra d) (rb d)) =
        List.zipWith (· - ·) (ra d) (rb d) := by
      apply List.ext_getElem
      · simp [hal d (by simp), hbl d (by simp)]
      · intro i h1 h2
        simp
    obtain ⟨v, v1, v2, v3⟩ := ih hn' (fun e he => hf e (by simp [he])) (fun e he => ha e (by simp [he]))
      (fun e he => hb e (by simp [he])) (fun e he => hal e (by simp [he])) (fun e he => hbl e (by simp [he]))
      (OMap.set v0 d (List.zipWith (· - ·) (ra d) (rb d))) (by
        intro e he
        rw [OMap.find?_set, if_neg (fun (e2 : e = d) => hd (e2 ▸ he))]
        exact h0 e (by simp [he]))
    refine ⟨v, ?_, ?_, ?_⟩
    · rw [Res.foldlM_cons]
      have : deltaStep bcs f t0 t1 v0 d = .ok (OMap.set v0 d (List.zipWith (· - ·) (ra d) (rb d))) := by
        unfold deltaStep
        simp only [OMap.at', hf d (by simp), Res.bind_ok', ha d (by simp), hb d (by simp), h0 d (by simp),
          Option.getD_some, vecSub, vecAdd, Res.require]
        rw [if_pos (by rw [hal d (by simp), hbl d (by simp)])]
        simp only [Res.bind_ok']
        rw [if_pos (by simp [hal d (by simp), hbl d (by simp)])]
        simp only [Res.bind_ok', hz]
      rw [this]
      exact v1
    · intro e he
      rcases List.mem_cons.mp he with rfl | he
      · rw [v3 e hd, OMap.find?_set, if_pos rfl]
      · exact v2 e he
    · intro e he
      have he' := List.mem_cons.not.mp he
      push Not at he'
      rw [v3 e he'.2, OMap.find?_set, if_neg he'.1]

/-- the reduced system: `(Cᵀ K C) x = Cᵀ g` makes `K C x - g` orthogonal to the range of `C` -/
theorem orth_flat {C Kf a Kmod : SpMat K} (hC : C.WF) (hK : Kf.WF) (h1 : SpMat.mul C.transpose Kf = .ok a)
    (h2 : SpMat.mul a C = .ok Kmod) {g fmod x u : List K} (h3 : C.transpose.mulVec g = .ok fmod)
    (h4 : Kmod.mulVec x = .ok fmod) (h5 : C.mulVec x = .ok u) :
    ∃ w, Kf.mulVec u = .ok w ∧ ∀ z y, C.mulVec z = .ok y →
      ∑ i ∈ Finset.range C.rows, y.getD i 0 * (w.getD i 0 - g.getD i 0) = 0 := by
  obtain ⟨aw, ar, ac, acr, am⟩ := SpMat.mul_eq_ok h1 (SpMat.transpose_wf hC) hK
  obtain ⟨_, _, _, kcr, km⟩ := SpMat.mul_eq_ok h2 aw hC
  have hau := km x fmod u h4 h5
  have hul := (SpMat.mulVec_eq_ok hC h5).2.1
  obtain ⟨w, hw⟩ := SpMat.mulVec_ok Kf u (by rw [hul, ← kcr, ac])
  refine ⟨w, hw, ?_⟩
  have hcw := am u fmod w hau hw
  intro z y hzy
  have e1 := SpMat.transpose_dot hC hcw hzy
  have e2 := SpMat.transpose_dot hC h3 hzy
  have : ∀ i ∈ Finset.range C.rows, y.getD i 0 * (w.getD i 0 - g.getD i 0) =
      y.getD i 0 * w.getD i 0 - y.getD i 0 * g.getD i 0 := fun i _ => by ring
  rw [Finset.sum_congr rfl this, Finset.sum_sub_distrib, ← e1, ← e2, sub_self]

end Solve
end NuTo
