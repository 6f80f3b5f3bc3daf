import Verif.Model.Balance
import Verif.Props.CellIntegration
import Verif.Props.StrainOperator
import Verif.Props.Assembler
import Verif.Props.UnitMesh

/-!
Lemmas for C77 and C78: congruence of integrals, sums over assembled entries.
-/
namespace NuTo

open Assembly Finset

theorem Res.foldlM_congr {α β : Type} (f g : β → α → Res β) (l : List α) (h : ∀ a ∈ l, ∀ b, f b a = g b a) (b : β) :
    Res.foldlM f b l = Res.foldlM g b l := by
  induction l generalizing b with
  | nil => rfl
  | cons a l ih =>
    rw [Res.foldlM_cons, Res.foldlM_cons, h a List.mem_cons_self]
    congr 1
    funext b'
    exact ih (fun c hc => h c (List.mem_cons_of_mem _ hc)) b'

theorem integrateGeneric_congr {R X : Type} (addScaled : R → X → ℝ → ℝ → Res R) (c : Cell) (f g : IpData → Res X)
    (r : R) (pts : List (ℝ × IpData)) (h : c.Points pts) (hfg : ∀ p ∈ pts, f p.2 = g p.2) :
    Cell.integrateGeneric addScaled c f r = Cell.integrateGeneric addScaled c g r := by
  rw [integrateGeneric_eq _ c f r pts h, integrateGeneric_eq _ c g r pts h]
  exact Res.foldlM_congr _ _ _ (fun p hp b => by rw [hfg p hp]) r

/-- If a volume is computed, the data of all points are. -/
theorem points_of_volume (c : Cell) (V : ℝ) (h : c.integrateScalar (fun _ => .ok 1) = .ok V) :
    ∃ pts, c.Points pts ∧ V = (pts.map fun p => p.2.jacobian.det * p.1).sum := by
  have key : ∀ (l : List ((ℝ × List ℝ) × Nat)) (r : ℝ),
      Res.foldlM (Cell.integrateStep (fun r x s t => Res.ok (r + x * s * t)) c fun _ => Res.ok 1) r l = .ok V →
      ∃ pts : List (ℝ × IpData), List.Forall₂ (fun (ip : (ℝ × List ℝ) × Nat) (p : ℝ × IpData) =>
        p.1 = ip.1.1 ∧ c.ipData ip.2 ip.1.2 = .ok p.2) l pts := by
    intro l
    induction l with
    | nil => intro r _; exact ⟨[], List.Forall₂.nil⟩
    | cons ip t ih =>
      intro r h
      rw [Res.foldlM_cons, Cell.integrateStep] at h
      cases hd : c.ipData ip.2 ip.1.2 with
      | ok d =>
        rw [hd] at h
        simp only [Res.bind_ok'] at h
        obtain ⟨pts, hp⟩ := ih _ h
        exact ⟨(ip.1.1, d) :: pts, List.Forall₂.cons ⟨rfl, hd⟩ hp⟩
      | throw => rw [hd] at h; cases h
      | ub => rw [hd] at h; cases h
  obtain ⟨pts, hp⟩ := key _ _ h
  refine ⟨pts, hp, ?_⟩
  have := C57_scalar c pts hp fun _ => 1
  rw [h] at this
  simpa using this

/-- A sum over the assembled entries is the sum over the local entries. -/
theorem scatter_sum (n : Nat) (nums : List Int) (vals : List ℝ) (R : Nat → ℝ)
    (h : ∀ g ∈ nums, 0 ≤ g ∧ g < (n : Int)) :
    ∑ i ∈ range n, scatter nums vals i * R i =
      ∑ k ∈ range nums.length, vals.getD k 0 * R (nums.getD k 0).toNat := by
  simp only [scatter, sum_range_list, sum_mul]
  rw [sum_comm]
  refine sum_congr rfl fun k hk => ?_
  have hk' := mem_range.1 hk
  have hm : nums.getD k 0 ∈ nums := by
    rw [List.getD_eq_getElem _ _ hk']
    exact List.getElem_mem hk'
  obtain ⟨h0, h1⟩ := h _ hm
  rw [sum_eq_single_of_mem (nums.getD k 0).toNat (mem_range.2 (by omega))]
  · rw [if_pos (by omega)]
  · intro i _ hne
    rw [if_neg (by omega), zero_mul]

theorem scatter2_sum (n : Nat) (nums : List Int) (m : DMat ℝ) (R S : Nat → ℝ)
    (h : ∀ g ∈ nums, 0 ≤ g ∧ g < (n : Int)) :
    ∑ i ∈ range n, ∑ j ∈ range n, R i * scatter2 nums nums m i j * S j =
      ∑ k ∈ range nums.length, ∑ l ∈ range nums.length,
        R (nums.getD k 0).toNat * m.coef k l * S (nums.getD l 0).toNat := by
  have hb : ∀ k ∈ range nums.length, 0 ≤ nums.getD k 0 ∧ nums.getD k 0 < (n : Int) := by
    intro k hk
    refine h _ ?_
    rw [List.getD_eq_getElem _ _ (mem_range.1 hk)]
    exact List.getElem_mem _
  simp only [scatter2, sum_range_list, sum_mul, mul_sum]
  calc ∑ i ∈ range n, ∑ j ∈ range n, ∑ k ∈ range nums.length, ∑ l ∈ range nums.length,
        R i * (if nums.getD k 0 = (i : Int) ∧ nums.getD l 0 = (j : Int) then m.coef k l else 0) * S j
      = ∑ k ∈ range nums.length, ∑ l ∈ range nums.length, ∑ i ∈ range n, ∑ j ∈ range n,
        R i * (if nums.getD k 0 = (i : Int) ∧ nums.getD l 0 = (j : Int) then m.coef k l else 0) * S j := by
        simp only [fun i => sum_comm (s := range n) (t := range nums.length)
          (f := fun j k => ∑ l ∈ range nums.length,
            R i * (if nums.getD k 0 = (i : Int) ∧ nums.getD l 0 = (j : Int) then m.coef k l else 0) * S j)]
        rw [sum_comm]
        refine sum_congr rfl fun k _ => ?_
        simp only [fun i => sum_comm (s := range n) (t := range nums.length)
          (f := fun j l =>
            R i * (if nums.getD k 0 = (i : Int) ∧ nums.getD l 0 = (j : Int) then m.coef k l else 0) * S j)]
        rw [sum_comm]
    _ = _ := by
        refine sum_congr rfl fun k hk => sum_congr rfl fun l hl => ?_
        obtain ⟨k0, k1⟩ := hb k hk
        obtain ⟨l0, l1⟩ := hb l hl
        rw [sum_eq_single_of_mem (nums.getD k 0).toNat (mem_range.2 (by omega)),
          sum_eq_single_of_mem (nums.getD l 0).toNat (mem_range.2 (by omega)), if_pos ⟨by omega, by omega⟩]
        · intro j _ hne
          rw [if_neg (by omega), mul_zero, zero_mul]
        · intro i _ hne
          refine sum_eq_zero fun j _ => ?_
          rw [if_neg (by omega), mul_zero, zero_mul]

/-- Exchange of a list sum and a sum over a range. -/
theorem list_sum_range {α : Type} (l : List α) (n : Nat) (f : α → Nat → ℝ) :
    ∑ i ∈ range n, (l.map fun a => f a i).sum = (l.map fun a => ∑ i ∈ range n, f a i).sum := by
  induction l with
  | nil => simp
  | cons a l ih => simp only [List.map_cons, List.sum_cons, sum_add_distrib, ih]

end NuTo
