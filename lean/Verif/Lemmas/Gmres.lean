import Verif.Model.Gmres
import Verif.Lemmas.MatrixAssembler
import Mathlib.Tactic.Ring
import Mathlib.Tactic.Linarith
import Mathlib.Tactic.FieldSimp
import Mathlib.Tactic.Positivity
import Mathlib.Tactic.LinearCombination

/-!
Givens rotations, Arnoldi vectors and the residual of the generalized minimal residual method.
-/

namespace NuTo

namespace Gmres

open Finset

/-! ## Rotations -/

theorem makeGivens_unit (p q : ℝ) : (makeGivens p q).1 ^ 2 + (makeGivens p q).2 ^ 2 = 1 := by
  have key : ∀ (t u : ℝ), u ^ 2 = 1 + t ^ 2 → (1 / u) ^ 2 + (t * (1 / u)) ^ 2 = 1 := by
    intro t u h
    have hu : u ≠ 0 := by rintro rfl; nlinarith
    field_simp
    linarith
  have hu : ∀ (t : ℝ) (b : Prop) [Decidable b], (if b then -Real.sqrt (1 + t ^ 2) else Real.sqrt (1 + t ^ 2)) ^ 2 = 1 + t ^ 2 := by
    intro t b _
    have : Real.sqrt (1 + t ^ 2) ^ 2 = 1 + t ^ 2 := Real.sq_sqrt (by positivity)
    split
    · rw [neg_sq, this]
    · exact this
  unfold makeGivens
  split
  · dsimp only; split <;> norm_num
  · split
    · dsimp only; split <;> norm_num
    · split
      · dsimp only
        refine Eq.trans ?_ (key (q / p) _ (hu (q / p) (p < 0))); ring
      · dsimp only
        refine Eq.trans ?_ (key (p / q) _ (hu (p / q) (q < 0))); ring

theorem makeGivens_zero (p q : ℝ) : (makeGivens p q).2 * p + (makeGivens p q).1 * q = 0 := by
  unfold makeGivens
  split
  · rename_i h; rw [h]; ring
  · split
    · rename_i h; rw [h]; ring
    · rename_i hq hp
      split
      · dsimp only; field_simp; ring
      · dsimp only; field_simp; ring

theorem makeGivens_snd_zero (p : ℝ) : (makeGivens p 0).2 = 0 := by
  unfold makeGivens; simp

/-- the first `m` rotations, one after the other -/
def rots (G : Nat → ℝ × ℝ) (m : Nat) (f : Nat → ℝ) : Nat → ℝ :=
  (List.range m).foldl (fun f (iRow : Nat) => rotate (G iRow) iRow f) f

theorem rots_zero (G : Nat → ℝ × ℝ) (f : Nat → ℝ) : rots G 0 f = f := rfl

theorem rots_succ (G : Nat → ℝ × ℝ) (m : Nat) (f : Nat → ℝ) : rots G (m + 1) f = rotate (G m) m (rots G m f) := by
  rw [rots, List.range_succ, List.foldl_append]; rfl

theorem rots_congr (G G' : Nat → ℝ × ℝ) (m : Nat) (f : Nat → ℝ) (h : ∀ k < m, G k = G' k) : rots G m f = rots G' m f := by
  induction m with
  | zero => rfl
  | succ m ih => rw [rots_succ, rots_succ, ih fun k hk => h k (by omega), h m (by omega)]

theorem rotate_congr (g : ℝ × ℝ) (p b : Nat) (f f' : Nat → ℝ) (hp : p + 1 ≤ b) (h : ∀ k ≤ b, f k = f' k) :
    ∀ k ≤ b, rotate g p f k = rotate g p f' k := by
  intro k hk
  simp only [rotate, h p (by omega), h (p + 1) hp, h k hk]

theorem rots_congr_low (G : Nat → ℝ × ℝ) (m b : Nat) (f f' : Nat → ℝ) (hm : m ≤ b) (h : ∀ k ≤ b, f k = f' k) :
    ∀ k ≤ b, rots G m f k = rots G m f' k := by
  induction m with
  | zero => exact h
  | succ m ih =>
    rw [rots_succ, rots_succ]
    exact rotate_congr _ _ _ _ _ hm (ih (by omega))

theorem rots_high (G : Nat → ℝ × ℝ) (m : Nat) (f : Nat → ℝ) : ∀ k, m < k → rots G m f k = f k := by
  induction m with
  | zero => intro k _; rfl
  | succ m ih =>
    intro k hk
    rw [rots_succ, rotate, if_neg (by omega), if_neg (by omega), ih k (by omega)]

theorem rots_linear (G : Nat → ℝ × ℝ) (m : Nat) (t : ℝ) (f : Nat → ℝ) (y : Nat → ℝ) (F : Nat → Nat → ℝ) (p : Nat) (k : Nat) :
    rots G m (fun k => t * f k - ∑ j ∈ range p, y j * F j k) k =
      t * rots G m f k - ∑ j ∈ range p, y j * rots G m (F j) k := by
  induction m generalizing k with
  | zero => rfl
  | succ m ih =>
    simp only [rots_succ, rotate]
    split
    · rw [ih, ih]
      simp only [mul_sub, Finset.mul_sum, Finset.sum_sub_distrib]
      have e1 : ∑ j ∈ range p, (G m).1 * (y j * rots G m (F j) m) = ∑ j ∈ range p, y j * ((G m).1 * rots G m (F j) m) :=
        Finset.sum_congr rfl fun j _ => by ring
      have e2 : ∑ j ∈ range p, (G m).2 * (y j * rots G m (F j) (m + 1)) =
          ∑ j ∈ range p, y j * ((G m).2 * rots G m (F j) (m + 1)) := Finset.sum_congr rfl fun j _ => by ring
      rw [e1, e2]; ring
    · split
      · rw [ih, ih]
        simp only [mul_sub, mul_add, Finset.mul_sum, Finset.sum_add_distrib]
        have e1 : ∑ j ∈ range p, (G m).1 * (y j * rots G m (F j) (m + 1)) = ∑ j ∈ range p, y j * ((G m).1 * rots G m (F j) (m + 1)) :=
          Finset.sum_congr rfl fun j _ => by ring
        have e2 : ∑ j ∈ range p, (G m).2 * (y j * rots G m (F j) m) =
            ∑ j ∈ range p, y j * ((G m).2 * rots G m (F j) m) := Finset.sum_congr rfl fun j _ => by ring
        rw [e1, e2]; ring
      · exact ih k

theorem rots_sq (G : Nat → ℝ × ℝ) (m : Nat) (hG : ∀ k < m, (G k).1 ^ 2 + (G k).2 ^ 2 = 1) (f : Nat → ℝ) :
    ∑ k ∈ range (m + 1), rots G m f k ^ 2 = ∑ k ∈ range (m + 1), f k ^ 2 := by
  induction m with
  | zero => rfl
  | succ m ih =>
    have h1 := ih fun k hk => hG k (by omega)
    rw [Finset.sum_range_succ, Finset.sum_range_succ, Finset.sum_range_succ _ (m + 1), ← h1, Finset.sum_range_succ _ m]
    have e : ∀ k ∈ range m, rots G (m + 1) f k ^ 2 = rots G m f k ^ 2 := by
      intro k hk
      have := Finset.mem_range.mp hk
      rw [rots_succ, rotate, if_neg (by omega), if_neg (by omega)]
    rw [Finset.sum_congr rfl e, ← rots_high G m f (m + 1) (by omega), rots_succ]
    simp only [rotate, if_true, if_neg (show ¬ m + 1 = m by omega)]
    have := hG m (by omega)
    linear_combination (rots G m f m ^ 2 + rots G m f (m + 1) ^ 2) * this

theorem rots_stable (G : Nat → ℝ × ℝ) (p m : Nat) (hpm : p + 1 ≤ m) (f : Nat → ℝ) (h : ∀ k, p < k → rots G (p + 1) f k = 0) :
    rots G m f = rots G (p + 1) f := by
  induction m with
  | zero => omega
  | succ m ih =>
    rcases Nat.lt_or_ge (p + 1) (m + 1) with h1 | h1
    · rw [rots_succ, ih (by omega)]
      funext k
      simp only [rotate, h m (by omega), h (m + 1) (by omega)]
      split
      · rename_i hk; rw [hk, h m (by omega)]; ring
      · split
        · rename_i hk; rw [hk, h (m + 1) (by omega)]; ring
        · rfl
    · rw [show m + 1 = p + 1 by omega]

/-! ## The invariant of the columns -/

variable {E : Type} [NormedAddCommGroup E] [InnerProductSpace ℝ E]

/-- After `m` columns: `W` are the orthonormal vectors, `hess` the Hessenberg matrix before the rotations. -/
structure Inv (B : E → E) (beta : ℝ) (v0 : E) (m : Nat) (a : Arrays E) (hess : Nat → Nat → ℝ) (W : Nat → E) : Prop where
  first : W 0 = v0
  col : ∀ k < m, a.V k = some (W k)
  last : (a.V m = some (W m) ∧ inner ℝ (W m) (W m) = 1) ∨
    (0 < m ∧ a.V m = none ∧ hess m (m - 1) = 0 ∧ a.s m = 0)
  orth : ∀ k l, k < m → l < m → inner ℝ (W k) (W l) = if k = l then (1 : ℝ) else 0
  orthLast : ∀ k < m, inner ℝ (W m) (W k) = 0
  arnoldi : ∀ j < m, B (W j) = ∑ k ∈ range (m + 1), hess k j • W k
  nz : ∀ j < m, a.V (j + 1) ≠ none → hess (j + 1) j ≠ 0
  sub : ∀ j k, j < m → j + 1 < k → hess k j = 0
  unit : ∀ k < m, (a.G k).1 ^ 2 + (a.G k).2 ^ 2 = 1
  tri : ∀ j < m, ∀ k ≤ j, a.H k j = rots a.G (j + 1) (fun k => hess k j) k
  zero : ∀ j < m, ∀ k, j < k → rots a.G (j + 1) (fun k => hess k j) k = 0
  s : a.s = rots a.G m (fun k => if k = 0 then beta else 0)

/-- Gram-Schmidt against the first `p` vectors -/
theorem gram_spec (V : Nat → Option E) (W : Nat → E) (m p : Nat) (hp : p ≤ m) (hV : ∀ k < m, V k = some (W k))
    (ho : ∀ k l, k < m → l < m → inner ℝ (W k) (W l) = if k = l then (1 : ℝ) else 0) (c0 : Nat → ℝ) (w0 : E) :
    ∃ c w, Res.foldlM (gramStep V) (c0, w0) (List.range p) = .ok (c, w) ∧
      w0 = (∑ k ∈ range p, c k • W k) + w ∧ (∀ k < p, inner ℝ w (W k) = 0) ∧ ∀ k, p ≤ k → c k = c0 k := by
  induction p with
  | zero => exact ⟨c0, w0, rfl, by simp, fun k hk => absurd hk (by omega), fun _ _ => rfl⟩
  | succ p ih =>
    obtain ⟨c, w, h1, h2, h3, h4⟩ := ih (by omega)
    refine ⟨fun k => if k = p then inner ℝ w (W p) else c k, w - (inner ℝ w (W p) : ℝ) • W p, ?_, ?_, ?_, ?_⟩
    · rw [List.range_succ, Res.foldlM_append, h1]
      simp only [Res.bind_ok', Res.foldlM_cons, Res.foldlM_nil, gramStep, hV p (by omega)]
    · rw [Finset.sum_range_succ]
      simp only [if_true]
      have e : ∑ k ∈ range p, (if k = p then inner ℝ w (W p) else c k) • W k = ∑ k ∈ range p, c k • W k :=
        Finset.sum_congr rfl fun k hk => by rw [if_neg (by have := Finset.mem_range.mp hk; omega)]
      rw [e, h2]
      abel
    · intro k hk
      rw [inner_sub_left, inner_smul_left]
      rcases Nat.lt_or_ge k p with hkp | hkp
      · rw [h3 k hkp, ho p k (by omega) (by omega), if_neg (by omega)]; simp
      · obtain rfl : k = p := by omega
        rw [ho k k (by omega) (by omega), if_pos rfl]; simp
    · intro k hk
      simp only [if_neg (show ¬ k = p by omega)]
      exact h4 k (by omega)

/-- one more column -/
theorem column_spec (B : E → E) (beta : ℝ) (v0 : E) (n m : Nat) (a : Arrays E) (hess : Nat → Nat → ℝ) (W : Nat → E)
    (h : Inv B beta v0 m a hess W) (hV : a.V m ≠ none) :
    (n ≤ m + 1 → column B n m a = .ub) ∧
    (m + 1 < n → ∃ a' hess' W', column B n m a = .ok a' ∧ Inv B beta v0 (m + 1) a' hess' W') := by
  obtain ⟨hVm, hWm⟩ : a.V m = some (W m) ∧ inner ℝ (W m) (W m) = (1 : ℝ) := by
    rcases h.last with h' | h'
    · exact h'
    · exact absurd h'.2.1 hV
  have hall : ∀ k < m + 1, a.V k = some (W k) := by
    intro k hk
    rcases Nat.lt_or_ge k m with h1 | h1
    · exact h.col k h1
    · rw [show k = m by omega]; exact hVm
  have horth : ∀ k l, k < m + 1 → l < m + 1 → inner ℝ (W k) (W l) = if k = l then (1 : ℝ) else 0 := by
    intro k l hk hl
    rcases Nat.lt_or_ge k m with h1 | h1
    · rcases Nat.lt_or_ge l m with h2 | h2
      · exact h.orth k l h1 h2
      · obtain rfl : l = m := by omega
        rw [real_inner_comm, h.orthLast k h1, if_neg (by omega)]
    · obtain rfl : k = m := by omega
      rcases Nat.lt_or_ge l k with h2 | h2
      · rw [h.orthLast l h2, if_neg (by omega)]
      · obtain rfl : l = k := by omega
        rw [hWm, if_pos rfl]
  obtain ⟨c, w, g1, g2, g3, g4⟩ := gram_spec a.V W (m + 1) (m + 1) le_rfl hall horth (fun k => a.H k m) (B (W m))
  set col0 : Nat → ℝ := fun k => if k = m + 1 then ‖w‖ else c k with hcol0
  set gv := makeGivens (rots a.G m col0 m) (rots a.G m col0 (m + 1)) with hgv
  have hcol : column B n m a = if n ≤ m + 1 then .ub else .ok
      { V := fun k => if k = m + 1 then (open Classical in if ‖w‖ = 0 then none else some (‖w‖⁻¹ • w)) else a.V k
        H := fun k j => if j = m then rotate gv m (rots a.G m col0) k else a.H k j
        G := fun k => if k = m then gv else a.G k
        s := rotate gv m a.s } := by
    simp only [column, hVm, g1, Res.bind_ok']
    rfl
  refine ⟨fun hn => by rw [hcol, if_pos hn], fun hn => ?_⟩
  rw [hcol, if_neg (by omega)]
  set a' : Arrays E :=
      { V := fun k => if k = m + 1 then (open Classical in if ‖w‖ = 0 then none else some (‖w‖⁻¹ • w)) else a.V k
        H := fun k j => if j = m then rotate gv m (rots a.G m col0) k else a.H k j
        G := fun k => if k = m then gv else a.G k
        s := rotate gv m a.s } with ha'
  set hess' : Nat → Nat → ℝ := fun k j => if j = m then (if k ≤ m + 1 then col0 k else 0) else if k ≤ m then hess k j else 0
    with hhess
  set W' : Nat → E := fun k => if k = m + 1 then ‖w‖⁻¹ • w else W k with hW'
  have hGlow : ∀ k < m, a'.G k = a.G k := fun k hk => if_neg (by omega)
  have hGm : a'.G m = gv := if_pos rfl
  -- the columns before
  have hold : ∀ j < m, (fun k => hess' k j) = fun k => hess k j := by
    intro j hj
    funext k
    simp only [hhess, if_neg (show ¬ j = m by omega)]
    split
    · rfl
    · exact (h.sub j k hj (by omega)).symm
  have hrots : ∀ j < m, ∀ f, rots a'.G (j + 1) f = rots a.G (j + 1) f := fun j hj f =>
    rots_congr _ _ _ _ fun k hk => hGlow k (by omega)
  -- the new column
  have hnew : ∀ k ≤ m + 1, rots a.G m (fun k => hess' k m) k = rots a.G m col0 k :=
    rots_congr_low _ _ (m + 1) _ _ (by omega) fun k hk => by simp only [hhess, if_true, if_pos hk]
  have hnew' : ∀ k, rots a'.G (m + 1) (fun k => hess' k m) k = rotate gv m (rots a.G m fun k => hess' k m) k := by
    intro k
    rw [rots_succ, hGm, rots_congr _ _ _ _ hGlow]
  have hc0 : rots a.G m col0 (m + 1) = ‖w‖ := by
    rw [rots_high _ _ _ _ (by omega)]; simp only [hcol0, if_true]
  have hs' : a'.s = rots a'.G (m + 1) (fun k => if k = 0 then beta else 0) := by
    rw [rots_succ, hGm, rots_congr _ _ _ _ hGlow, ← h.s]
  refine ⟨a', hess', W', rfl, ⟨?_, ?_, ?_, ?_, ?_, ?_, ?_, ?_, ?_, ?_, ?_, hs'⟩⟩
  · simp only [hW', if_neg (show ¬ 0 = m + 1 by omega)]; exact h.first
  · intro k hk
    simp only [ha', hW', if_neg (show ¬ k = m + 1 by omega)]
    exact hall k hk
  · by_cases hw : ‖w‖ = 0
    · refine Or.inr ⟨by omega, ?_, ?_, ?_⟩
      · simp only [ha', if_true, if_pos hw]
      · simp only [hhess, Nat.add_sub_cancel, if_true, hcol0, le_refl]; exact hw
      · have hg2 : gv.2 = 0 := by rw [hgv, hc0, hw]; exact makeGivens_snd_zero _
        have hsm : a.s (m + 1) = 0 := by rw [h.s, rots_high _ _ _ _ (by omega)]; simp
        simp only [ha', rotate, if_neg (show ¬ m + 1 = m by omega), if_true, hg2, hsm]
        ring
    · refine Or.inl ⟨?_, ?_⟩
      · simp only [ha', hW', if_true, if_neg hw]
      · simp only [hW', if_true]
        rw [inner_smul_left, inner_smul_right, real_inner_self_eq_norm_sq]
        simp only [conj_trivial]
        field_simp
  · intro k l hk hl
    simp only [hW', if_neg (show ¬ k = m + 1 by omega), if_neg (show ¬ l = m + 1 by omega)]
    exact horth k l hk hl
  · intro k hk
    simp only [hW', if_true, if_neg (show ¬ k = m + 1 by omega)]
    rw [inner_smul_left, g3 k hk, mul_zero]
  · intro j hj
    rcases Nat.lt_or_ge j m with h1 | h1
    · rw [Finset.sum_range_succ]
      have e0 : hess' (m + 1) j = 0 := by
        simp only [hhess, if_neg (show ¬ j = m by omega), if_neg (show ¬ m + 1 ≤ m by omega)]
      rw [e0, zero_smul, add_zero]
      simp only [hW', if_neg (show ¬ j = m + 1 by omega)]
      rw [h.arnoldi j h1]
      refine Finset.sum_congr rfl fun k hk => ?_
      have := Finset.mem_range.mp hk
      rw [if_neg (by omega), congrFun (hold j h1) k]
    · obtain rfl : j = m := by omega
      rw [Finset.sum_range_succ]
      simp only [hW', if_neg (show ¬ j = j + 1 by omega), if_true]
      rw [g2]
      congr 1
      · refine Finset.sum_congr rfl fun k hk => ?_
        have := Finset.mem_range.mp hk
        simp only [hhess, if_true, hcol0, if_pos (show k ≤ j + 1 by omega), if_neg (show ¬ k = j + 1 by omega)]
      · simp only [hhess, if_true, hcol0, le_refl]
        by_cases hw : ‖w‖ = 0
        · rw [norm_eq_zero.mp hw]; simp
        · rw [smul_smul, mul_inv_cancel₀ hw, one_smul]
  · intro j hj hjV
    rcases Nat.lt_or_ge j m with h1 | h1
    · rw [congrFun (hold j h1) (j + 1)]
      refine h.nz j h1 ?_
      simp only [ha', if_neg (show ¬ j + 1 = m + 1 by omega)] at hjV
      exact hjV
    · obtain rfl : j = m := by omega
      simp only [hhess, if_true, hcol0, le_refl]
      intro hw
      simp only [ha', if_true, if_pos hw] at hjV
      exact hjV rfl
  · intro j k hj hk
    simp only [hhess]
    split
    · rw [if_neg (by omega)]
    · split
      · exact h.sub j k (by omega) hk
      · rfl
  · intro k hk
    rcases Nat.lt_or_ge k m with h1 | h1
    · rw [hGlow k h1]; exact h.unit k h1
    · rw [show k = m by omega, hGm]; exact makeGivens_unit _ _
  · intro j hj k hk
    rcases Nat.lt_or_ge j m with h1 | h1
    · rw [hrots j h1, hold j h1, ← h.tri j h1 k hk]
      simp only [ha', if_neg (show ¬ j = m by omega)]
    · obtain rfl : j = m := by omega
      rw [hnew' k]
      simp only [ha', if_true]
      exact (rotate_congr gv j (j + 1) _ _ le_rfl hnew k (by omega)).symm
  · intro j hj k hk
    rcases Nat.lt_or_ge j m with h1 | h1
    · rw [hrots j h1, hold j h1]; exact h.zero j h1 k hk
    · obtain rfl : j = m := by omega
      rw [hnew' k]
      rcases Nat.lt_or_ge (j + 1) k with h2 | h2
      · rw [rotate, if_neg (by omega), if_neg (by omega), rots_high _ _ _ _ (by omega)]
        simp only [hhess, if_true, if_neg (show ¬ k ≤ j + 1 by omega)]
      · obtain rfl : k = j + 1 := by omega
        rw [rotate_congr gv j (j + 1) _ _ le_rfl hnew (j + 1) le_rfl]
        simp only [rotate, if_neg (show ¬ j + 1 = j by omega), if_true]
        exact makeGivens_zero _ _

/-! ## The residual -/

/-- the triangular matrix -/
def R (a : Arrays E) (hess : Nat → Nat → ℝ) (k j : Nat) : ℝ := rots a.G (j + 1) (fun k => hess k j) k

theorem norm_sq_orth (W : Nat → E) (m : Nat) (u : Nat → ℝ)
    (ho : ∀ k l, k < m → l < m → inner ℝ (W k) (W l) = if k = l then (1 : ℝ) else 0) :
    ‖∑ k ∈ range m, u k • W k‖ ^ 2 = ∑ k ∈ range m, u k ^ 2 := by
  rw [← real_inner_self_eq_norm_sq, sum_inner]
  refine Finset.sum_congr rfl fun k hk => ?_
  rw [inner_sum, Finset.sum_eq_single k]
  · rw [inner_smul_left, inner_smul_right, ho k k (Finset.mem_range.mp hk) (Finset.mem_range.mp hk), if_pos rfl]
    simp only [conj_trivial]; ring
  · intro l hl hlk
    rw [inner_smul_left, inner_smul_right, ho k l (Finset.mem_range.mp hk) (Finset.mem_range.mp hl), if_neg (Ne.symm hlk)]
    simp
  · intro h; exact absurd hk h

variable {A P : E →ₗ[ℝ] E}

theorem Inv.residual {B : E →ₗ[ℝ] E} {beta : ℝ} {v0 : E} {m : Nat} {a : Arrays E} {hess : Nat → Nat → ℝ} {W : Nat → E}
    (h : Inv (fun v => B v) beta v0 m a hess W) (t : ℝ) (y : Nat → ℝ) :
    ‖(t * beta) • v0 - B (∑ j ∈ range m, y j • W j)‖ ^ 2 =
      ∑ k ∈ range (m + 1), (t * a.s k - ∑ j ∈ range m, y j * R a hess k j) ^ 2 := by
  set e : Nat → ℝ := fun k => if k = 0 then beta else 0 with he
  set u : Nat → ℝ := fun k => t * e k - ∑ j ∈ range m, y j * hess k j with hu
  have hvec : (t * beta) • v0 - B (∑ j ∈ range m, y j • W j) = ∑ k ∈ range (m + 1), u k • W k := by
    have e1 : ∑ k ∈ range (m + 1), (t * e k) • W k = (t * beta) • v0 := by
      rw [Finset.sum_eq_single 0]
      · simp only [he, if_true, h.first]
      · intro k _ hk; simp only [he, if_neg hk, mul_zero, zero_smul]
      · intro h0; exact absurd (Finset.mem_range.mpr (by omega)) h0
    have e2 : B (∑ j ∈ range m, y j • W j) = ∑ k ∈ range (m + 1), (∑ j ∈ range m, y j * hess k j) • W k := by
      rw [map_sum]
      simp only [Finset.sum_smul]
      rw [Finset.sum_comm]
      refine Finset.sum_congr rfl fun j hj => ?_
      rw [map_smul, h.arnoldi j (Finset.mem_range.mp hj), Finset.smul_sum]
      exact Finset.sum_congr rfl fun k _ => by rw [smul_smul]
    rw [← e1, e2, ← Finset.sum_sub_distrib]
    exact Finset.sum_congr rfl fun k _ => by rw [hu, sub_smul]
  have hsq : ‖∑ k ∈ range (m + 1), u k • W k‖ ^ 2 = ∑ k ∈ range (m + 1), u k ^ 2 := by
    rcases h.last with h' | h'
    · refine norm_sq_orth W (m + 1) u fun k l hk hl => ?_
      rcases Nat.lt_or_ge k m with h1 | h1
      · rcases Nat.lt_or_ge l m with h2 | h2
        · exact h.orth k l h1 h2
        · obtain rfl : l = m := by omega
          rw [real_inner_comm, h.orthLast k h1, if_neg (by omega)]
      · obtain rfl : k = m := by omega
        rcases Nat.lt_or_ge l k with h2 | h2
        · rw [h.orthLast l h2, if_neg (by omega)]
        · obtain rfl : l = k := by omega
          rw [h'.2, if_pos rfl]
    · have hum : u m = 0 := by
        simp only [hu, he, if_neg (show ¬ m = 0 by omega), mul_zero, zero_sub, neg_eq_zero]
        refine Finset.sum_eq_zero fun j hj => ?_
        have := Finset.mem_range.mp hj
        rcases Nat.lt_or_ge (j + 1) m with h1 | h1
        · rw [h.sub j m this h1, mul_zero]
        · rw [show j = m - 1 by omega, h'.2.2.1, mul_zero]
      rw [Finset.sum_range_succ, Finset.sum_range_succ, hum, zero_smul, add_zero, zero_pow (by decide), add_zero]
      exact norm_sq_orth W m u h.orth
  rw [hvec, hsq, ← rots_sq a.G m h.unit u]
  refine Finset.sum_congr rfl fun k _ => ?_
  rw [hu, rots_linear a.G m t e y (fun j k => hess k j) m k, h.s]
  congr 2
  refine Finset.sum_congr rfl fun j hj => ?_
  have := Finset.mem_range.mp hj
  rw [rots_stable a.G j m (by omega) _ (h.zero j this), R]

theorem Inv.R_low {B : E → E} {beta : ℝ} {v0 : E} {m : Nat} {a : Arrays E} {hess : Nat → Nat → ℝ} {W : Nat → E}
    (h : Inv B beta v0 m a hess W) (k j : Nat) (hj : j < m) (hk : j < k) : R a hess k j = 0 := h.zero j hj k hk

theorem Inv.R_up {B : E → E} {beta : ℝ} {v0 : E} {m : Nat} {a : Arrays E} {hess : Nat → Nat → ℝ} {W : Nat → E}
    (h : Inv B beta v0 m a hess W) (k j : Nat) (hj : j < m) (hk : k ≤ j) : R a hess k j = a.H k j := (h.tri j hj k hk).symm

/-- the row of the triangular matrix as a sum over the upper entries -/
theorem Inv.row {B : E → E} {beta : ℝ} {v0 : E} {m : Nat} {a : Arrays E} {hess : Nat → Nat → ℝ} {W : Nat → E}
    (h : Inv B beta v0 m a hess W) (y : Nat → ℝ) (k : Nat) :
    ∑ j ∈ range m, y j * R a hess k j = ∑ j ∈ Finset.Ico k m, a.H k j * y j := by
  have hsub : Finset.Ico k m ⊆ range m := fun j hj => by
    have := Finset.mem_Ico.mp hj; exact Finset.mem_range.mpr this.2
  rw [← Finset.sum_subset hsub]
  · refine Finset.sum_congr rfl fun j hj => ?_
    have := Finset.mem_Ico.mp hj
    rw [h.R_up k j this.2 this.1, mul_comm]
  · intro j hj hj'
    have h1 := Finset.mem_range.mp hj
    have h2 : j < k := by
      by_contra hc
      exact hj' (Finset.mem_Ico.mpr ⟨by omega, h1⟩)
    rw [h.R_low k j h1 h2, mul_zero]

/-! ## The triangular solve -/

theorem backSubst_fold (H : Nat → Nat → ℝ) (s : Nat → ℝ) (m p : Nat) (hp : p ≤ m) (y : Nat → ℝ)
    (hy : ∀ k, p ≤ k → k < m → ∑ j ∈ Finset.Ico k m, H k j * y j = s k) :
    (∀ y', Res.foldlM (backStep H s m) y (List.range p).reverse = .ok y' →
      (∀ k < m, ∑ j ∈ Finset.Ico k m, H k j * y' j = s k)) ∧
    ((∀ k < p, H k k ≠ 0) → ∃ y', Res.foldlM (backStep H s m) y (List.range p).reverse = .ok y') := by
  induction p generalizing y with
  | zero =>
    constructor
    · intro y' h
      simp only [List.range_zero, List.reverse_nil, Res.foldlM_nil] at h
      cases h
      exact fun k hk => hy k (by omega) hk
    · intro _; exact ⟨y, rfl⟩
  | succ p ih =>
    rw [List.range_succ, List.reverse_append]
    simp only [List.reverse_cons, List.reverse_nil, List.nil_append, List.singleton_append, Res.foldlM_cons]
    by_cases h0 : H p p = 0
    · constructor
      · intro y' h
        simp only [backStep, if_pos h0] at h
        exact absurd h (by simp [Res.bind])
      · intro h; exact absurd h0 (h p (by omega))
    · simp only [backStep, if_neg h0, Res.bind_ok']
      have := ih (by omega) (fun j => if j = p then (s p - ∑ l ∈ Finset.Ico (p + 1) m, H p l * y l) / H p p else y j) (by
        intro k hk hkm
        rcases Nat.lt_or_ge p k with h1 | h1
        · rw [← hy k (by omega) hkm]
          refine Finset.sum_congr rfl fun j hj => ?_
          have := Finset.mem_Ico.mp hj
          rw [if_neg (by omega)]
        · obtain rfl : k = p := by omega
          rw [Finset.sum_eq_sum_Ico_succ_bot hkm, if_pos rfl]
          have : ∑ j ∈ Finset.Ico (k + 1) m, H k j * (if j = k then (s k - ∑ l ∈ Finset.Ico (k + 1) m, H k l * y l) / H k k else y j) =
              ∑ j ∈ Finset.Ico (k + 1) m, H k j * y j := by
            refine Finset.sum_congr rfl fun j hj => ?_
            have := Finset.mem_Ico.mp hj
            rw [if_neg (by omega)]
          rw [this]
          field_simp
          ring)
      exact ⟨this.1, fun h => this.2 fun k hk => h k (by omega)⟩

theorem backSubst_spec (H : Nat → Nat → ℝ) (s : Nat → ℝ) (m : Nat) :
    (∀ y, backSubst H s m = .ok y → ∀ k < m, ∑ j ∈ Finset.Ico k m, H k j * y j = s k) ∧
    ((∀ k < m, H k k ≠ 0) → ∃ y, backSubst H s m = .ok y) :=
  backSubst_fold H s m m le_rfl (fun _ => 0) fun k hk hkm => absurd hk (by omega)

theorem addColumns (V : Nat → Option E) (W : Nat → E) (y : Nat → ℝ) (x : E) (m : Nat) (hV : ∀ k < m, V k = some (W k)) :
    Res.foldlM (addColumn V y) x (List.range m) = .ok (x + ∑ j ∈ range m, y j • W j) := by
  induction m with
  | zero => simp [Res.foldlM_nil]
  | succ m ih =>
    rw [List.range_succ, Res.foldlM_append, ih fun k hk => hV k (by omega)]
    simp only [Res.bind_ok', Res.foldlM_cons, Res.foldlM_nil, addColumn, hV m (by omega)]
    rw [Finset.sum_range_succ, add_assoc]

/-- an injective operator has no zero on the diagonal -/
theorem Inv.diag {B : E →ₗ[ℝ] E} {beta : ℝ} {v0 : E} {m : Nat} {a : Arrays E} {hess : Nat → Nat → ℝ} {W : Nat → E}
    (h : Inv (fun v => B v) beta v0 m a hess W) (hB : Function.Injective B) : ∀ k < m, a.H k k ≠ 0 := by
  intro k
  induction k using Nat.strong_induction_on with
  | _ k ih =>
    intro hk h0
    obtain ⟨y, hy⟩ := (backSubst_spec a.H (fun i => -a.H i k) k).2 fun i hi => ih i hi (by omega)
    have hs := (backSubst_spec a.H (fun i => -a.H i k) k).1 y hy
    set z : Nat → ℝ := fun j => if j < k then y j else if j = k then 1 else 0 with hz
    have hrow : ∀ i, ∑ j ∈ range m, z j * R a hess i j = 0 := by
      intro i
      rw [h.row z i]
      rcases Nat.lt_or_ge k i with h1 | h1
      · refine Finset.sum_eq_zero fun j hj => ?_
        have := Finset.mem_Ico.mp hj
        simp only [hz, if_neg (show ¬ j < k by omega), if_neg (show ¬ j = k by omega), mul_zero]
      · have e1 : ∑ j ∈ Finset.Ico i m, a.H i j * z j = ∑ j ∈ Finset.Ico i (k + 1), a.H i j * z j := by
          refine (Finset.sum_subset (Finset.Ico_subset_Ico_right (by omega)) ?_).symm
          intro j hj hj'
          have h2 := Finset.mem_Ico.mp hj
          have h3 : k < j := by
            by_contra hc
            exact hj' (Finset.mem_Ico.mpr ⟨h2.1, by omega⟩)
          simp only [hz, if_neg (show ¬ j < k by omega), if_neg (show ¬ j = k by omega), mul_zero]
        rw [e1, Finset.sum_Ico_succ_top h1]
        have e2 : ∑ j ∈ Finset.Ico i k, a.H i j * z j = ∑ j ∈ Finset.Ico i k, a.H i j * y j := by
          refine Finset.sum_congr rfl fun j hj => ?_
          have := Finset.mem_Ico.mp hj
          simp only [hz, if_pos this.2]
        have e3 : z k = 1 := by simp [hz]
        rw [e2, e3]
        rcases Nat.lt_or_ge i k with h2 | h2
        · rw [hs i h2]; ring
        · obtain rfl : i = k := by omega
          simp [h0]
    have hres := h.residual 0 z
    simp only [zero_mul, zero_smul, zero_sub, norm_neg, hrow, neg_zero, ne_eq, OfNat.ofNat_ne_zero, not_false_eq_true, zero_pow,
      Finset.sum_const_zero, pow_eq_zero_iff, norm_eq_zero] at hres
    have hzero : ∑ j ∈ range m, z j • W j = 0 := hB (by rw [hres, map_zero])
    have hin := congrArg (fun v => (inner ℝ v (W k) : ℝ)) hzero
    simp only [inner_zero_left, sum_inner] at hin
    rw [Finset.sum_eq_single k] at hin
    · rw [inner_smul_left, h.orth k k hk hk, if_pos rfl] at hin
      simp [hz] at hin
    · intro j hj hjk
      rw [inner_smul_left, h.orth j k (Finset.mem_range.mp hj) hk, if_neg hjk, mul_zero]
    · intro h1; exact absurd (Finset.mem_range.mpr hk) h1

/-- the update of the solution -/
theorem Inv.update {B : E →ₗ[ℝ] E} {beta : ℝ} {v0 : E} {m : Nat} {a : Arrays E} {hess : Nat → Nat → ℝ} {W : Nat → E}
    (h : Inv (fun v => B v) beta v0 m a hess W) (x x' : E) (hx : update a m x = .ok x') :
    ∃ y : Nat → ℝ, x' = x + ∑ j ∈ range m, y j • W j ∧ ‖beta • v0 - B (x' - x)‖ = |a.s m| ∧
      ∀ z : Nat → ℝ, |a.s m| ≤ ‖beta • v0 - B (∑ j ∈ range m, z j • W j)‖ := by
  have hlow : ∀ z : Nat → ℝ, ∑ j ∈ range m, z j * R a hess m j = 0 := fun z =>
    Finset.sum_eq_zero fun j hj => by rw [h.R_low m j (Finset.mem_range.mp hj) (Finset.mem_range.mp hj), mul_zero]
  rw [Gmres.update] at hx
  cases hy : backSubst a.H a.s m with
  | ok y =>
    rw [hy, Res.bind_ok', addColumns a.V W y x m h.col] at hx
    cases hx
    have hs := (backSubst_spec a.H a.s m).1 y hy
    refine ⟨y, rfl, ?_, ?_⟩
    · have hr := h.residual 1 y
      have hz : ∑ k ∈ range m, (1 * a.s k - ∑ j ∈ range m, y j * R a hess k j) ^ 2 = 0 :=
        Finset.sum_eq_zero fun k hk => by rw [h.row y k, hs k (Finset.mem_range.mp hk)]; ring
      rw [Finset.sum_range_succ, hlow, hz] at hr
      · rw [add_sub_cancel_left, ← abs_of_nonneg (norm_nonneg (beta • v0 - _))]
        apply (sq_eq_sq_iff_abs_eq_abs _ _).mp
        rw [one_mul, one_mul, sub_zero, zero_add] at hr
        exact hr
    · intro z
      have hr := h.residual 1 z
      rw [Finset.sum_range_succ, hlow, one_mul, one_mul, sub_zero] at hr
      rw [← abs_of_nonneg (norm_nonneg (beta • v0 - _)), ← sq_le_sq, hr]
      have : (0 : ℝ) ≤ ∑ k ∈ range m, (1 * a.s k - ∑ j ∈ range m, z j * R a hess k j) ^ 2 := Finset.sum_nonneg fun k _ => sq_nonneg _
      linarith
  | throw => rw [hy] at hx; exact absurd hx (by simp [Res.bind])
  | ub => rw [hy] at hx; exact absurd hx (by simp [Res.bind])

theorem Inv.update_ok {B : E →ₗ[ℝ] E} {beta : ℝ} {v0 : E} {m : Nat} {a : Arrays E} {hess : Nat → Nat → ℝ} {W : Nat → E}
    (h : Inv (fun v => B v) beta v0 m a hess W) (hB : Function.Injective B) (x : E) : ∃ x', Gmres.update a m x = .ok x' := by
  obtain ⟨y, hy⟩ := (backSubst_spec a.H a.s m).2 (h.diag hB)
  exact ⟨_, by rw [Gmres.update, hy, Res.bind_ok', addColumns a.V W y x m h.col]⟩

/-! ## All columns -/

theorem columns_spec (B : E → E) (beta : ℝ) (v0 : E) (n : Nat) (limit : ℝ) (fuel m : Nat) (a : Arrays E) (hess : Nat → Nat → ℝ)
    (W : Nat → E) (h : Inv B beta v0 m a hess W) (a' : Arrays E) (o : Option Nat)
    (hc : columns B n limit fuel m a = .ok (a', o)) :
    match o with
    | some i => m ≤ i ∧ i < m + fuel ∧ |a'.s (i + 1)| < limit ∧ ∃ hess' W', Inv B beta v0 (i + 1) a' hess' W'
    | none => ∃ hess' W', Inv B beta v0 (m + fuel) a' hess' W' := by
  induction fuel generalizing m a hess W with
  | zero =>
    rw [columns] at hc
    cases hc
    exact ⟨hess, W, h⟩
  | succ fuel ih =>
    rw [columns] at hc
    have hV : a.V m ≠ none := by
      intro hn
      rw [column, hn] at hc
      exact absurd hc (by simp [Res.bind])
    have hn : m + 1 < n := by
      by_contra hn
      rw [(column_spec B beta v0 n m a hess W h hV).1 (by omega)] at hc
      exact absurd hc (by simp [Res.bind])
    obtain ⟨a1, hess1, W1, h1, h2⟩ := (column_spec B beta v0 n m a hess W h hV).2 hn
    rw [h1, Res.bind_ok'] at hc
    split at hc
    · rename_i hlt
      cases hc
      exact ⟨le_rfl, by omega, hlt, hess1, W1, h2⟩
    · have := ih (m + 1) a1 hess1 W1 h2 hc
      cases o with
      | some i => exact ⟨by omega, by omega, this.2.2⟩
      | none => rw [show m + (fuel + 1) = m + 1 + fuel by omega]; exact this

theorem columns_ok (B : E → E) (beta : ℝ) (v0 : E) (n : Nat) (limit : ℝ) (hl : 0 < limit) (fuel m : Nat) (a : Arrays E)
    (hess : Nat → Nat → ℝ) (W : Nat → E) (h : Inv B beta v0 m a hess W) (hV : a.V m ≠ none) (hn : fuel = 0 ∨ m + fuel < n) :
    ∃ a' o, columns B n limit fuel m a = .ok (a', o) := by
  induction fuel generalizing m a hess W with
  | zero => exact ⟨a, none, rfl⟩
  | succ fuel ih =>
    obtain ⟨a1, hess1, W1, h1, h2⟩ := (column_spec B beta v0 n m a hess W h hV).2 (by omega)
    rw [columns, h1, Res.bind_ok']
    split
    · exact ⟨a1, some m, rfl⟩
    · rename_i hlt
      refine ih (m + 1) a1 hess1 W1 h2 ?_ (by omega)
      intro hnone
      rcases h2.last with h' | h'
      · rw [h'.1] at hnone; exact absurd hnone (by simp)
      · apply hlt
        rw [h'.2.2.2, abs_zero]; exact hl

theorem Inv.start (B : E → E) (a : Arrays E) (r : E) (hr : ‖r‖ ≠ 0) :
    Inv B ‖r‖ (‖r‖⁻¹ • r) 0 (startArrays a r) (fun _ _ => 0) (fun _ => ‖r‖⁻¹ • r) := by
  refine ⟨rfl, fun k hk => absurd hk (by omega), Or.inl ⟨?_, ?_⟩, fun k l hk => absurd hk (by omega), fun k hk => absurd hk (by omega),
    fun k hk => absurd hk (by omega), fun k hk => absurd hk (by omega), fun k l hk => absurd hk (by omega),
    fun k hk => absurd hk (by omega), fun k hk => absurd hk (by omega), fun k hk => absurd hk (by omega), rfl⟩
  · simp only [startArrays, if_true, if_neg hr]
  · rw [inner_smul_left, inner_smul_right, real_inner_self_eq_norm_sq]
    simp only [conj_trivial]
    field_simp

/-! ## Krylov spaces -/

/-- the space of the first `m` Krylov vectors -/
def krylov (B : E →ₗ[ℝ] E) (r : E) (m : Nat) : Submodule ℝ E := Submodule.span ℝ (Set.range fun k : Fin m => (B ^ (k : Nat)) r)

theorem krylov_mono (B : E →ₗ[ℝ] E) (r : E) {m m' : Nat} (h : m ≤ m') : krylov B r m ≤ krylov B r m' := by
  refine Submodule.span_mono ?_
  rintro _ ⟨k, rfl⟩
  exact ⟨⟨k, by omega⟩, rfl⟩

theorem krylov_map (B : E →ₗ[ℝ] E) (r : E) (m : Nat) (v : E) (hv : v ∈ krylov B r m) : B v ∈ krylov B r (m + 1) := by
  refine Submodule.span_induction ?_ ?_ ?_ ?_ hv
  · rintro _ ⟨k, rfl⟩
    refine Submodule.subset_span ⟨⟨k + 1, by omega⟩, ?_⟩
    simp [pow_succ']
  · rw [map_zero]; exact Submodule.zero_mem _
  · intro u w _ _ hu hw; rw [map_add]; exact Submodule.add_mem _ hu hw
  · intro t u _ hu; rw [map_smul]; exact Submodule.smul_mem _ _ hu

theorem Inv.vectors {B : E →ₗ[ℝ] E} {r : E} {m : Nat} {a : Arrays E} {hess : Nat → Nat → ℝ} {W : Nat → E}
    (h : Inv (fun v => B v) ‖r‖ (‖r‖⁻¹ • r) m a hess W) : ∀ k < m, W k ∈ krylov B r (k + 1) := by
  intro k
  induction k using Nat.strong_induction_on with
  | _ k ih =>
    intro hk
    rcases Nat.eq_zero_or_pos k with h0 | h0
    · subst h0
      rw [h.first]
      refine Submodule.smul_mem _ _ (Submodule.subset_span ⟨⟨0, by omega⟩, ?_⟩)
      simp
    · obtain ⟨j, rfl⟩ : ∃ j, k = j + 1 := ⟨k - 1, by omega⟩
      have hnz : hess (j + 1) j ≠ 0 := h.nz j (by omega) (by rw [h.col (j + 1) hk]; simp)
      have ha := h.arnoldi j (by omega)
      have hsub : ∑ l ∈ range (m + 1), hess l j • W l = ∑ l ∈ range (j + 2), hess l j • W l := by
        refine (Finset.sum_subset (fun l hl => Finset.mem_range.mpr (by have := Finset.mem_range.mp hl; omega)) ?_).symm
        intro l _ hl
        rw [h.sub j l (by omega) (by by_contra hc; exact hl (Finset.mem_range.mpr (by omega))), zero_smul]
      rw [hsub, Finset.sum_range_succ] at ha
      have hW : W (j + 1) = (hess (j + 1) j)⁻¹ • (B (W j) - ∑ l ∈ range (j + 1), hess l j • W l) := by
        rw [ha, add_sub_cancel_left, smul_smul, inv_mul_cancel₀ hnz, one_smul]
      rw [hW]
      refine Submodule.smul_mem _ _ (Submodule.sub_mem _ (krylov_map B r _ _ (ih j (by omega) (by omega))) ?_)
      refine Submodule.sum_mem _ fun l hl => Submodule.smul_mem _ _ ?_
      have := Finset.mem_range.mp hl
      exact krylov_mono B r (by omega) (ih l (by omega) (by omega))

theorem Inv.powers {B : E →ₗ[ℝ] E} {r : E} (hr : ‖r‖ ≠ 0) {m : Nat} {a : Arrays E} {hess : Nat → Nat → ℝ} {W : Nat → E}
    (h : Inv (fun v => B v) ‖r‖ (‖r‖⁻¹ • r) m a hess W) :
    ∀ k < m, ∃ y : Nat → ℝ, (B ^ k) r = ∑ j ∈ range (k + 1), y j • W j := by
  intro k
  induction k with
  | zero =>
    intro _
    refine ⟨fun _ => ‖r‖, ?_⟩
    rw [Finset.sum_range_succ, Finset.sum_range_zero, zero_add, h.first, smul_smul, mul_inv_cancel₀ hr, one_smul]
    simp
  | succ k ih =>
    intro hk
    obtain ⟨y, hy⟩ := ih (by omega)
    refine ⟨fun l => ∑ j ∈ range (k + 1), y j * hess l j, ?_⟩
    have hpow : (B ^ (k + 1)) r = B ((B ^ k) r) := by rw [pow_succ']; rfl
    rw [hpow, hy, map_sum]
    simp only [Finset.sum_smul]
    rw [Finset.sum_comm]
    refine Finset.sum_congr rfl fun j hj => ?_
    have hj' := Finset.mem_range.mp hj
    rw [map_smul, h.arnoldi j (by omega), Finset.smul_sum]
    refine (Finset.sum_subset (s₁ := range (k + 1 + 1)) (fun l hl => Finset.mem_range.mpr (by
      have := Finset.mem_range.mp hl; omega)) ?_).symm.trans ?_
    · intro l _ hl
      rw [h.sub j l (by omega) (by by_contra hc; exact hl (Finset.mem_range.mpr (by omega))), zero_smul, smul_zero]
    · exact Finset.sum_congr rfl fun l _ => by rw [smul_smul]

theorem Inv.krylov_sum {B : E →ₗ[ℝ] E} {r : E} (hr : ‖r‖ ≠ 0) {m : Nat} {a : Arrays E} {hess : Nat → Nat → ℝ} {W : Nat → E}
    (h : Inv (fun v => B v) ‖r‖ (‖r‖⁻¹ • r) m a hess W) (z : E) (hz : z ∈ krylov B r m) :
    ∃ y : Nat → ℝ, z = ∑ j ∈ range m, y j • W j := by
  refine Submodule.span_induction ?_ ?_ ?_ ?_ hz
  · rintro _ ⟨k, rfl⟩
    obtain ⟨y, hy⟩ := h.powers hr k k.2
    refine ⟨fun j => if j < (k : Nat) + 1 then y j else 0, ?_⟩
    show (B ^ (k : Nat)) r = _
    rw [hy]
    refine (Finset.sum_congr rfl fun j hj => ?_).trans (Finset.sum_subset (fun l hl => Finset.mem_range.mpr (by
      have := Finset.mem_range.mp hl; have := k.2; omega)) ?_)
    · simp only [if_pos (Finset.mem_range.mp hj)]
    · intro l _ hl
      simp only [if_neg (fun hc => hl (Finset.mem_range.mpr hc)), zero_smul]
  · exact ⟨fun _ => 0, by simp⟩
  · rintro u w _ _ ⟨y, rfl⟩ ⟨y', rfl⟩
    exact ⟨fun j => y j + y' j, by simp only [add_smul, Finset.sum_add_distrib]⟩
  · rintro t u _ ⟨y, rfl⟩
    exact ⟨fun j => t * y j, by simp only [Finset.smul_sum, smul_smul]⟩

/-- one cycle: the update minimises the residual over the Krylov space -/
theorem Inv.minimal {B : E →ₗ[ℝ] E} {r : E} (hr : ‖r‖ ≠ 0) {m : Nat} {a : Arrays E} {hess : Nat → Nat → ℝ} {W : Nat → E}
    (h : Inv (fun v => B v) ‖r‖ (‖r‖⁻¹ • r) m a hess W) (x x' : E) (hx : Gmres.update a m x = .ok x') :
    x' - x ∈ krylov B r m ∧ ‖r - B (x' - x)‖ = |a.s m| ∧ ∀ z ∈ krylov B r m, |a.s m| ≤ ‖r - B z‖ := by
  have hbr : ‖r‖ • (‖r‖⁻¹ • r) = r := by rw [smul_smul, mul_inv_cancel₀ hr, one_smul]
  obtain ⟨y, h1, h2, h3⟩ := h.update x x' hx
  rw [hbr] at h2
  refine ⟨?_, h2, ?_⟩
  · rw [h1, add_sub_cancel_left]
    refine Submodule.sum_mem _ fun j hj => Submodule.smul_mem _ _ ?_
    have := Finset.mem_range.mp hj
    exact krylov_mono B r (by omega) (h.vectors j this)
  · intro z hz
    obtain ⟨y', rfl⟩ := h.krylov_sum hr z hz
    have := h3 y'
    rwa [hbr] at this

end Gmres

end NuTo
