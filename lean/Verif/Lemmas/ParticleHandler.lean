import Verif.Model.ParticleHandler
import Verif.Props.Serialize
import Verif.Props.Pvd
import Mathlib.Algebra.Order.Ring.Abs
import Mathlib.Algebra.Order.Field.Rat
import Mathlib.Tactic.Linarith
import Mathlib.Tactic.Ring
import Mathlib.Tactic.FieldSimp
import Mathlib.Tactic.FinCases
import Mathlib.Data.Fintype.Basic

/-! Lemmas about the list of particles. -/

namespace NuTo.Particles

open NuTo.Serialize NuTo.Visualize

variable {K S : Type}

/-! ### Matrices in storage order -/

theorem flatMap_range_length (n m : Nat) (f : Nat → Nat → K) :
    ((List.range m).flatMap fun j => (List.range n).map fun i => f i j).length = n * m := by
  induction m with
  | zero => simp
  | succ m ih => rw [List.range_succ, List.flatMap_append, List.length_append, ih]; simp; ring

theorem flatMap_range_get (n m : Nat) (f : Nat → Nat → K) (i j : Nat) (hi : i < n) (hj : j < m) :
    ((List.range m).flatMap fun j => (List.range n).map fun i => f i j)[i + j * n]? = some (f i j) := by
  induction m with
  | zero => omega
  | succ m ih =>
    rw [List.range_succ, List.flatMap_append]
    have hlen := flatMap_range_length n m f
    by_cases h : j < m
    · rw [List.getElem?_append_left, ih h]
      rw [hlen]
      calc i + j * n < n + j * n := by omega
        _ = n * (j + 1) := by ring
        _ ≤ n * m := Nat.mul_le_mul_left _ h
    · have : j = m := by omega
      subst this
      rw [List.getElem?_append_right (by rw [hlen, Nat.mul_comm]; omega), hlen]
      have e : i + j * n - n * j = i := by rw [Nat.mul_comm]; omega
      rw [e]
      simp [hi]

theorem data_length (m : Mat K) : m.data.length = m.rows * m.cols := flatMap_range_length _ _ _

theorem ofData_entry [Zero K] (m : Mat K) (i j : Nat) (hi : i < m.rows) (hj : j < m.cols) :
    (Mat.ofData m.rows m.cols m.data).entry i j = m.entry i j := by
  show (m.data[i + j * m.rows]?).getD 0 = _
  rw [Mat.data, flatMap_range_get _ _ _ i j hi hj]; rfl

/-! ### Random vectors -/

section create
variable [Field K] [LinearOrder K] [IsStrictOrderedRing K]

theorem uniform_spec (next : S → K × S) (hn : ∀ s, 0 ≤ (next s).1 ∧ (next s).1 ≤ 1) (a b : K) (s : S) (h : a ≤ b) :
    ∃ x s', uniform next a b s = .ok (x, s') ∧ a ≤ x ∧ x ≤ b := by
  refine ⟨a + (next s).1 * (b - a), (next s).2, if_pos h, ?_, ?_⟩
  · have := mul_nonneg (hn s).1 (sub_nonneg.2 h); linarith
  · have := mul_le_mul_of_nonneg_right (hn s).2 (sub_nonneg.2 h); linarith

theorem randomVector_spec (next : S → K × S) (hn : ∀ s, 0 ≤ (next s).1 ∧ (next s).1 ≤ 1) (a b : K) (s : S) (h : a ≤ b) :
    ∃ v s', randomVector next a b s = .ok (v, s') ∧ ∀ k, a ≤ v k ∧ v k ≤ b := by
  obtain ⟨x, s1, h1, hx⟩ := uniform_spec next hn a b s h
  obtain ⟨y, s2, h2, hy⟩ := uniform_spec next hn a b s1 h
  obtain ⟨z, s3, h3, hz⟩ := uniform_spec next hn a b s2 h
  refine ⟨![x, y, z], s3, ?_, ?_⟩
  · rw [randomVector, h1, Res.bind_ok', h2, Res.bind_ok', h3, Res.bind_ok']
  · intro k; fin_cases k
    · exact hx
    · exact hy
    · exact hz

theorem half_range (r : K) (h : 0 ≤ r) : -r / 2 ≤ r / 2 := by
  have h2 : (0 : K) < 2 := two_pos
  exact div_le_div_of_nonneg_right (by linarith) h2.le

theorem abs_of_half (r x : K) (h : -r / 2 ≤ x ∧ x ≤ r / 2) : |x| ≤ r / 2 :=
  abs_le.2 ⟨by rw [neg_div] at h; exact h.1, h.2⟩

theorem randomVectorIn_spec (next : S → K × S) (hn : ∀ s, 0 ≤ (next s).1 ∧ (next s).1 ≤ 1) (b : Mat K) (s : S)
    (hr : b.rows = 3) (hc : 2 ≤ b.cols) (h : ∀ k < 3, b.entry k 0 ≤ b.entry k 1) :
    ∃ v s', randomVectorIn next b s = .ok (v, s') ∧ ∀ k : Fin 3, b.entry k 0 ≤ v k ∧ v k ≤ b.entry k 1 := by
  have a0 : ∀ i < 3, b.at i 0 = .ok (b.entry i 0) := fun i hi => if_pos ⟨by omega, by omega⟩
  have a1 : ∀ i < 3, b.at i 1 = .ok (b.entry i 1) := fun i hi => if_pos ⟨by omega, by omega⟩
  obtain ⟨x, s1, h1, hx⟩ := uniform_spec next hn _ _ s (h 0 (by decide))
  obtain ⟨y, s2, h2, hy⟩ := uniform_spec next hn _ _ s1 (h 1 (by decide))
  obtain ⟨z, s3, h3, hz⟩ := uniform_spec next hn _ _ s2 (h 2 (by decide))
  refine ⟨![x, y, z], s3, ?_, ?_⟩
  · simp only [randomVectorIn]
    rw [if_pos hr, a0 0 (by decide), a1 0 (by decide), Res.bind_ok', Res.bind_ok', h1, Res.bind_ok',
      a0 1 (by decide), a1 1 (by decide), Res.bind_ok', Res.bind_ok', h2, Res.bind_ok',
      a0 2 (by decide), a1 2 (by decide), Res.bind_ok', Res.bind_ok', h3, Res.bind_ok']
  · intro k; fin_cases k
    · exact hx
    · exact hy
    · exact hz

/-! ### Loops that add one particle per step -/

omit [Field K] [LinearOrder K] [IsStrictOrderedRing K] in
/-- A loop that appends one particle per index -/
theorem foldlM_append (f : List (Particle K) × S → Nat → Res (List (Particle K) × S)) (P : Nat → Particle K → Prop) (n : Nat)
    (hf : ∀ l s i, i < n → ∃ p s', f (l, s) i = .ok (l ++ [p], s') ∧ P i p) (s : S) :
    ∃ l s', Res.foldlM f ([], s) (List.range n) = .ok (l, s') ∧ l.length = n ∧
      ∀ i, i < n → ∃ p, l[i]? = some p ∧ P i p := by
  have snoc : ∀ (st : List (Particle K) × S) (k : List Nat) (i : Nat),
      Res.foldlM f st (k ++ [i]) = (Res.foldlM f st k).bind fun r => f r i := by
    intro st k i
    induction k generalizing st with
    | nil =>
      simp only [List.nil_append, Res.foldlM_cons, Res.foldlM_nil, Res.bind_ok']
      cases f st i <;> rfl
    | cons a t ih =>
      simp only [List.cons_append, Res.foldlM_cons]
      cases f st a with
      | ok x => simp only [Res.bind_ok']; exact ih x
      | throw => rfl
      | ub => rfl
  have key : ∀ m ≤ n, ∃ l s', Res.foldlM f ([], s) (List.range m) = .ok (l, s') ∧ l.length = m ∧
      ∀ i, i < m → ∃ p, l[i]? = some p ∧ P i p := by
    intro m
    induction m with
    | zero => intro _; exact ⟨[], s, rfl, rfl, fun i hi => absurd hi (by omega)⟩
    | succ m ih =>
      intro hm
      obtain ⟨l, s', h1, h2, h3⟩ := ih (by omega)
      obtain ⟨p, s'', h4, h5⟩ := hf l s' m (by omega)
      refine ⟨l ++ [p], s'', ?_, by simp [h2], ?_⟩
      · rw [List.range_succ, snoc, h1, Res.bind_ok', h4]
      · intro i hi
        by_cases hlt : i < m
        · obtain ⟨q, hq, hp⟩ := h3 i hlt
          exact ⟨q, by rw [List.getElem?_append_left (by omega), hq], hp⟩
        · have : i = m := by omega
          subst this
          exact ⟨p, by rw [List.getElem?_append_right (by omega), h2]; simp, h5⟩
  exact key n le_rfl

end create

/-! ### The visualised grid -/

section use
variable [Field K] [LinearOrder K]

/-- The point of a particle -/
def pointOf (final : Bool) (p : Particle K) : Point K :=
  ⟨(p.position 0, p.position 1, p.position 2),
    [[if final then p.radius0 else p.radius], [p.velocity 0, p.velocity 1, p.velocity 2]]⟩

theorem visualizeParticle_spec (final : Bool) (pts : List (Point K)) (p : Particle K) :
    visualizeParticle final ⟨pts, [], ["Radius", "Velocity"], []⟩ p =
      .ok ⟨pts ++ [pointOf final p], [], ["Radius", "Velocity"], []⟩ := by
  have d0 : dataIndex ["Radius", "Velocity"] "Radius" = .ok 0 := by decide
  have d1 : dataIndex ["Radius", "Velocity"] "Velocity" = .ok 1 := by decide
  simp only [visualizeParticle, Grid.addPoint, to3D, Res.bind_ok', Grid.setPointData, d0, d1]
  simp [setData, pointOf, d1]

theorem grid_spec (h : Handler K S) (final : Bool) :
    h.grid final = .ok ⟨h.particles.map (pointOf final), [], ["Radius", "Velocity"], []⟩ := by
  have start : ((Grid.empty : Grid K).definePointData "Radius").definePointData "Velocity" =
      ⟨[], [], ["Radius", "Velocity"], []⟩ := by
    simp [Grid.definePointData, Grid.empty]
  rw [Handler.grid, start]
  have key : ∀ (ps : List (Particle K)) (pts : List (Point K)),
      Res.foldlM (visualizeParticle final) ⟨pts, [], ["Radius", "Velocity"], []⟩ ps =
        .ok ⟨pts ++ ps.map (pointOf final), [], ["Radius", "Velocity"], []⟩ := by
    intro ps
    induction ps with
    | nil => intro pts; simp
    | cons p t ih => intro pts; rw [Res.foldlM_cons, visualizeParticle_spec, Res.bind_ok', ih]; simp
  have := key h.particles []
  rwa [List.nil_append] at this

theorem vtuFile_ne_pvd (m n : List Char) (k : Nat) : vtuFile m k ≠ pvdName n := vtu_ne_pvd _ _ _

end use

end NuTo.Particles
