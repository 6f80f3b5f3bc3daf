import Verif.Model.TetrahedronTable
import Verif.Lemmas.TriangleRule
import Mathlib.Algebra.BigOperators.Group.List.Basic

/-!
The moments of the tabulated tetrahedron rules, by exact integer arithmetic.
-/
namespace NuTo.SimplexRule

/-- moment of a table, in units of `10^-(26 + 19 (i + j + k))` -/
def mom3 (r : List (ℤ × ℤ × ℤ × ℤ)) (i j k : ℕ) : ℤ :=
  r.foldr (fun p s => p.2.2.2 * (p.1 ^ i * p.2.1 ^ j * p.2.2.1 ^ k) + s) 0

/-- the moment `s` is within `2 / 10^14` of `i! j! k! / (i + j + k + 3)!` -/
def close3 (s : ℤ) (i j k : ℕ) : Prop :=
  ((((i + j + k + 3).factorial : ℕ) : ℤ) * s -
      ((i.factorial * j.factorial * k.factorial * 10 ^ (26 + 19 * (i + j + k)) : ℕ) : ℤ)).natAbs * 10 ^ 14 ≤
    2 * ((i + j + k + 3).factorial * 10 ^ (26 + 19 * (i + j + k)))

def ok3 (r : List (ℤ × ℤ × ℤ × ℤ)) (i j k : ℕ) : Bool :=
  Nat.ble (((((i + j + k + 3).factorial : ℕ) : ℤ) * mom3 r i j k -
      ((i.factorial * j.factorial * k.factorial * 10 ^ (26 + 19 * (i + j + k)) : ℕ) : ℤ)).natAbs * 10 ^ 14)
    (2 * ((i + j + k + 3).factorial * 10 ^ (26 + 19 * (i + j + k))))

/-- all moments up to degree `n` are close -/
def Close (r : List (ℤ × ℤ × ℤ × ℤ)) (n : ℕ) : Prop :=
  ∀ i j k, i + j + k ≤ n → close3 (mom3 r i j k) i j k

/-! Tables are invariant under permutations of the coordinates, so only `j ≤ i`, `k ≤ j` have to be looked at. -/

def swap12 (p : ℤ × ℤ × ℤ × ℤ) : ℤ × ℤ × ℤ × ℤ := (p.2.1, p.1, p.2.2.1, p.2.2.2)
def swap23 (p : ℤ × ℤ × ℤ × ℤ) : ℤ × ℤ × ℤ × ℤ := (p.1, p.2.2.1, p.2.1, p.2.2.2)

theorem mom3_eq_sum (r : List (ℤ × ℤ × ℤ × ℤ)) (i j k : ℕ) :
    mom3 r i j k = (r.map fun p => p.2.2.2 * (p.1 ^ i * p.2.1 ^ j * p.2.2.1 ^ k)).sum := by
  induction r with
  | nil => rfl
  | cons p r ih => rw [List.map_cons, List.sum_cons, ← ih]; rfl

theorem mom3_perm {r r' : List (ℤ × ℤ × ℤ × ℤ)} (h : r.Perm r') (i j k : ℕ) : mom3 r i j k = mom3 r' i j k := by
  rw [mom3_eq_sum, mom3_eq_sum]
  exact (h.map _).sum_eq

theorem mom3_swap12 {r : List (ℤ × ℤ × ℤ × ℤ)} (h : (r.map swap12).Perm r) (i j k : ℕ) :
    mom3 r i j k = mom3 r j i k := by
  rw [← mom3_perm h i j k, mom3_eq_sum, mom3_eq_sum, List.map_map]
  congr 1
  refine List.map_congr_left fun p _ => ?_
  simp only [Function.comp, swap12]
  ring

theorem mom3_swap23 {r : List (ℤ × ℤ × ℤ × ℤ)} (h : (r.map swap23).Perm r) (i j k : ℕ) :
    mom3 r i j k = mom3 r i k j := by
  rw [← mom3_perm h i j k, mom3_eq_sum, mom3_eq_sum, List.map_map]
  congr 1
  refine List.map_congr_left fun p _ => ?_
  simp only [Function.comp, swap23]
  ring

theorem close3_swap12 (s : ℤ) (i j k : ℕ) : close3 s i j k ↔ close3 s j i k := by
  unfold close3
  rw [Nat.mul_comm i.factorial j.factorial, Nat.add_comm i j]

theorem close3_swap23 (s : ℤ) (i j k : ℕ) : close3 s i j k ↔ close3 s i k j := by
  unfold close3
  rw [Nat.mul_right_comm i.factorial j.factorial k.factorial, Nat.add_right_comm i j k]

theorem close_of_ordered {r : List (ℤ × ℤ × ℤ × ℤ)} {n : ℕ} (h12 : (r.map swap12).Perm r)
    (h23 : (r.map swap23).Perm r)
    (h : ∀ i j k, j ≤ i → k ≤ j → i + j + k ≤ n → close3 (mom3 r i j k) i j k) : Close r n := by
  have s12 : ∀ i j k, close3 (mom3 r i j k) i j k → close3 (mom3 r j i k) j i k := by
    intro i j k hc
    rw [mom3_swap12 h12, close3_swap12]
    exact hc
  have s23 : ∀ i j k, close3 (mom3 r i j k) i j k → close3 (mom3 r i k j) i k j := by
    intro i j k hc
    rw [mom3_swap23 h23, close3_swap23]
    exact hc
  intro i j k hn
  rcases Nat.le_total j i with h1 | h1 <;> rcases Nat.le_total k j with h2 | h2 <;>
    rcases Nat.le_total k i with h3 | h3
  · exact h i j k h1 h2 hn
  · exact h i j k h1 h2 hn
  · exact s23 _ _ _ (h i k j h3 h2 (by omega))
  · exact s23 _ _ _ (s12 _ _ _ (h k i j h3 h1 (by omega)))
  · exact s12 _ _ _ (h j i k h1 h3 (by omega))
  · exact s12 _ _ _ (s23 _ _ _ (h j k i h2 h3 (by omega)))
  · exact s12 _ _ _ (s23 _ _ _ (s12 _ _ _ (h k j i h2 h1 (by omega))))
  · exact s12 _ _ _ (s23 _ _ _ (s12 _ _ _ (h k j i h2 h1 (by omega))))

/-! ### A check that is fast in the kernel: only natural numbers, coordinates not negative -/

/-- sum of the terms with a weight that is not negative -/
noncomputable def posSum (r : List (ℤ × ℤ × ℤ × ℤ)) (i j k : Nat) : Nat :=
  List.rec (motive := fun _ => Nat) 0 (fun p _ ih =>
    Int.rec (motive := fun _ => Nat)
      (fun w => Nat.add (Nat.mul (Nat.mul w (Nat.pow p.1.toNat i))
        (Nat.mul (Nat.pow p.2.1.toNat j) (Nat.pow p.2.2.1.toNat k))) ih)
      (fun _ => ih) p.2.2.2) r

/-- minus the sum of the terms with a negative weight -/
noncomputable def negSum (r : List (ℤ × ℤ × ℤ × ℤ)) (i j k : Nat) : Nat :=
  List.rec (motive := fun _ => Nat) 0 (fun p _ ih =>
    Int.rec (motive := fun _ => Nat)
      (fun _ => ih)
      (fun w => Nat.add (Nat.mul (Nat.mul (Nat.succ w) (Nat.pow p.1.toNat i))
        (Nat.mul (Nat.pow p.2.1.toNat j) (Nat.pow p.2.2.1.toNat k))) ih) p.2.2.2) r

noncomputable def fastOk (r : List (ℤ × ℤ × ℤ × ℤ)) (i j k : Nat) : Bool :=
  Nat.ble (((i + j + k + 3).factorial * posSum r i j k - ((i + j + k + 3).factorial * negSum r i j k +
      i.factorial * j.factorial * k.factorial * 10 ^ (26 + 19 * (i + j + k)))) * 10 ^ 14)
    (2 * ((i + j + k + 3).factorial * 10 ^ (26 + 19 * (i + j + k)))) &&
  Nat.ble ((((i + j + k + 3).factorial * negSum r i j k +
      i.factorial * j.factorial * k.factorial * 10 ^ (26 + 19 * (i + j + k))) -
      (i + j + k + 3).factorial * posSum r i j k) * 10 ^ 14)
    (2 * ((i + j + k + 3).factorial * 10 ^ (26 + 19 * (i + j + k))))

noncomputable def fastAll (r : List (ℤ × ℤ × ℤ × ℤ)) (n : Nat) : Bool :=
  (List.range (n + 1)).all fun i => (List.range (i + 1)).all fun j => (List.range (j + 1)).all fun k =>
    !(Nat.ble (i + j + k) n) || fastOk r i j k

/-- no coordinate is negative -/
def nonneg3 (r : List (ℤ × ℤ × ℤ × ℤ)) : Bool := r.all fun p => p.1 ≥ 0 && p.2.1 ≥ 0 && p.2.2.1 ≥ 0

theorem mom3_split {r : List (ℤ × ℤ × ℤ × ℤ)} (h : nonneg3 r = true) (i j k : ℕ) :
    mom3 r i j k = (posSum r i j k : ℤ) - negSum r i j k := by
  induction r with
  | nil => rfl
  | cons p r ih =>
    rw [nonneg3, List.all_cons, Bool.and_eq_true, Bool.and_eq_true, Bool.and_eq_true] at h
    obtain ⟨⟨⟨hx, hy⟩, hz⟩, hr⟩ := h
    have ih' := ih hr
    obtain ⟨x, y, z, w⟩ := p
    have hx : (0 : ℤ) ≤ x := by simpa using hx
    have hy : (0 : ℤ) ≤ y := by simpa using hy
    have hz : (0 : ℤ) ≤ z := by simpa using hz
    have e : mom3 ((x, y, z, w) :: r) i j k = w * (x ^ i * y ^ j * z ^ k) + mom3 r i j k := rfl
    rw [e, ih']
    have hx' := Int.toNat_of_nonneg hx
    have hy' := Int.toNat_of_nonneg hy
    have hz' := Int.toNat_of_nonneg hz
    cases w with
    | ofNat w =>
      have e1 : posSum ((x, y, z, Int.ofNat w) :: r) i j k =
          (w * x.toNat ^ i) * (y.toNat ^ j * z.toNat ^ k) + posSum r i j k := rfl
      have e2 : negSum ((x, y, z, Int.ofNat w) :: r) i j k = negSum r i j k := rfl
      rw [e1, e2]
      push_cast
      rw [hx', hy', hz', Int.ofNat_eq_natCast]
      ring
    | negSucc w =>
      have e1 : posSum ((x, y, z, Int.negSucc w) :: r) i j k = posSum r i j k := rfl
      have e2 : negSum ((x, y, z, Int.negSucc w) :: r) i j k =
          ((w + 1) * x.toNat ^ i) * (y.toNat ^ j * z.toNat ^ k) + negSum r i j k := rfl
      rw [e1, e2]
      push_cast
      rw [hx', hy', hz', Int.negSucc_eq]
      ring

theorem fastOk_spec {r : List (ℤ × ℤ × ℤ × ℤ)} (hr : nonneg3 r = true) {i j k : ℕ} (h : fastOk r i j k = true) :
    close3 (mom3 r i j k) i j k := by
  rw [fastOk, Bool.and_eq_true] at h
  obtain ⟨h1, h2⟩ := h
  have h1 := Nat.le_of_ble_eq_true h1
  have h2 := Nat.le_of_ble_eq_true h2
  unfold close3
  rw [mom3_split hr]
  generalize 2 * ((i + j + k + 3).factorial * 10 ^ (26 + 19 * (i + j + k))) = R at h1 h2 ⊢
  generalize i.factorial * j.factorial * k.factorial * 10 ^ (26 + 19 * (i + j + k)) = G at h1 h2 ⊢
  generalize (i + j + k + 3).factorial = f at h1 h2 ⊢
  generalize posSum r i j k = P at h1 h2 ⊢
  generalize negSum r i j k = Q at h1 h2 ⊢
  have e : (f : ℤ) * ((P : ℤ) - Q) - (G : ℤ) = ((f * P : ℕ) : ℤ) - ((f * Q + G : ℕ) : ℤ) := by push_cast; ring
  rw [e]
  generalize f * P = A at h1 h2 ⊢
  generalize f * Q + G = B at h1 h2 ⊢
  rcases Nat.le_total A B with h3 | h3
  · have : ((A : ℤ) - (B : ℤ)).natAbs = B - A := by omega
    rw [this]
    exact h2
  · have : ((A : ℤ) - (B : ℤ)).natAbs = A - B := by omega
    rw [this]
    exact h1

theorem fastAll_spec {r : List (ℤ × ℤ × ℤ × ℤ)} {n : ℕ} (h12 : (r.map swap12).Perm r)
    (h23 : (r.map swap23).Perm r) (hr : nonneg3 r = true) (h : fastAll r n = true) : Close r n := by
  refine close_of_ordered h12 h23 fun i j k hj hk hn => fastOk_spec hr ?_
  rw [fastAll, List.all_eq_true] at h
  have h1 := h i (List.mem_range.2 (by omega))
  rw [List.all_eq_true] at h1
  have h2 := h1 j (List.mem_range.2 (by omega))
  rw [List.all_eq_true] at h2
  have h3 := h2 k (List.mem_range.2 (by omega))
  rw [Nat.ble_eq_true_of_le hn] at h3
  simpa using h3

/-- the same for tables with a negative coordinate -/
def slowAll (r : List (ℤ × ℤ × ℤ × ℤ)) (n : Nat) : Bool :=
  (List.range (n + 1)).all fun i => (List.range (i + 1)).all fun j => (List.range (j + 1)).all fun k =>
    !(Nat.ble (i + j + k) n) || ok3 r i j k

theorem slowAll_spec {r : List (ℤ × ℤ × ℤ × ℤ)} {n : ℕ} (h12 : (r.map swap12).Perm r)
    (h23 : (r.map swap23).Perm r) (h : slowAll r n = true) : Close r n := by
  refine close_of_ordered h12 h23 fun i j k hj hk hn => ?_
  rw [slowAll, List.all_eq_true] at h
  have h1 := h i (List.mem_range.2 (by omega))
  rw [List.all_eq_true] at h1
  have h2 := h1 j (List.mem_range.2 (by omega))
  rw [List.all_eq_true] at h2
  have h3 := h2 k (List.mem_range.2 (by omega))
  rw [Nat.ble_eq_true_of_le hn] at h3
  have h4 : ok3 r i j k = true := by simpa using h3
  exact Nat.le_of_ble_eq_true h4

theorem Close.moment {r : List (ℤ × ℤ × ℤ × ℤ)} {n : ℕ} (h : Close r n) (i j k : ℕ) (hn : i + j + k ≤ n) :
    |(mom3 r i j k : ℝ) / (10 ^ (26 + 19 * (i + j + k)) : ℕ) -
      ((i.factorial * j.factorial * k.factorial : ℕ) : ℝ) / (i + j + k + 3).factorial| ≤ 2 / 10 ^ 14 := by
  have := close_of_natAbs _ _ _ _ 2 (10 ^ 14) (Nat.factorial_pos _) (by positivity) (by norm_num) (h i j k hn)
  refine this.trans (le_of_eq ?_)
  norm_num

theorem mom3_sum (r : List (ℤ × ℤ × ℤ × ℤ)) (i j k : ℕ) :
    (mom3 r i j k : ℝ) / (10 ^ (26 + 19 * (i + j + k)) : ℕ) =
      ∑ a ∈ Finset.range r.length, ((r.getD a 0).2.2.2 : ℝ) / 10 ^ 26 *
        ((((r.getD a 0).1 : ℝ) / 10 ^ 19) ^ i * (((r.getD a 0).2.1 : ℝ) / 10 ^ 19) ^ j *
          (((r.getD a 0).2.2.1 : ℝ) / 10 ^ 19) ^ k) := by
  induction r with
  | nil => simp [mom3]
  | cons p r ih =>
    have e : mom3 (p :: r) i j k = p.2.2.2 * (p.1 ^ i * p.2.1 ^ j * p.2.2.1 ^ k) + mom3 r i j k := rfl
    rw [e, List.length_cons, Finset.sum_range_succ']
    simp only [List.getD_cons_succ, List.getD_cons_zero]
    rw [← ih]
    push_cast
    rw [pow_add, pow_mul, pow_add, pow_add, div_pow, div_pow, div_pow]
    field_simp
    ring

theorem tetrahedron_check_0 : Close tetrahedron0 1 :=
  fastAll_spec (by decide +kernel) (by decide +kernel) (by decide +kernel) (by decide +kernel)
theorem tetrahedron_check_1 : Close tetrahedron1 2 :=
  fastAll_spec (by decide +kernel) (by decide +kernel) (by decide +kernel) (by decide +kernel)
theorem tetrahedron_check_2 : Close tetrahedron2 3 :=
  fastAll_spec (by decide +kernel) (by decide +kernel) (by decide +kernel) (by decide +kernel)
theorem tetrahedron_check_3 : Close tetrahedron3 4 :=
  fastAll_spec (by decide +kernel) (by decide +kernel) (by decide +kernel) (by decide +kernel)
theorem tetrahedron_check_4 : Close tetrahedron4 5 :=
  fastAll_spec (by decide +kernel) (by decide +kernel) (by decide +kernel) (by decide +kernel)
theorem tetrahedron_check_5 : Close tetrahedron5 6 :=
  fastAll_spec (by decide +kernel) (by decide +kernel) (by decide +kernel) (by decide +kernel)
theorem tetrahedron_check_6 : Close tetrahedron6 7 :=
  fastAll_spec (by decide +kernel) (by decide +kernel) (by decide +kernel) (by decide +kernel)
theorem tetrahedron_check_7 : Close tetrahedron7 8 :=
  fastAll_spec (by decide +kernel) (by decide +kernel) (by decide +kernel) (by decide +kernel)
theorem tetrahedron_check_8 : Close tetrahedron8 9 :=
  slowAll_spec (by decide +kernel) (by decide +kernel) (by decide +kernel)
theorem tetrahedron_check_9 : Close tetrahedron9 11 :=
  fastAll_spec (by decide +kernel) (by decide +kernel) (by decide +kernel) (by decide +kernel)
theorem tetrahedron_check_10 : Close tetrahedron10 13 :=
  fastAll_spec (by decide +kernel) (by decide +kernel) (by decide +kernel) (by decide +kernel)
theorem tetrahedron_check_11 : Close tetrahedron11 15 :=
  fastAll_spec (by decide +kernel) (by decide +kernel) (by decide +kernel) (by decide +kernel)

end NuTo.SimplexRule
