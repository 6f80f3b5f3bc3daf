/-
C60: exactness of the Gauss and Lobatto rules.
-/
import Verif.Props.Legendre
import Verif.Lemmas.Quadrature
import Verif.Model.Lobatto
import Mathlib.Analysis.Real.Sqrt
import Mathlib.Tactic.Positivity

namespace NuTo

open Polynomial LegendrePoly

/-- The value of a quadrature rule. -/
noncomputable def Quadrature.apply (rule : List ℝ × List ℝ) (f : ℝ[X]) : ℝ :=
  (List.zipWith (fun w x => w * f.eval x) rule.1 rule.2).sum

theorem zip_sum (pts : List ℝ) (hnd : pts.Nodup) (W : ℝ → ℝ) (f : ℝ[X]) :
    Quadrature.apply (pts.map W, pts) f = ∑ x ∈ pts.toFinset, W x * f.eval x := by
  rw [Quadrature.apply, List.sum_toFinset _ hnd]
  congr 1
  rw [List.zipWith_map_left]
  apply List.ext_getElem
  · simp
  · intro i h1 h2
    simp

/-- The weights of the Gauss rule. -/
theorem gauss_weight (n : Nat) (S : Finset ℝ) (hcard : S.card = n)
    (hroot : ∀ x ∈ S, (P ℝ n).eval x = 0) (a : ℝ) (ha : a ∈ S) :
    int (Lagrange.basis S id a) = 2 / (1 - a * a) /
      ((derivative (P ℝ n)).eval a * (derivative (P ℝ n)).eval a) := by
  have hn : 0 < n := by rw [← hcard]; exact Finset.card_pos.2 ⟨a, ha⟩
  have hP0 : P ℝ n ≠ 0 := by
    intro h
    have := natDegree_P (K := ℝ) n
    rw [h, natDegree_zero] at this
    omega
  obtain ⟨g, hg⟩ := dvd_iff_isRoot.2 (hroot a ha)
  have hd : derivative (P ℝ n) = g + (X - C a) * derivative g := by
    rw [hg, derivative_mul, derivative_sub, derivative_X, derivative_C, sub_zero, one_mul]
  have hga : g.eval a = (derivative (P ℝ n)).eval a := by rw [hd]; simp
  have hgx : ∀ x ∈ S, x ≠ a → g.eval x = 0 := by
    intro x hx hxa
    have h := hroot x hx
    rw [hg, eval_mul, eval_sub, eval_X, eval_C] at h
    rcases mul_eq_zero.1 h with h | h
    · exact absurd (sub_eq_zero.1 h) hxa
    · exact h
  have h1 : (1 - a) * g.eval 1 = 1 := by
    have := eval_one (K := ℝ) n
    rw [hg] at this
    simpa using this
  have h2 : (-1 - a) * g.eval (-1) = (-1) ^ n := by
    have := eval_neg_one (K := ℝ) n
    rw [hg] at this
    simpa using this
  have hparts : derivative ((X - C a) * (g * g)) = 2 * g * derivative (P ℝ n) - g * g := by
    rw [hd]
    simp only [derivative_mul, derivative_sub, derivative_X, derivative_C]
    ring
  have hint := int_derivative ((X - C a) * (g * g))
  have hdegg : g.natDegree + 1 = n := by
    have h := natDegree_P (K := ℝ) n
    have hg0 : g ≠ 0 := by rintro rfl; rw [mul_zero] at hg; exact hP0 hg
    rw [hg, natDegree_mul (X_sub_C_ne_zero a) hg0, natDegree_X_sub_C] at h
    omega
  have hdeg : (2 * g * derivative (P ℝ n) - g * g).natDegree < S.card + n := by
    rw [← hparts, hcard]
    refine Nat.lt_of_le_of_lt (natDegree_derivative_le _) ?_
    have h3 : ((X - C a) * (g * g)).natDegree ≤ 1 + (g.natDegree + g.natDegree) :=
      (natDegree_mul_le).trans (Nat.add_le_add (natDegree_X_sub_C_le a) natDegree_mul_le)
    omega
  have hquad := interpolatory S (P ℝ n) n (by rw [natDegree_P, hcard]) hroot hP0
    (fun q hq => orthogonal n q hq) _ hdeg
  rw [← hparts, hint, hparts] at hquad
  rw [Finset.sum_eq_single_of_mem a ha] at hquad
  · simp only [eval_mul, eval_sub, eval_X, eval_C, eval_ofNat, hga] at hquad
    set D := (derivative (P ℝ n)).eval a
    set lam := int (Lagrange.basis S id a)
    have ha1 : (1 - a) ≠ 0 := left_ne_zero_of_mul_eq_one h1
    have ha2 : (1 + a) ≠ 0 := by
      intro h
      have : (-1 - a) = 0 := by linarith
      rw [this, zero_mul] at h2
      exact pow_ne_zero n (by norm_num) h2.symm
    have hsq : ((-1 : ℝ) ^ n) * (-1) ^ n = 1 := by rw [← mul_pow]; norm_num
    have hR : lam * (D * D) = 2 / (1 - a * a) := by
      have e1 : g.eval 1 = 1 / (1 - a) := by rw [eq_div_iff ha1]; linarith
      have e2 : (-1 - a) * (g.eval (-1) * g.eval (-1)) = -1 / (1 + a) := by
        rw [eq_div_iff ha2]
        have : ((-1 - a) * g.eval (-1)) * ((-1 - a) * g.eval (-1)) = 1 := by rw [h2, hsq]
        linarith
      have e3 : lam * (D * D) = (1 - a) * (g.eval 1 * g.eval 1) -
          (-1 - a) * (g.eval (-1) * g.eval (-1)) := by rw [hquad]; ring
      rw [e3, e2, e1]
      have : (1 - a * a) = (1 - a) * (1 + a) := by ring
      rw [this]
      field_simp
      ring
    have h1a : (1 - a * a) ≠ 0 := by
      have : (1 - a * a) = (1 - a) * (1 + a) := by ring
      rw [this]
      exact mul_ne_zero ha1 ha2
    have hD : D * D ≠ 0 := by
      intro h
      rw [h, mul_zero] at hR
      exact div_ne_zero two_ne_zero h1a hR.symm
    rw [eq_div_iff hD, hR]
  · intro x hx hxa
    rw [eval_sub, eval_mul, eval_mul, eval_mul, hgx x hx hxa]
    ring

/-- C60, Gauss: if the root finder returns the `n` roots of the Legendre polynomial, the rule
with these points integrates all polynomials of degree up to `2 n - 1` exactly. -/
theorem C60_gauss (n : Nat) (pts : List ℝ) (hn : 0 < n) (hlen : pts.length = n)
    (hnd : pts.Nodup) (hroot : ∀ x ∈ pts, (P ℝ n).eval x = 0) :
    ∃ w, Quadrature.gauss (n : Int) pts = .ok (w, pts) ∧ w.length = n ∧
      ∀ f : ℝ[X], f.natDegree < 2 * n →
        Quadrature.apply (w, pts) f = ∫ x in (-1 : ℝ)..1, f.eval x := by
  refine ⟨pts.map fun x => 2 / (1 - x * x) /
    ((derivative (P ℝ n)).eval x * (derivative (P ℝ n)).eval x), ?_, by rw [List.length_map, hlen],
    fun f hf => ?_⟩
  · rw [Quadrature.gauss, if_neg (by omega), Res.mapM_ok _ (fun i => 2 / (1 - pts.getD i 0 *
      pts.getD i 0) / ((derivative (P ℝ n)).eval (pts.getD i 0) *
      (derivative (P ℝ n)).eval (pts.getD i 0)))]
    · rw [Res.bind_ok, Res.pure_eq]
      congr 2
      apply List.ext_getElem
      · simp [hlen]
      · intro i h1 h2
        have hi : i < pts.length := by simpa using h2
        simp [hi]
    · intro i hi
      have hi' : i < pts.length := by rw [hlen]; simpa using hi
      have hC := C32_derivative_partial (K := ℝ) n 1 pts[i] (Or.inl (by norm_num))
      rw [Function.iterate_one] at hC
      rw [List.getElem?_eq_getElem hi']
      simp only [Nat.cast_one] at hC
      simp only [hC, Res.bind_ok, Res.pure_eq]
      simp [hi']
  · have hcard : pts.toFinset.card = n := by rw [List.toFinset_card_of_nodup hnd, hlen]
    have hroot' : ∀ x ∈ pts.toFinset, (P ℝ n).eval x = 0 := fun x hx =>
      hroot x (List.mem_toFinset.1 hx)
    have hP0 : P ℝ n ≠ 0 := by
      intro h
      have := natDegree_P (K := ℝ) n
      rw [h, natDegree_zero] at this
      omega
    rw [zip_sum pts hnd]
    have h := interpolatory pts.toFinset (P ℝ n) n (by rw [natDegree_P, hcard]) hroot' hP0
      (fun q hq => orthogonal n q hq) f (by rw [hcard]; omega)
    rw [int] at h
    rw [h]
    exact Finset.sum_congr rfl fun x hx => by rw [gauss_weight n _ hcard hroot' x hx]

/-! ### Lobatto -/

/-- The node polynomial of the Lobatto rule. -/
noncomputable def lobattoPoly (n : Nat) : ℝ[X] := (X ^ 2 - 1) * derivative (P ℝ n)

theorem lobattoPoly_derivative (n : Nat) :
    derivative (lobattoPoly n) = C ((n : ℝ) * (n + 1)) * P ℝ n := by
  have h := ode (K := ℝ) n
  rw [lobattoPoly, derivative_mul, derivative_sub, derivative_X_pow, derivative_one, sub_zero]
  simp only [Nat.cast_ofNat, map_ofNat] at *
  rw [show (2 : Nat) - 1 = 1 from rfl, pow_one]
  linear_combination -h

theorem natDegree_dP (n : Nat) : (derivative (P ℝ n)).natDegree = n - 1 := by
  rw [natDegree_derivative, natDegree_P]

theorem natDegree_lobattoPoly (n : Nat) (hn : 0 < n) : (lobattoPoly n).natDegree = n + 1 := by
  have h0 : derivative (P ℝ n) ≠ 0 := by
    intro h
    have h1 := deriv_one (K := ℝ) n
    rw [h, eval_zero] at h1
    have : (0 : ℝ) < n := by exact_mod_cast hn
    have : (0 : ℝ) < (n : ℝ) * (n + 1) / 2 := by positivity
    linarith
  have hX : (X ^ 2 - 1 : ℝ[X]).natDegree = 2 := by compute_degree!
  have hX0 : (X ^ 2 - 1 : ℝ[X]) ≠ 0 := by intro h; rw [h, natDegree_zero] at hX; omega
  rw [lobattoPoly, natDegree_mul hX0 h0, hX, natDegree_dP]
  omega

/-- Every polynomial has an antiderivative. -/
theorem exists_antiderivative (q : ℝ[X]) :
    ∃ r : ℝ[X], derivative r = q ∧ r.natDegree ≤ q.natDegree + 1 := by
  refine ⟨∑ i ∈ Finset.range (q.natDegree + 1), C (q.coeff i / (i + 1)) * X ^ (i + 1), ?_, ?_⟩
  · rw [derivative_sum]
    conv_rhs => rw [q.as_sum_range_C_mul_X_pow]
    refine Finset.sum_congr rfl fun i _ => ?_
    rw [derivative_C_mul, derivative_X_pow, show i + 1 - 1 = i from rfl, ← mul_assoc, ← C_mul]
    have : ((i : ℝ) + 1) ≠ 0 := by positivity
    congr 2
    push_cast
    field_simp
  · refine natDegree_sum_le_of_forall_le _ _ fun i hi => ?_
    refine (natDegree_C_mul_X_pow_le _ _).trans ?_
    have := Finset.mem_range.1 hi
    omega

theorem lobatto_orthogonal (n : Nat) (q : ℝ[X]) (hq : q.natDegree < n - 1) :
    int (lobattoPoly n * q) = 0 := by
  obtain ⟨r, hr, hdeg⟩ := exists_antiderivative q
  have h := int_derivative (lobattoPoly n * r)
  rw [derivative_mul, hr, int_add, lobattoPoly_derivative, mul_assoc, int_C_mul,
    orthogonal n r (by omega)] at h
  simp only [lobattoPoly, eval_mul, eval_sub, eval_pow, eval_X, Polynomial.eval_one] at h
  rw [lobattoPoly]
  linarith

theorem lobatto_weight (n : Nat) (hn : 0 < n) (S : Finset ℝ) (hcard : S.card = n + 1)
    (hroot : ∀ x ∈ S, (lobattoPoly n).eval x = 0) (h1S : (1 : ℝ) ∈ S) (h2S : (-1 : ℝ) ∈ S) :
    int (Lagrange.basis S id 1) = 2 / ((n : ℝ) * (n + 1)) ∧
    int (Lagrange.basis S id (-1)) = 2 / ((n : ℝ) * (n + 1)) ∧
    ∀ a ∈ S, (derivative (P ℝ n)).eval a = 0 →
      int (Lagrange.basis S id a) =
        2 / ((n : ℝ) * (n + 1)) / ((P ℝ n).eval a * (P ℝ n).eval a) := by
  have hnpos : (0 : ℝ) < n := by exact_mod_cast hn
  have hN : (0 : ℝ) < (n : ℝ) * (n + 1) := by positivity
  have hW0 : lobattoPoly n ≠ 0 := by
    intro h
    have := natDegree_lobattoPoly n hn
    rw [h, natDegree_zero] at this
    omega
  have hquad := interpolatory S (lobattoPoly n) (n - 1)
    (by rw [natDegree_lobattoPoly n hn, hcard]) hroot hW0
    (fun q hq => lobatto_orthogonal n q hq)
  have hP1 := eval_one (K := ℝ) n
  have hP2 := eval_neg_one (K := ℝ) n
  have hD1 := deriv_one (K := ℝ) n
  have hD2 := deriv_neg_one (K := ℝ) n
  have hdP := natDegree_dP n
  have hintP : int (P ℝ n) = 0 := by
    have := orthogonal n 1 (by rw [natDegree_one]; exact hn)
    rwa [mul_one] at this
  have hin : ∀ x ∈ S, x ≠ 1 → x ≠ -1 → (derivative (P ℝ n)).eval x = 0 := by
    intro x hx h1 h2
    have h := hroot x hx
    rw [lobattoPoly, eval_mul] at h
    rcases mul_eq_zero.1 h with h | h
    · exfalso
      simp only [eval_sub, eval_pow, eval_X, Polynomial.eval_one] at h
      have : (x - 1) * (x + 1) = 0 := by linarith [h, sq x]
      rcases mul_eq_zero.1 this with h | h
      · exact h1 (by linarith)
      · exact h2 (by linarith)
    · exact h
  have hsq : ((-1 : ℝ) ^ n) * (-1) ^ n = 1 := by rw [← mul_pow]; norm_num
  have hw1 : int (Lagrange.basis S id 1) = 2 / ((n : ℝ) * (n + 1)) := by
    have hint := int_derivative ((1 + X) * P ℝ n)
    rw [derivative_mul, derivative_add, derivative_one, derivative_X, zero_add, one_mul, int_add,
      hintP] at hint
    have hdeg : ((1 + X) * derivative (P ℝ n)).natDegree < S.card + (n - 1) := by
      have h1 : (1 + X : ℝ[X]).natDegree ≤ 1 := by compute_degree
      have h2 : ((1 + X) * derivative (P ℝ n)).natDegree ≤ 1 + (n - 1) :=
        natDegree_mul_le.trans (Nat.add_le_add h1 hdP.le)
      omega
    have h := hquad _ hdeg
    rw [Finset.sum_eq_single_of_mem 1 h1S] at h
    · simp only [eval_mul, eval_add, Polynomial.eval_one, eval_X, hD1, hP1, hP2] at h hint
      rw [eq_div_iff hN.ne']
      linarith
    · intro x hx hx1
      by_cases hx2 : x = -1
      · subst hx2; simp
      · rw [eval_mul, hin x hx hx1 hx2]; simp
  have hw2 : int (Lagrange.basis S id (-1)) = 2 / ((n : ℝ) * (n + 1)) := by
    have hint := int_derivative ((1 - X) * P ℝ n)
    have hsplit : derivative ((1 - X) * P ℝ n) = (1 - X) * derivative (P ℝ n) - P ℝ n := by
      rw [derivative_mul, derivative_sub, derivative_one, derivative_X]
      ring
    rw [hsplit, int_sub, hintP] at hint
    have hdeg : ((1 - X) * derivative (P ℝ n)).natDegree < S.card + (n - 1) := by
      have h1 : (1 - X : ℝ[X]).natDegree ≤ 1 := by compute_degree
      have h2 : ((1 - X) * derivative (P ℝ n)).natDegree ≤ 1 + (n - 1) :=
        natDegree_mul_le.trans (Nat.add_le_add h1 hdP.le)
      omega
    have h := hquad _ hdeg
    rw [Finset.sum_eq_single_of_mem (-1) h2S] at h
    · simp only [eval_mul, eval_sub, Polynomial.eval_one, eval_X, hD2, hP1, hP2] at h hint
      rw [eq_div_iff hN.ne']
      have hpow : ((-1 : ℝ) ^ n) ≠ 0 := pow_ne_zero _ (by norm_num)
      apply mul_left_cancel₀ hpow
      linarith
    · intro x hx hx2
      by_cases hx1 : x = 1
      · subst hx1; simp
      · rw [eval_mul, hin x hx hx1 hx2]; simp
  refine ⟨hw1, hw2, fun a ha hda => ?_⟩
  have ha1 : (1 - a) ≠ 0 := by
    intro h
    have : a = 1 := by linarith
    rw [this, hD1] at hda
    have : (0 : ℝ) < (n : ℝ) * (n + 1) / 2 := by positivity
    linarith
  have ha2 : (1 + a) ≠ 0 := by
    intro h
    have : a = -1 := by linarith
    rw [this, hD2] at hda
    have h0 : ((n : ℝ) * (n + 1) / 2) ≠ 0 := by positivity
    exact (neg_ne_zero.2 (mul_ne_zero h0 (pow_ne_zero n (by norm_num)))) hda
  obtain ⟨g, hg⟩ := dvd_iff_isRoot.2 (show (derivative (P ℝ n)).IsRoot a from hda)
  have hd2 : derivative (derivative (P ℝ n)) = g + (X - C a) * derivative g := by
    rw [hg, derivative_mul, derivative_sub, derivative_X, derivative_C, sub_zero, one_mul]
  have hga : g.eval a = (derivative (derivative (P ℝ n))).eval a := by rw [hd2]; simp
  have hode := ode (K := ℝ) n
  have hg0 : g ≠ 0 := by
    rintro rfl
    rw [mul_zero] at hg
    rw [hg, eval_zero] at hD1
    have : (0 : ℝ) < (n : ℝ) * (n + 1) / 2 := by positivity
    linarith
  have hdegg : g.natDegree + 1 = n - 1 := by
    have h := hdP
    rw [hg, natDegree_mul (X_sub_C_ne_zero a) hg0, natDegree_X_sub_C] at h
    omega
  have hparts : derivative ((X - C a) * ((1 - X ^ 2) * (g * g))) =
      2 * (X * g * derivative (P ℝ n)) - C (2 * ((n : ℝ) * (n + 1))) * (P ℝ n * g) -
        (1 - X ^ 2) * (g * g) := by
    have e1 : derivative ((X - C a) * ((1 - X ^ 2) * (g * g))) =
        (1 - X ^ 2) * (g * g) + (X - C a) * (-(2 * X) * (g * g) +
          (1 - X ^ 2) * (2 * g * derivative g)) := by
      simp only [derivative_mul, derivative_sub, derivative_X, derivative_C, derivative_one,
        derivative_X_pow, Nat.cast_ofNat, map_ofNat]
      rw [show (2 : Nat) - 1 = 1 from rfl, pow_one]
      ring
    have hCN : (C (2 * ((n : ℝ) * (n + 1))) : ℝ[X]) = 2 * C ((n : ℝ) * (n + 1)) := by
      rw [C_mul]; rfl
    rw [e1, hCN]
    rw [hd2] at hode
    linear_combination (2 * g) * hode + 2 * X * g * hg
  have hint := int_derivative ((X - C a) * ((1 - X ^ 2) * (g * g)))
  have hPg : int (P ℝ n * g) = 0 := orthogonal n g (by omega)
  have h2 : (2 : ℝ[X]) = C 2 := rfl
  rw [hparts, int_sub, int_sub, int_C_mul, hPg, h2, int_C_mul] at hint
  have hg1 : (1 - a) * g.eval 1 = (n : ℝ) * (n + 1) / 2 := by
    rw [← hD1, hg]; simp
  have hg2 : (-1 - a) * g.eval (-1) = -((n : ℝ) * (n + 1) / 2 * (-1) ^ n) := by
    rw [← hD2, hg]; simp
  have ends : int (X * g * derivative (P ℝ n)) = (n : ℝ) * (n + 1) / (1 - a * a) := by
    have hdeg : (X * g * derivative (P ℝ n)).natDegree < S.card + (n - 1) := by
      have h1 : (X * g * derivative (P ℝ n)).natDegree ≤ 1 + g.natDegree + (n - 1) :=
        natDegree_mul_le.trans (Nat.add_le_add (natDegree_mul_le.trans
          (Nat.add_le_add natDegree_X_le le_rfl)) hdP.le)
      omega
    rw [hquad _ hdeg, ← Finset.sum_subset (s₁ := {1, -1})]
    · rw [Finset.sum_pair (by norm_num), hw1, hw2]
      simp only [eval_mul, eval_X, hD1, hD2]
      have e1 : g.eval 1 = (n : ℝ) * (n + 1) / 2 / (1 - a) := by
        rw [eq_div_iff ha1]; linarith
      have e2 : g.eval (-1) = (n : ℝ) * (n + 1) / 2 * (-1) ^ n / (1 + a) := by
        rw [eq_div_iff ha2]; linarith
      rw [e1, e2, show (1 - a * a) = (1 - a) * (1 + a) by ring]
      set N := (n : ℝ) * (n + 1)
      have hN' := hN.ne'
      have : -1 * (N / 2 * (-1) ^ n / (1 + a)) * -(N / 2 * (-1) ^ n) =
          N / 2 * (N / 2) / (1 + a) := by
        linear_combination (N / 2 * (N / 2) / (1 + a)) * hsq
      rw [this]
      field_simp
      ring
    · intro x hx
      rcases Finset.mem_insert.1 hx with h | h
      · rw [h]; exact h1S
      · rw [Finset.mem_singleton.1 h]; exact h2S
    · intro x hx hx'
      rw [Finset.mem_insert, Finset.mem_singleton, not_or] at hx'
      rw [eval_mul, hin x hx hx'.1 hx'.2]
      ring
  have mid : int ((1 - X ^ 2) * (g * g)) =
      int (Lagrange.basis S id a) * ((1 - a * a) * (g.eval a * g.eval a)) := by
    have hdeg : ((1 - X ^ 2) * (g * g)).natDegree < S.card + (n - 1) := by
      have h0 : (1 - X ^ 2 : ℝ[X]).natDegree ≤ 2 := by compute_degree
      have h1 : ((1 - X ^ 2) * (g * g)).natDegree ≤ 2 + (g.natDegree + g.natDegree) :=
        natDegree_mul_le.trans (Nat.add_le_add h0 natDegree_mul_le)
      omega
    rw [hquad _ hdeg, Finset.sum_eq_single_of_mem a ha]
    · simp only [eval_mul, eval_sub, eval_pow, eval_X, Polynomial.eval_one]
      ring
    · intro x hx hxa
      have h : (lobattoPoly n).eval x = 0 := hroot x hx
      rw [lobattoPoly, hg] at h
      simp only [eval_mul, eval_sub, eval_pow, eval_X, Polynomial.eval_one, eval_C] at h ⊢
      have h3 : (x ^ 2 - 1) * g.eval x = 0 := by
        apply mul_left_cancel₀ (sub_ne_zero.2 hxa)
        linarith
      linear_combination (-int (Lagrange.basis S id x) * g.eval x) * h3
  have hPa : (1 - a * a) * g.eval a = -((n : ℝ) * (n + 1) * (P ℝ n).eval a) := by
    have h := congrArg (Polynomial.eval a) hode
    simp only [eval_add, eval_sub, eval_mul, eval_pow, eval_X, Polynomial.eval_one, eval_C,
      eval_zero, hda, ← hga, eval_ofNat] at h
    linarith
  rw [ends, mid] at hint
  simp only [eval_mul, eval_sub, eval_pow, eval_X, Polynomial.eval_one, eval_C] at hint
  have h1a : (1 - a * a) ≠ 0 := by
    rw [show (1 - a * a) = (1 - a) * (1 + a) by ring]
    exact mul_ne_zero ha1 ha2
  set lam := int (Lagrange.basis S id a)
  set N := (n : ℝ) * (n + 1)
  set p := (P ℝ n).eval a
  have hN' := hN.ne'
  have key : lam * (N * (p * p)) = 2 := by
    have e : lam * ((1 - a * a) * (g.eval a * g.eval a)) * (1 - a * a) = 2 * N := by
      have : 2 * (N / (1 - a * a)) * (1 - a * a) = 2 * N := by
        rw [mul_assoc, div_mul_cancel₀ _ h1a]
      linear_combination (-(1 - a * a)) * hint + this
    have e' : lam * ((N * p) * (N * p)) = 2 * N := by
      have : ((1 - a * a) * g.eval a) * ((1 - a * a) * g.eval a) = (N * p) * (N * p) := by
        rw [hPa]; ring
      rw [← this]; linarith
    apply mul_left_cancel₀ hN'
    linarith
  have hp : p * p ≠ 0 := by
    intro h
    rw [h, mul_zero, mul_zero] at key
    exact two_ne_zero key.symm
  rw [div_div, eq_div_iff (mul_ne_zero hN' hp)]
  exact key

/-- C60, Lobatto: if the root finder returns the `n - 1` inner points, the rule with `n + 1`
points integrates all polynomials of degree up to `2 n - 1` exactly. -/
theorem C60_lobatto (n : Nat) (inner : List ℝ) (hn : 0 < n) (hlen : inner.length = n - 1)
    (hnd : inner.Nodup) (hroot : ∀ x ∈ inner, (derivative (P ℝ n)).eval x = 0) :
    ∃ w, Quadrature.lobatto ((n : Int) + 1) inner = .ok (w, -1 :: (inner ++ [1])) ∧
      w.length = n + 1 ∧
      ∀ f : ℝ[X], f.natDegree < 2 * n →
        Quadrature.apply (w, -1 :: (inner ++ [1])) f = ∫ x in (-1 : ℝ)..1, f.eval x := by
  set pts : List ℝ := -1 :: (inner ++ [1]) with hpts
  set W : ℝ → ℝ := fun x => 2 / ((n : ℝ) * (n + 1)) / ((P ℝ n).eval x * (P ℝ n).eval x) with hW
  have hP1 := eval_one (K := ℝ) n
  have hP2 := eval_neg_one (K := ℝ) n
  have hsq : ((-1 : ℝ) ^ n) * (-1) ^ n = 1 := by rw [← mul_pow]; norm_num
  have hnpos : (0 : ℝ) < n := by exact_mod_cast hn
  have hW1 : W 1 = 2 / ((n : ℝ) * (n + 1)) := by simp only [hW, hP1]; ring
  have hW2 : W (-1) = 2 / ((n : ℝ) * (n + 1)) := by simp only [hW, hP2, hsq]; ring
  have hlenp : pts.length = n + 1 := by simp [hpts, hlen]; omega
  have hne : ∀ x ∈ inner, x ≠ 1 ∧ x ≠ -1 := by
    intro x hx
    have h := hroot x hx
    refine ⟨?_, ?_⟩
    · rintro rfl
      rw [LegendrePoly.deriv_one] at h
      have : (0 : ℝ) < (n : ℝ) * (n + 1) / 2 := by positivity
      linarith
    · rintro rfl
      rw [deriv_neg_one] at h
      have h0 : ((n : ℝ) * (n + 1) / 2) ≠ 0 := by positivity
      exact (neg_ne_zero.2 (mul_ne_zero h0 (pow_ne_zero n (by norm_num)))) h
  have hndp : pts.Nodup := by
    rw [hpts, List.nodup_cons, List.mem_append, List.mem_singleton, not_or]
    refine ⟨⟨fun h => (hne _ h).2 rfl, by norm_num⟩, ?_⟩
    rw [List.nodup_append]
    refine ⟨hnd, List.nodup_singleton _, fun x hx y hy => ?_⟩
    rw [List.mem_singleton.1 hy]
    exact (hne x hx).1
  refine ⟨pts.map W, ?_, by rw [List.length_map, hlenp], fun f hf => ?_⟩
  · rw [Quadrature.lobatto, if_neg (by omega)]
    have hedge : (2 : ℝ) / ((((n : Int) + 1) * ((n : Int) + 1 - 1) : Int) : ℝ) =
        2 / ((n : ℝ) * (n + 1)) := by push_cast; congr 1; ring
    dsimp only
    rw [hedge, Res.mapM_ok _ (fun i => W (inner.getD i 0))]
    · rw [Res.bind_ok, Res.pure_eq]
      congr 2
      rw [hpts, List.map_cons, List.map_append, List.map_singleton, hW1, hW2]
      congr 2
      apply List.ext_getElem
      · simp [hlen]
      · intro i h1 h2
        have hi : i < inner.length := by simpa using h2
        simp [hi]
    · intro i hi
      have hi' : i < inner.length := by
        rw [hlen]
        have := List.mem_range.1 hi
        omega
      have hC := C32_derivative_partial (K := ℝ) n 0 inner[i] (Or.inl (by norm_num))
      rw [Function.iterate_zero, id] at hC
      simp only [Nat.cast_zero] at hC
      have hget : pts[i + 1]? = some inner[i] := by
        rw [hpts, List.getElem?_cons_succ, List.getElem?_append_left hi',
          List.getElem?_eq_getElem hi']
      rw [← hpts, hget, show ((n : Int) + 1 - 1) = n by ring]
      simp only [hC, Res.bind_ok, Res.pure_eq]
      simp [hi', hW]
  · have hcard : pts.toFinset.card = n + 1 := by rw [List.toFinset_card_of_nodup hndp, hlenp]
    have hroot' : ∀ x ∈ pts.toFinset, (lobattoPoly n).eval x = 0 := by
      intro x hx
      have hx := List.mem_toFinset.1 hx
      rw [lobattoPoly, eval_mul]
      rw [hpts, List.mem_cons, List.mem_append, List.mem_singleton] at hx
      rcases hx with h | h | h
      · subst h; simp
      · rw [hroot x h, mul_zero]
      · subst h; simp
    have hW0 : lobattoPoly n ≠ 0 := by
      intro h
      have := natDegree_lobattoPoly n hn
      rw [h, natDegree_zero] at this
      omega
    have h1S : (1 : ℝ) ∈ pts.toFinset := by rw [List.mem_toFinset, hpts]; simp
    have h2S : (-1 : ℝ) ∈ pts.toFinset := by rw [List.mem_toFinset, hpts]; simp
    obtain ⟨w1, w2, w3⟩ := lobatto_weight n hn _ hcard hroot' h1S h2S
    rw [zip_sum pts hndp]
    have h := interpolatory pts.toFinset (lobattoPoly n) (n - 1)
      (by rw [natDegree_lobattoPoly n hn, hcard]) hroot' hW0
      (fun q hq => lobatto_orthogonal n q hq) f (by rw [hcard]; omega)
    rw [int] at h
    rw [h]
    refine Finset.sum_congr rfl fun x hx => ?_
    congr 1
    have hx' := List.mem_toFinset.1 hx
    rw [hpts, List.mem_cons, List.mem_append, List.mem_singleton] at hx'
    rcases hx' with h | h | h
    · rw [h, w2, hW2]
    · rw [w3 x hx (hroot x h)]
    · rw [h, w1, hW1]

/-- C60: the nodes of the Lobatto interpolation of some order are the points of the Lobatto
rule with `order + 1` points (whatever the root finder returns). -/
theorem C60_nodes_are_points (roots : Int → List ℝ) (order : Int) (nodes : List ℝ)
    (h : Lobatto.localCoords roots order = .ok nodes)
    (rule : List ℝ × List ℝ) (hr : Quadrature.lobatto (order + 1) (roots (order + 1 - 1)) = .ok rule) :
    nodes = rule.2 := by
  rw [Lobatto.localCoords] at h
  split at h
  · cases h
  · rename_i h1
    rw [Quadrature.lobatto, if_neg (by omega)] at hr
    obtain ⟨w, _, hw⟩ := Res.bind_eq_ok hr
    cases hw
    cases h
    rw [show order + 1 - 1 = order by ring]

/-- C60: a tensor product rule built from a one-dimensional rule that integrates polynomials of
degree below `m` integrates products of such polynomials over the cube. -/
theorem C60_tensor (d n m : Nat) (w pts : List ℝ) (hw : w.length = n) (hp : pts.length = n)
    (hex : ∀ f : ℝ[X], f.natDegree < m →
      Quadrature.apply (w, pts) f = ∫ x in (-1 : ℝ)..1, f.eval x)
    (f : Nat → ℝ[X]) (hf : ∀ e, (f e).natDegree < m) :
    ((Quadrature.tensor d n w pts).map fun q =>
      q.1 * ((List.range d).map fun e => (f e).eval (q.2.getD e 0)).prod).sum =
    ((List.range d).map fun e => ∫ x in (-1 : ℝ)..1, (f e).eval x).prod := by
  rw [C31_product d n w pts fun e x => (f e).eval x]
  congr 1
  refine List.map_congr_left fun e _ => ?_
  rw [← hex (f e) (hf e), Quadrature.apply]
  congr 1
  apply List.ext_getElem
  · simp [hw, hp]
  · intro i h1 h2
    have hi : i < n := by simpa using h1
    simp [hw, hp, hi]

/-! Cases that meet the hypotheses: the two-point Gauss rule and Simpson's rule. -/

theorem P_two_eval (x : ℝ) : (P ℝ 2).eval x = (3 * x ^ 2 - 1) / 2 := by
  have h := congrArg (Polynomial.eval x) (LegendrePoly.recursion (K := ℝ) 0 0)
  simp only [Function.iterate_zero, id, P_zero, P_one, zero_add] at h
  simp only [CharP.cast_eq_zero, eval_mul, eval_sub, eval_C, eval_X, Polynomial.eval_one] at h
  linarith

theorem dP_two_eval (x : ℝ) : (derivative (P ℝ 2)).eval x = 3 * x := by
  have h := congrArg (Polynomial.eval x) (LegendrePoly.recursion (K := ℝ) 0 1)
  simp only [Function.iterate_one, P_zero, P_one, zero_add, derivative_X, derivative_one] at h
  simp only [CharP.cast_eq_zero, eval_mul, eval_sub, eval_C, eval_X, Polynomial.eval_one,
    eval_zero, Nat.cast_one] at h
  linarith

example : let a := Real.sqrt (1 / 3)
    [-a, a].length = 2 ∧ [-a, a].Nodup ∧ ∀ x ∈ [-a, a], (P ℝ 2).eval x = 0 := by
  intro a
  have ha : a ^ 2 = 1 / 3 := Real.sq_sqrt (by norm_num)
  have hpos : 0 < a := Real.sqrt_pos.2 (by norm_num)
  refine ⟨rfl, ?_, fun x hx => ?_⟩
  · rw [List.nodup_cons, List.mem_singleton]
    exact ⟨by intro h; linarith, List.nodup_singleton _⟩
  · rw [P_two_eval]
    simp only [List.mem_cons, List.not_mem_nil, or_false] at hx
    rcases hx with rfl | rfl
    · rw [neg_sq, ha]; norm_num
    · rw [ha]; norm_num

example : ([0] : List ℝ).length = 2 - 1 ∧ ([0] : List ℝ).Nodup ∧
    ∀ x ∈ ([0] : List ℝ), (derivative (P ℝ 2)).eval x = 0 := by
  refine ⟨rfl, List.nodup_singleton _, fun x hx => ?_⟩
  rw [List.mem_singleton.1 hx, dP_two_eval, mul_zero]

end NuTo
