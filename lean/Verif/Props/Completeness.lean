import Verif.Model.Factory
import Verif.Props.Interpolation
import Mathlib.Algebra.MvPolynomial.Degrees
import Mathlib.Algebra.BigOperators.Fin

/-!
# C75: an interpolation of order `p` reproduces the polynomials of degree `p`
-/

set_option linter.unusedSectionVars false
set_option linter.unusedSimpArgs false

namespace NuTo

namespace Completeness

open Interpolation

section

variable {K : Type} [Field K]

/-- The field with the given values at the nodes, `∑ N_i(x) u_i`. -/
def field (I : Interpolation K) (u : List K) (x : Nat → K) : K := (List.zipWith (· * ·) (I.shape x) u).sum

/-- The values of a function at the nodes. -/
def nodal (I : Interpolation K) (f : (Nat → K) → K) : List K := I.coords.map fun c => f (vec c)

/-- The polynomials in the natural coordinates. -/
noncomputable def poly {d : Nat} (p : MvPolynomial (Fin d) K) : (Nat → K) → K := fun x => p.eval fun i : Fin d => x i

theorem zipWith_add (N : List K) {α : Type} (l : List α) (f g : α → K) :
    (List.zipWith (· * ·) N (l.map fun a => f a + g a)).sum =
      (List.zipWith (· * ·) N (l.map f)).sum + (List.zipWith (· * ·) N (l.map g)).sum := by
  induction l generalizing N with
  | nil => simp
  | cons a l ih =>
    cases N with
    | nil => simp
    | cons n N => simp only [List.map_cons, List.zipWith_cons_cons, List.sum_cons, ih]; ring

theorem zipWith_smul (N : List K) {α : Type} (l : List α) (c : K) (f : α → K) :
    (List.zipWith (· * ·) N (l.map fun a => c * f a)).sum = c * (List.zipWith (· * ·) N (l.map f)).sum := by
  induction l generalizing N with
  | nil => simp
  | cons a l ih =>
    cases N with
    | nil => simp
    | cons n N => simp only [List.map_cons, List.zipWith_cons_cons, List.sum_cons, ih]; ring

/-- it is enough to look at monomials -/
theorem of_monomials (I : Interpolation K) (d : Nat) (S : (Fin d →₀ ℕ) → Prop) (x : Nat → K)
    (h : ∀ m : Fin d →₀ ℕ, S m → field I (nodal I fun x => ∏ i : Fin d, x i ^ m i) x = ∏ i : Fin d, x i ^ m i)
    (p : MvPolynomial (Fin d) K) (hp : ∀ m ∈ p.support, S m) : field I (nodal I (poly p)) x = poly p x := by
  have hmono : ∀ (m : Fin d →₀ ℕ) (c : K) (y : Nat → K),
      poly (MvPolynomial.monomial m c) y = c * ∏ i : Fin d, y i ^ m i := by
    intro m c y
    rw [poly, MvPolynomial.eval_monomial, Finsupp.prod_fintype]
    intro i; simp
  have hsum : ∀ y : Nat → K, poly p y = ∑ m ∈ p.support, p.coeff m * ∏ i : Fin d, y i ^ m i := by
    intro y
    conv_lhs => rw [← p.support_sum_monomial_coeff]
    simp only [poly, map_sum]
    exact Finset.sum_congr rfl fun m _ => hmono m _ y
  have key : ∀ s : Finset (Fin d →₀ ℕ), (∀ m ∈ s, S m) →
      field I (nodal I fun y => ∑ m ∈ s, p.coeff m * ∏ i : Fin d, y i ^ m i) x =
        ∑ m ∈ s, p.coeff m * ∏ i : Fin d, x i ^ m i := by
    classical
    intro s
    induction s using Finset.induction_on with
    | empty =>
      intro _
      simp only [Finset.sum_empty]
      have := zipWith_smul (I.shape x) I.coords (0 : K) fun _ => 0
      simpa only [zero_mul, field, nodal] using this
    | insert m s hm ih =>
      intro hs
      simp only [Finset.sum_insert hm]
      have h1 := zipWith_add (I.shape x) I.coords (fun c => p.coeff m * ∏ i : Fin d, vec c i ^ m i)
        fun c => ∑ m ∈ s, p.coeff m * ∏ i : Fin d, vec c i ^ m i
      have h2 := zipWith_smul (I.shape x) I.coords (p.coeff m) fun c => ∏ i : Fin d, vec c i ^ m i
      have h3 := h m (hs m (Finset.mem_insert_self m s))
      have h4 := ih fun m' hm' => hs m' (Finset.mem_insert_of_mem hm')
      simp only [field, nodal] at h3 h4 ⊢
      rw [h1, h2, h3, h4]
  have := key p.support hp
  rw [hsum x, ← this]
  simp only [field, nodal, hsum]

theorem degree_le {d : Nat} (p : MvPolynomial (Fin d) K) (o : Nat) (hp : p.totalDegree ≤ o) :
    ∀ m ∈ p.support, ∑ i, m i ≤ o := by
  intro m hm
  refine le_trans ?_ hp
  have := MvPolynomial.le_totalDegree hm
  rwa [Finsupp.sum_fintype _ _ (fun i => rfl)] at this

end

section

variable {K : Type} [Field K] [CharZero K] [DecidableEq K]

/-- The interpolation classes with fixed formulas and exact decimals and the order in their name. -/
def orders : List (Interpolation K × Nat) :=
  [(trussLinear, 1), (trussQuadratic, 2), (truss3rdOrder, 3),
   (triangleLinear, 1), (triangleQuadratic, 2), (triangle3rdOrder, 3),
   (quadLinear, 1), (quadSerendipity, 2),
   (tetrahedronLinear, 1), (tetrahedronQuadratic, 2),
   (brickLinear, 1), (brickQuadratic, 2),
   (prismLinear, 1), (prismQuadratic, 2), (pyramidLinear, 1)]

macro "monomials" : tactic => `(tactic| (
  simp only [field, nodal, vec, trussLinear, trussLinearShape, trussLinearCoords, trussQuadratic, trussQuadraticShape,
    trussQuadraticCoords, truss3rdOrder, truss3rdOrderShape, truss3rdOrderCoords, triangleLinear, triangleLinearShape,
    triangleLinearCoords, triangleQuadratic, triangleQuadraticShape, triangleQuadraticCoords, triangle3rdOrder,
    triangle3rdOrderShape, triangle3rdOrderCoords, quadLinear, quadLinearShape, quadLinearCoords, quadSerendipity,
    quadSerendipityShape, quadSerendipityCoords, tetrahedronLinear, tetrahedronLinearShape, tetrahedronLinearCoords,
    tetrahedronQuadratic, tetrahedronQuadraticShape, tetrahedronQuadraticCoords, brickLinear, brickLinearShape, brickLinearCoords,
    brickQuadratic, brickQuadraticShape, brickQuadraticCoords, prismLinear, prismLinearShape, prismLinearCoords, prismQuadratic,
    prismQuadraticShape, prismQuadraticCoords, pyramidLinear, pyramidLinearShape, pyramidLinearCoords,
    Fin.prod_univ_succ, Fin.prod_univ_zero, Fin.val_zero, Fin.val_succ, List.map_cons, List.map_nil, List.zipWith_cons_cons,
    List.zipWith_nil_left, List.sum_cons, List.sum_nil, List.getD_cons_succ, List.getD_cons_zero, pow_zero, pow_one, Nat.zero_add]
  ring))

set_option linter.unnecessarySeqFocus false in
theorem monomials1 (I : Interpolation K) (o : Nat)
    (h : (I, o) ∈ ([(trussLinear, 1), (trussQuadratic, 2), (truss3rdOrder, 3)] : List (Interpolation K × Nat))) (x : Nat → K)
    (a : Nat) (ha : a ≤ o) :
    field I (nodal I fun x => x 0 ^ a) x = x 0 ^ a := by
  simp only [List.mem_cons, List.not_mem_nil, or_false, Prod.mk.injEq] at h
  rcases h with ⟨rfl, rfl⟩ | ⟨rfl, rfl⟩ | ⟨rfl, rfl⟩ <;> interval_cases a <;> monomials

set_option linter.unnecessarySeqFocus false in
theorem monomials2 (I : Interpolation K) (o : Nat)
    (h : (I, o) ∈ ([(triangleLinear, 1), (triangleQuadratic, 2), (triangle3rdOrder, 3), (quadLinear, 1), (quadSerendipity, 2)] :
      List (Interpolation K × Nat))) (x : Nat → K) (a b : Nat) (hab : a + b ≤ o) :
    field I (nodal I fun x => x 0 ^ a * x 1 ^ b) x = x 0 ^ a * x 1 ^ b := by
  simp only [List.mem_cons, List.not_mem_nil, or_false, Prod.mk.injEq] at h
  have ha : a ≤ o := by omega
  rcases h with ⟨rfl, rfl⟩ | ⟨rfl, rfl⟩ | ⟨rfl, rfl⟩ | ⟨rfl, rfl⟩ | ⟨rfl, rfl⟩ <;> interval_cases a <;>
    (first
      | (have hb : b ≤ 0 := by omega
         interval_cases b <;> monomials)
      | (have hb : b ≤ 1 := by omega
         interval_cases b <;> monomials)
      | (have hb : b ≤ 2 := by omega
         interval_cases b <;> monomials)
      | (have hb : b ≤ 3 := by omega
         interval_cases b <;> monomials))

theorem monomials3 (I : Interpolation K) (o : Nat)
    (h : (I, o) ∈ ([(tetrahedronLinear, 1), (tetrahedronQuadratic, 2), (brickLinear, 1), (brickQuadratic, 2),
      (prismLinear, 1), (prismQuadratic, 2), (pyramidLinear, 1)] :
      List (Interpolation K × Nat))) (x : Nat → K) (a b c : Nat) (habc : a + b + c ≤ o) :
    field I (nodal I fun x => x 0 ^ a * x 1 ^ b * x 2 ^ c) x = x 0 ^ a * x 1 ^ b * x 2 ^ c := by
  have ho : o ≤ 2 := by
    simp only [List.mem_cons, List.not_mem_nil, or_false, Prod.mk.injEq] at h
    rcases h with h | h | h | h | h | h | h <;> omega
  have ho1 : o = 1 ∨ o = 2 := by
    simp only [List.mem_cons, List.not_mem_nil, or_false, Prod.mk.injEq] at h
    rcases h with h | h | h | h | h | h | h <;> omega
  have low : a + b + c ≤ 1 ∨ o = 2 := by omega
  have hm : (a = 0 ∧ b = 0 ∧ c = 0) ∨ (a = 1 ∧ b = 0 ∧ c = 0) ∨ (a = 0 ∧ b = 1 ∧ c = 0) ∨ (a = 0 ∧ b = 0 ∧ c = 1) ∨
      (o = 2 ∧ ((a = 2 ∧ b = 0 ∧ c = 0) ∨ (a = 0 ∧ b = 2 ∧ c = 0) ∨ (a = 0 ∧ b = 0 ∧ c = 2) ∨ (a = 1 ∧ b = 1 ∧ c = 0) ∨
        (a = 1 ∧ b = 0 ∧ c = 1) ∨ (a = 0 ∧ b = 1 ∧ c = 1))) := by omega
  simp only [List.mem_cons, List.not_mem_nil, or_false, Prod.mk.injEq] at h
  rcases hm with ⟨rfl, rfl, rfl⟩ | ⟨rfl, rfl, rfl⟩ | ⟨rfl, rfl, rfl⟩ | ⟨rfl, rfl, rfl⟩ | ⟨ho2, hm⟩
  · rcases h with ⟨rfl, rfl⟩ | ⟨rfl, rfl⟩ | ⟨rfl, rfl⟩ | ⟨rfl, rfl⟩ | ⟨rfl, rfl⟩ | ⟨rfl, rfl⟩ | ⟨rfl, rfl⟩ <;> monomials
  · rcases h with ⟨rfl, rfl⟩ | ⟨rfl, rfl⟩ | ⟨rfl, rfl⟩ | ⟨rfl, rfl⟩ | ⟨rfl, rfl⟩ | ⟨rfl, rfl⟩ | ⟨rfl, rfl⟩ <;> monomials
  · rcases h with ⟨rfl, rfl⟩ | ⟨rfl, rfl⟩ | ⟨rfl, rfl⟩ | ⟨rfl, rfl⟩ | ⟨rfl, rfl⟩ | ⟨rfl, rfl⟩ | ⟨rfl, rfl⟩ <;> monomials
  · rcases h with ⟨rfl, rfl⟩ | ⟨rfl, rfl⟩ | ⟨rfl, rfl⟩ | ⟨rfl, rfl⟩ | ⟨rfl, rfl⟩ | ⟨rfl, rfl⟩ | ⟨rfl, rfl⟩ <;> monomials
  · subst ho2
    rcases h with ⟨_, h⟩ | ⟨rfl, _⟩ | ⟨_, h⟩ | ⟨rfl, _⟩ | ⟨_, h⟩ | ⟨rfl, _⟩ | ⟨_, h⟩
    · omega
    · rcases hm with ⟨rfl, rfl, rfl⟩ | ⟨rfl, rfl, rfl⟩ | ⟨rfl, rfl, rfl⟩ | ⟨rfl, rfl, rfl⟩ | ⟨rfl, rfl, rfl⟩ | ⟨rfl, rfl, rfl⟩ <;> monomials
    · omega
    · rcases hm with ⟨rfl, rfl, rfl⟩ | ⟨rfl, rfl, rfl⟩ | ⟨rfl, rfl, rfl⟩ | ⟨rfl, rfl, rfl⟩ | ⟨rfl, rfl, rfl⟩ | ⟨rfl, rfl, rfl⟩ <;> monomials
    · omega
    · rcases hm with ⟨rfl, rfl, rfl⟩ | ⟨rfl, rfl, rfl⟩ | ⟨rfl, rfl, rfl⟩ | ⟨rfl, rfl, rfl⟩ | ⟨rfl, rfl, rfl⟩ | ⟨rfl, rfl, rfl⟩ <;> monomials
    · omega

theorem complete1 (I : Interpolation K) (o : Nat)
    (h : (I, o) ∈ ([(trussLinear, 1), (trussQuadratic, 2), (truss3rdOrder, 3)] : List (Interpolation K × Nat)))
    (p : MvPolynomial (Fin 1) K) (hp : p.totalDegree ≤ o) (x : Nat → K) :
    field I (nodal I (poly p)) x = poly p x := by
  refine of_monomials I 1 (fun m => ∑ i, m i ≤ o) x ?_ p (degree_le p o hp)
  intro m hm
  have e : ∀ y : Nat → K, ∏ i : Fin 1, y i ^ m i = y 0 ^ m 0 := fun y => by simp
  simp only [e]
  exact monomials1 I o h x (m 0) (by simpa using hm)

theorem complete2 (I : Interpolation K) (o : Nat)
    (h : (I, o) ∈ ([(triangleLinear, 1), (triangleQuadratic, 2), (triangle3rdOrder, 3), (quadLinear, 1), (quadSerendipity, 2)] :
      List (Interpolation K × Nat)))
    (p : MvPolynomial (Fin 2) K) (hp : p.totalDegree ≤ o) (x : Nat → K) :
    field I (nodal I (poly p)) x = poly p x := by
  refine of_monomials I 2 (fun m => ∑ i, m i ≤ o) x ?_ p (degree_le p o hp)
  intro m hm
  have e : ∀ y : Nat → K, ∏ i : Fin 2, y i ^ m i = y 0 ^ m 0 * y 1 ^ m 1 := fun y => by simp [Fin.prod_univ_succ]
  simp only [e]
  exact monomials2 I o h x (m 0) (m 1) (by simpa [Fin.sum_univ_succ] using hm)

theorem complete3 (I : Interpolation K) (o : Nat)
    (h : (I, o) ∈ ([(tetrahedronLinear, 1), (tetrahedronQuadratic, 2), (brickLinear, 1), (brickQuadratic, 2),
      (prismLinear, 1), (prismQuadratic, 2), (pyramidLinear, 1)] :
      List (Interpolation K × Nat)))
    (p : MvPolynomial (Fin 3) K) (hp : p.totalDegree ≤ o) (x : Nat → K) :
    field I (nodal I (poly p)) x = poly p x := by
  refine of_monomials I 3 (fun m => ∑ i, m i ≤ o) x ?_ p (degree_le p o hp)
  intro m hm
  have e : ∀ y : Nat → K, ∏ i : Fin 3, y i ^ m i = y 0 ^ m 0 * y 1 ^ m 1 * y 2 ^ m 2 := fun y => by
    rw [Fin.prod_univ_three]; rfl
  simp only [e]
  refine monomials3 I o h x (m 0) (m 1) (m 2) ?_
  rwa [Fin.sum_univ_three] at hm

/-- C75: every class with fixed formulas (and exact decimals) reproduces every polynomial up to the order of the class from its
values at the nodes, at every coordinate inside or outside of the element. -/
theorem C75_complete (I : Interpolation K) (o : Nat) (h : (I, o) ∈ (orders : List (Interpolation K × Nat)))
    (p : MvPolynomial (Fin I.dim) K) (hp : p.totalDegree ≤ o) (x : Nat → K) :
    field I (nodal I (poly p)) x = poly p x := by
  simp only [orders, List.mem_cons, List.not_mem_nil, or_false, Prod.mk.injEq] at h
  rcases h with ⟨rfl, rfl⟩ | ⟨rfl, rfl⟩ | ⟨rfl, rfl⟩ | ⟨rfl, rfl⟩ | ⟨rfl, rfl⟩ | ⟨rfl, rfl⟩ | ⟨rfl, rfl⟩ | ⟨rfl, rfl⟩ |
    ⟨rfl, rfl⟩ | ⟨rfl, rfl⟩ | ⟨rfl, rfl⟩ | ⟨rfl, rfl⟩ | ⟨rfl, rfl⟩ | ⟨rfl, rfl⟩ | ⟨rfl, rfl⟩
  · exact complete1 _ _ (by simp) p hp x
  · exact complete1 _ _ (by simp) p hp x
  · exact complete1 _ _ (by simp) p hp x
  · exact complete2 _ _ (by simp) p hp x
  · exact complete2 _ _ (by simp) p hp x
  · exact complete2 _ _ (by simp) p hp x
  · exact complete2 _ _ (by simp) p hp x
  · exact complete2 _ _ (by simp) p hp x
  · exact complete3 _ _ (by simp) p hp x
  · exact complete3 _ _ (by simp) p hp x
  · exact complete3 _ _ (by simp) p hp x
  · exact complete3 _ _ (by simp) p hp x
  · exact complete3 _ _ (by simp) p hp x
  · exact complete3 _ _ (by simp) p hp x
  · exact complete3 _ _ (by simp) p hp x

/-- a polynomial of degree two is reproduced by the quadratic tetrahedron, at a coordinate that is no node -/
example : field (tetrahedronQuadratic : Interpolation ℚ) (nodal tetrahedronQuadratic fun x => x 0 * x 1 + 3 * x 2 ^ 2)
    (vec [1 / 5, 1 / 3, 1 / 4]) = 1 / 15 + 3 / 16 := by decide +kernel

/-- the order is sharp: the linear triangle does not reproduce a polynomial of degree two -/
theorem C75_sharp_counterexample : ¬ ∀ (p : MvPolynomial (Fin 2) ℚ), p.totalDegree ≤ 2 → ∀ x : Nat → ℚ,
    field (triangleLinear : Interpolation ℚ) (nodal triangleLinear (poly p)) x = poly p x := by
  intro h
  have := h (MvPolynomial.X 0 ^ 2) ((MvPolynomial.totalDegree_pow _ _).trans (by simp)) (vec [1 / 2, 0])
  simp [field, nodal, poly, triangleLinear, triangleLinearShape, triangleLinearCoords, vec] at this
  norm_num at this

/-- C75: `CreateLagrangeInterpolation` accepts exactly the listed orders of a shape and throws for every other number; the object
is one of the classes above with the requested order, has the requested shape and its nodes have as many coordinates as the shape
has dimensions. -/
theorem C75_lagrange (s : EShape) (o : Int) :
    (∀ O : Factory.Object K, Factory.createLagrange s o = .ok O →
      O.getShape = s ∧ (O.interp, o.toNat) ∈ (orders : List (Interpolation K × Nat)) ∧ O.interp.dim = s.dim ∧
        ∀ c ∈ O.interp.coords, c.length = s.dim) ∧
    (∃ O : Factory.Object K, Factory.createLagrange s o = .ok O) = (o = 1 ∨ o = 2 ∧ s ≠ .line ∧ s ≠ .hexahedron ∧ s ≠ .pyramid) ∧
    ((∀ O : Factory.Object K, Factory.createLagrange s o ≠ .ok O) → Factory.createLagrange (K := K) s o = .throw) := by
  by_cases h1 : o = 1
  · subst h1
    cases s <;> simp [Factory.createLagrange, Factory.lagrangeLine, Factory.lagrangeTriangle, Factory.lagrangeQuadrilateral,
      Factory.lagrangeTetrahedron, Factory.lagrangeHex, Factory.lagrangePrism, Factory.lagrangePyramid, orders, EShape.dim,
      trussLinear, triangleLinear, quadLinear, tetrahedronLinear, brickLinear, prismLinear, pyramidLinear, trussLinearCoords,
      triangleLinearCoords, quadLinearCoords, tetrahedronLinearCoords, brickLinearCoords, prismLinearCoords, pyramidLinearCoords]
  · by_cases h2 : o = 2
    · subst h2
      cases s <;> simp [Factory.createLagrange, Factory.lagrangeLine, Factory.lagrangeTriangle, Factory.lagrangeQuadrilateral,
        Factory.lagrangeTetrahedron, Factory.lagrangeHex, Factory.lagrangePrism, Factory.lagrangePyramid, orders, EShape.dim,
        triangleQuadratic, quadSerendipity, tetrahedronQuadratic, prismQuadratic,
        triangleQuadraticCoords, quadSerendipityCoords, tetrahedronQuadraticCoords, prismQuadraticCoords]
    · cases s <;> simp [Factory.createLagrange, Factory.lagrangeLine, Factory.lagrangeTriangle, Factory.lagrangeQuadrilateral,
        Factory.lagrangeTetrahedron, Factory.lagrangeHex, Factory.lagrangePrism, Factory.lagrangePyramid, h1, h2]

end

end Completeness

end NuTo
