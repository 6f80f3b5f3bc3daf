/-
C116: integrating a function of the position over the cells of a mesh gives the integral over the meshed domain: triangles, tetrahedra and
quadrilaterals at any place with the rules of the factory.
-/
import Verif.Props.MeshIntegralDomain

namespace NuTo

open Finset MeasureTheory RuleFactory SimplexRule

namespace MeshIntegral

/-! ### Elements that are not folded -/

/-- element types whose shape functions have total degree two at most -/
noncomputable def quadraticTypes : List (Interpolation ℝ) :=
  [Interpolation.trussLinear, Interpolation.trussQuadratic, Interpolation.triangleLinear, Interpolation.triangleQuadratic,
   Interpolation.quadLinear, Interpolation.tetrahedronLinear, Interpolation.tetrahedronQuadratic, Interpolation.prismLinear]

set_option linter.unusedSimpArgs false in
/-- Shape functions of degree two at two points differ by the derivative in the middle. -/
theorem shape_middle (I : Interpolation ℝ) (hI : I ∈ quadraticTypes) (u v : Nat → ℝ) (i : Nat) (hi : i < I.numNodes) :
    (I.shape u).getD i 0 - (I.shape v).getD i 0 =
      ∑ j ∈ range I.dim, ((I.deriv fun k => (u k + v k) / 2).getD i []).getD j 0 * (u j - v j) := by
  simp only [quadraticTypes, List.mem_cons, List.not_mem_nil, or_false] at hI
  rcases hI with rfl | rfl | rfl | rfl | rfl | rfl | rfl | rfl
  all_goals
    simp only [Interpolation.trussLinear, Interpolation.trussQuadratic, Interpolation.triangleLinear, Interpolation.triangleQuadratic,
      Interpolation.quadLinear, Interpolation.tetrahedronLinear, Interpolation.tetrahedronQuadratic, Interpolation.prismLinear] at hi ⊢
    interval_cases i <;>
    simp only [Interpolation.trussLinearShape, Interpolation.trussQuadraticShape, Interpolation.triangleLinearShape,
      Interpolation.triangleQuadraticShape, Interpolation.quadLinearShape, Interpolation.tetrahedronLinearShape,
      Interpolation.tetrahedronQuadraticShape, Interpolation.prismLinearShape, Interpolation.trussLinearDeriv,
      Interpolation.trussQuadraticDeriv, Interpolation.triangleLinearDeriv, Interpolation.triangleQuadraticDeriv,
      Interpolation.quadLinearDeriv, Interpolation.tetrahedronLinearDeriv, Interpolation.tetrahedronQuadraticDeriv,
      Interpolation.prismLinearDeriv, List.getD_cons_succ, List.getD_cons_zero, sum_range_succ, sum_range_zero] <;>
    ring

theorem ext_middle {d : Nat} (u v : Fin d → ℝ) : (ext fun k => (u k + v k) / 2) = fun k => (ext u k + ext v k) / 2 := by
  funext k
  simp only [ext]
  split_ifs <;> simp

theorem point_middle (I : Interpolation ℝ) (hI : I ∈ quadraticTypes) (pts : List (List ℝ)) (u v : Fin I.dim → ℝ) :
    point I pts u - point I pts v = (jac I pts fun k => (u k + v k) / 2).mulVec (u - v) := by
  funext a
  rw [Pi.sub_apply, point, point, ← sum_sub_distrib, Matrix.mulVec, dotProduct]
  simp only [jac, Matrix.of_apply, sum_mul]
  rw [sum_comm]
  refine sum_congr rfl fun i hi => ?_
  rw [← sub_mul, shape_middle I hI _ _ i (mem_range.1 hi), ext_middle, sum_range, sum_mul]
  refine sum_congr rfl fun j _ => ?_
  simp only [ext, j.isLt, dif_pos, Pi.sub_apply]
  ring

/-- C116: an element with shape functions of degree two at most is not folded when its Jacobian determinant does not vanish; the reference
domain need not be all of the element, but it must be convex. -/
theorem C116_injective {d : Nat} (I : Interpolation ℝ) (hI : I ∈ quadraticTypes) (pts : List (List ℝ)) (hd : I.dim = d) (S : Set (Fin d → ℝ)) (hS : Convex ℝ S)
    (hdet : ∀ ξ ∈ S, (jac I pts ξ).det ≠ 0) : Set.InjOn (point I pts) S := by
  subst hd
  intro u hu v hv h
  have hm : (fun k => (u k + v k) / 2) ∈ S := by
    have := hS hu hv (show (0 : ℝ) ≤ 1 / 2 by norm_num) (show (0 : ℝ) ≤ 1 / 2 by norm_num) (by norm_num)
    convert this using 1
    funext k
    simp only [Pi.add_apply, Pi.smul_apply, smul_eq_mul]
    ring
  have h0 := point_middle I hI pts u v
  rw [h, sub_self] at h0
  exact sub_eq_zero.1 (Matrix.eq_zero_of_mulVec_eq_zero (hdet _ hm) h0.symm)

/-! ### The points of the rules have the dimension of the shape -/

theorem mapM_mem {α β : Type} (f : α → Res β) (l : List α) (r : List β) (h : l.mapM f = .ok r) : ∀ y ∈ r, ∃ x ∈ l, f x = .ok y := by
  induction l generalizing r with
  | nil =>
    rw [List.mapM_nil] at h
    cases h
    simp
  | cons a t ih =>
    rw [List.mapM_cons] at h
    cases ha : f a with
    | ok b =>
      cases ht : t.mapM f with
      | ok s =>
        rw [ha, ht] at h
        cases h
        intro y hy
        rcases List.mem_cons.1 hy with rfl | hy
        · exact ⟨a, List.mem_cons_self, ha⟩
        · obtain ⟨x, hx, e⟩ := ih s ht y hy
          exact ⟨x, List.mem_cons_of_mem _ hx, e⟩
      | throw => rw [ha, ht] at h; cases h
      | ub => rw [ha, ht] at h; cases h
    | throw => rw [ha] at h; cases h
    | ub => rw [ha] at h; cases h

theorem collect_length {α : Type} {num : Res Nat} {weight : Int → Res ℚ} {coords : Int → Res α} {toList : α → List ℝ} {d : Nat}
    (hd : ∀ c, (toList c).length = d) {rule : List (ℝ × List ℝ)} (h : collect num weight coords toList = .ok rule) :
    ∀ q ∈ rule, q.2.length = d := by
  rw [collect] at h
  cases hn : num with
  | ok n =>
    rw [hn, Res.bind_ok'] at h
    intro q hq
    obtain ⟨i, _, e⟩ := mapM_mem _ _ _ h q hq
    cases hw : weight i with
    | ok w =>
      cases hc : coords i with
      | ok c =>
        rw [hw, hc] at e
        cases e
        exact hd c
      | throw => rw [hw, hc] at e; cases e
      | ub => rw [hw, hc] at e; cases e
    | throw => rw [hw] at e; cases e
    | ub => rw [hw] at e; cases e
  | throw => rw [hn] at h; cases h
  | ub => rw [hn] at h; cases h

theorem tensor_length (dim nIps : Nat) (w p : List ℝ) : ∀ q ∈ Quadrature.tensor dim nIps w p, q.2.length = dim := by
  intro q hq
  obtain ⟨i, _, rfl⟩ := List.mem_map.1 hq
  have key : ∀ (l : List Nat) (s : Nat × ℝ × List ℝ), (l.foldl (Quadrature.tensorStep nIps w p i) s).2.2.length = s.2.2.length + l.length := by
    intro l
    induction l with
    | nil => intro s; simp
    | cons a t ih =>
      intro s
      rw [List.foldl_cons, ih, Quadrature.tensorStep]
      simp
      omega
  rw [key]
  simp

theorem cube_rule_length {g l : Int → List ℝ} {d : Nat} {n : Int} {rule : List (ℝ × List ℝ)} (h : contents g l (.tensorGauss d n) = .ok rule) :
    ∀ q ∈ rule, q.2.length = d := by
  rw [contents] at h
  cases e : Quadrature.gauss n (g n) with
  | ok wp =>
    rw [e, Res.bind_ok'] at h
    cases h
    exact tensor_length _ _ _ _
  | throw => rw [e] at h; cases h
  | ub => rw [e] at h; cases h

theorem simplex_rule (roots : Int → List ℝ) (hroots : GaussRoots roots) (shape : Visualize.Shape)
    (hs : shape = .triangle ∨ shape = .tetrahedron) (order : Int) (h1 : 1 ≤ order) (h20 : order ≤ 20) :
    ∃ rule, gauss roots shape order = .ok rule ∧ Exact shape rule order.toNat (tableError shape order) ∧
      ∀ q ∈ rule, q.2.length = dim shape := by
  have ho : gaussOrder shape order := by rcases hs with rfl | rfl <;> exact ⟨h1, h20⟩
  obtain ⟨rule, e, hE⟩ := (C98_gauss roots hroots shape order).1 ho
  refine ⟨rule, e, hE, ?_⟩
  rw [gauss] at e
  rcases hs with rfl | rfl
  · rw [show createGauss .triangle order = .ok (.triangle order) from if_pos ⟨by omega, by omega⟩, Res.bind_ok'] at e
    rw [contents] at e
    exact collect_length (by intro c; rfl) e
  · rw [show createGauss .tetrahedron order = .ok (.tetrahedron order) from if_pos ⟨by omega, by omega⟩, Res.bind_ok'] at e
    rw [contents] at e
    exact collect_length (by intro c; rfl) e

theorem full (I : Interpolation ℝ) (hI : I ∈ polynomialTypes) (h1 : 1 ≤ I.dim) (h3 : I.dim ≤ 3) (hn : 0 < I.numNodes) (pts : List (List ℝ))
    (hc : pts.length = I.numNodes) (hp : ∀ p ∈ pts, p.length = I.dim) : Full I pts := by
  refine ⟨Balance.C77_types I ?_, h1, h3, hc, hp, hn⟩
  rw [exactTypes_eq]
  exact List.mem_append_left _ hI

/-! ### Triangles and tetrahedra -/

/-- C116: a triangle at any place with positive orientation and the rule of any order: polynomials up to the order are integrated over the
triangle, up to the rounding of the table. -/
theorem C116_triangle (junk : Nat → Nat → ℝ) (roots : Int → List ℝ) (hroots : GaussRoots roots) (order : Int) (h1 : 1 ≤ order)
    (h20 : order ≤ 20) :
    ∃ rule, gauss roots .triangle order = .ok rule ∧ ∀ (x0 y0 x1 y1 x2 y2 R : ℝ) (id : Int),
      0 < (x1 - x0) * (y2 - y0) - (x2 - x0) * (y1 - y0) → 1 ≤ R → |x0| + |x1 - x0| + |x2 - x0| ≤ R → |y0| + |y1 - y0| + |y2 - y0| ≤ R →
      ∀ p : MvPolynomial (Fin 2) ℝ, p.totalDegree ≤ order.toNat →
        Approx (d := 2) junk ⟨id, ⟨nodesAt [[x0, y0], [x1, y1], [x2, y2]], .triangleLinear⟩, rule⟩
          ((fun ξ => ![x0 + ξ 0 * (x1 - x0) + ξ 1 * (x2 - x0), y0 + ξ 0 * (y1 - y0) + ξ 1 * (y2 - y0)]) '' triangle 1)
          (fun x => MvPolynomial.eval x p)
          (tableError .triangle order * (R ^ order.toNat * norm1 p) * ((x1 - x0) * (y2 - y0) - (x2 - x0) * (y1 - y0))) := by
  obtain ⟨rule, e, hE, hl⟩ := simplex_rule roots hroots .triangle (Or.inl rfl) order h1 h20
  refine ⟨rule, e, ?_⟩
  intro x0 y0 x1 y1 x2 y2 R id hd hR hx hy p hp
  have hdet : (!![x1 - x0, x2 - x0; y1 - y0, y2 - y0] : Matrix (Fin 2) (Fin 2) ℝ).det = (x1 - x0) * (y2 - y0) - (x2 - x0) * (y1 - y0) := by
    rw [Matrix.det_fin_two_of]
  have hI : (Interpolation.triangleLinear : Interpolation ℝ) ∈ polynomialTypes := by simp [polynomialTypes]
  have hpt : ∀ ξ : Fin 2 → ℝ, point Interpolation.triangleLinear [[x0, y0], [x1, y1], [x2, y2]] ξ =
      aff ![x0, y0] !![x1 - x0, x2 - x0; y1 - y0, y2 - y0] ξ := by
    intro ξ
    funext a
    fin_cases a <;>
    simp [point, aff, Interpolation.triangleLinear, Interpolation.triangleLinearShape, sum_range_succ, ext] <;> ring
  have hjac : ∀ ξ : Fin 2 → ℝ, jac Interpolation.triangleLinear [[x0, y0], [x1, y1], [x2, y2]] ξ = !![x1 - x0, x2 - x0; y1 - y0, y2 - y0] := by
    intro ξ
    ext a j
    fin_cases a <;> fin_cases j <;>
    simp [jac, Interpolation.triangleLinear, Interpolation.triangleLinearDeriv, sum_range_succ] <;> ring
  have hε : 0 ≤ tableError .triangle order := by
    rw [tableError]
    split_ifs <;> norm_num
  have := C116_affine (d := 2) junk ⟨id, ⟨nodesAt [[x0, y0], [x1, y1], [x2, y2]], .triangleLinear⟩, rule⟩ .triangleLinear hI
    [[x0, y0], [x1, y1], [x2, y2]] (full _ hI (by simp [Interpolation.triangleLinear]) (by simp [Interpolation.triangleLinear])
      (by simp [Interpolation.triangleLinear]) _ (by simp [Interpolation.triangleLinear]) (by simp [Interpolation.triangleLinear]))
    rfl rfl hl ![x0, y0] !![x1 - x0, x2 - x0; y1 - y0, y2 - y0] hpt hjac (by rw [hdet]; exact hd) (triangle 1) (measurableSet_triangle 1)
    order.toNat _ hε (integrates_triangle hE) p hp R hR (by
      intro a
      rw [Fin.sum_univ_two]
      fin_cases a
      · simpa [add_assoc] using hx
      · simpa [add_assoc] using hy)
  rw [hdet] at this
  have hfun : (fun ξ : Fin 2 → ℝ => ![x0 + ξ 0 * (x1 - x0) + ξ 1 * (x2 - x0), y0 + ξ 0 * (y1 - y0) + ξ 1 * (y2 - y0)]) =
      point Interpolation.triangleLinear [[x0, y0], [x1, y1], [x2, y2]] := by
    funext ξ a
    rw [hpt]
    fin_cases a <;> simp [aff, Fin.sum_univ_two] <;> ring
  rw [hfun]
  exact this

/-- C116: a tetrahedron at any place with positive orientation and the rule of any order. -/
theorem C116_tetrahedron (junk : Nat → Nat → ℝ) (roots : Int → List ℝ) (hroots : GaussRoots roots) (order : Int) (h1 : 1 ≤ order)
    (h20 : order ≤ 20) :
    ∃ rule, gauss roots .tetrahedron order = .ok rule ∧ ∀ (P Q0 Q1 Q2 : Fin 3 → ℝ) (R : ℝ) (id : Int),
      0 < (Matrix.of fun a j : Fin 3 => (![Q0, Q1, Q2] j) a - P a).det → 1 ≤ R →
      (∀ a, |P a| + |Q0 a - P a| + |Q1 a - P a| + |Q2 a - P a| ≤ R) →
      ∀ p : MvPolynomial (Fin 3) ℝ, p.totalDegree ≤ order.toNat →
        Approx (d := 3) junk ⟨id, ⟨nodesAt [List.ofFn P, List.ofFn Q0, List.ofFn Q1, List.ofFn Q2], .tetrahedronLinear⟩, rule⟩
          ((fun ξ => P + ξ 0 • (Q0 - P) + ξ 1 • (Q1 - P) + ξ 2 • (Q2 - P)) '' tetrahedron)
          (fun x => MvPolynomial.eval x p)
          (tableError .tetrahedron order * (R ^ order.toNat * norm1 p) * (Matrix.of fun a j : Fin 3 => (![Q0, Q1, Q2] j) a - P a).det) := by
  obtain ⟨rule, e, hE, hl⟩ := simplex_rule roots hroots .tetrahedron (Or.inr rfl) order h1 h20
  refine ⟨rule, e, ?_⟩
  intro P Q0 Q1 Q2 R id hd hR hb p hp
  have hI : (Interpolation.tetrahedronLinear : Interpolation ℝ) ∈ polynomialTypes := by simp [polynomialTypes]
  have hpt : ∀ ξ : Fin 3 → ℝ, point Interpolation.tetrahedronLinear [List.ofFn P, List.ofFn Q0, List.ofFn Q1, List.ofFn Q2] ξ =
      aff P (Matrix.of fun a j : Fin 3 => (![Q0, Q1, Q2] j) a - P a) ξ := by
    intro ξ
    funext a
    fin_cases a <;>
    simp [point, aff, Interpolation.tetrahedronLinear, Interpolation.tetrahedronLinearShape, sum_range_succ, ext, Fin.sum_univ_three] <;> ring
  have hjac : ∀ ξ : Fin 3 → ℝ, jac Interpolation.tetrahedronLinear [List.ofFn P, List.ofFn Q0, List.ofFn Q1, List.ofFn Q2] ξ =
      Matrix.of fun a j : Fin 3 => (![Q0, Q1, Q2] j) a - P a := by
    intro ξ
    ext a j
    fin_cases a <;> fin_cases j <;>
    simp [jac, Interpolation.tetrahedronLinear, Interpolation.tetrahedronLinearDeriv, sum_range_succ] <;> ring
  have hε : 0 ≤ tableError .tetrahedron order := by
    rw [tableError]
    norm_num
  have := C116_affine (d := 3) junk ⟨id, ⟨nodesAt [List.ofFn P, List.ofFn Q0, List.ofFn Q1, List.ofFn Q2], .tetrahedronLinear⟩, rule⟩ .tetrahedronLinear hI
    [List.ofFn P, List.ofFn Q0, List.ofFn Q1, List.ofFn Q2] (full _ hI (by simp [Interpolation.tetrahedronLinear])
      (by simp [Interpolation.tetrahedronLinear])
      (by simp [Interpolation.tetrahedronLinear]) _ (by simp [Interpolation.tetrahedronLinear]) (by simp [Interpolation.tetrahedronLinear]))
    rfl rfl hl P (Matrix.of fun a j : Fin 3 => (![Q0, Q1, Q2] j) a - P a) hpt hjac hd tetrahedron measurableSet_tetrahedron
    order.toNat _ hε (integrates_tetrahedron hE) p hp R hR (by
      intro a
      rw [Fin.sum_univ_three]
      simpa [add_assoc] using hb a)
  have hfun : (fun ξ : Fin 3 → ℝ => P + ξ 0 • (Q0 - P) + ξ 1 • (Q1 - P) + ξ 2 • (Q2 - P)) =
      point Interpolation.tetrahedronLinear [List.ofFn P, List.ofFn Q0, List.ofFn Q1, List.ofFn Q2] := by
    funext ξ a
    rw [hpt]
    simp [aff, Fin.sum_univ_three]
    ring
  rw [hfun]
  exact this

/-! ### Quadrilaterals -/

open MvPolynomial in
/-- a component of the map of a quadrilateral as a polynomial -/
noncomputable def quadPoly (c : Fin 4 → ℝ) : MvPolynomial (Fin 2) ℝ :=
  C ((c 0 + c 1 + c 2 + c 3) / 4) + C ((-c 0 + c 1 + c 2 - c 3) / 4) * X 0 + C ((-c 0 - c 1 + c 2 + c 3) / 4) * X 1 +
    C ((c 0 - c 1 + c 2 - c 3) / 4) * (X 0 * X 1)

open MvPolynomial in
theorem degreeOf_quadPoly (c : Fin 4 → ℝ) (i : Fin 2) : (quadPoly c).degreeOf i ≤ 1 := by
  have hX : ∀ j : Fin 2, (X j : MvPolynomial (Fin 2) ℝ).degreeOf i ≤ 1 := by
    intro j
    rw [degreeOf_X]
    split_ifs <;> omega
  refine (degreeOf_add_le _ _ _).trans (max_le ((degreeOf_add_le _ _ _).trans (max_le ((degreeOf_add_le _ _ _).trans (max_le (by simp) ?_)) ?_)) ?_)
  · exact (degreeOf_C_mul_le _ _ _).trans (hX 0)
  · exact (degreeOf_C_mul_le _ _ _).trans (hX 1)
  · refine (degreeOf_C_mul_le _ _ _).trans ((degreeOf_mul_le _ _ _).trans ?_)
    rw [degreeOf_X, degreeOf_X]
    fin_cases i <;> simp

open MvPolynomial in
/-- the Jacobian determinant of a quadrilateral as a polynomial -/
noncomputable def quadDet (c e : Fin 4 → ℝ) : MvPolynomial (Fin 2) ℝ :=
  let a (c : Fin 4 → ℝ) := (-c 0 + c 1 + c 2 - c 3) / 4
  let b (c : Fin 4 → ℝ) := (-c 0 - c 1 + c 2 + c 3) / 4
  let g (c : Fin 4 → ℝ) := (c 0 - c 1 + c 2 - c 3) / 4
  C (a c * b e - b c * a e) + C (a c * g e - g c * a e) * X 0 + C (g c * b e - b c * g e) * X 1

open MvPolynomial in
theorem degreeOf_quadDet (c e : Fin 4 → ℝ) (i : Fin 2) : (quadDet c e).degreeOf i ≤ 1 := by
  have hX : ∀ j : Fin 2, (X j : MvPolynomial (Fin 2) ℝ).degreeOf i ≤ 1 := by
    intro j
    rw [degreeOf_X]
    split_ifs <;> omega
  refine (degreeOf_add_le _ _ _).trans (max_le ((degreeOf_add_le _ _ _).trans (max_le (by rw [degreeOf_C]; omega) ?_)) ?_)
  · exact (degreeOf_C_mul_le _ _ _).trans (hX 0)
  · exact (degreeOf_C_mul_le _ _ _).trans (hX 1)

/-- twice the signed area of a triangle -/
def cross (x y : Fin 4 → ℝ) (i j k : Fin 4) : ℝ := (x j - x i) * (y k - y i) - (x k - x i) * (y j - y i)

theorem convex_cube (d : Nat) : Convex ℝ (cube d) := convex_pi fun _ _ => convex_Ioo _ _

/-- C116: a quadrilateral with positive corners (it is convex, its corners are not on a line and it is numbered counterclockwise), and `n` Gauss
points in each direction: polynomials up to the total degree `2 n - 2` are integrated exactly over the quadrilateral. -/
theorem C116_quad (junk : Nat → Nat → ℝ) (roots : Int → List ℝ) (hroots : GaussRoots roots) (n : Nat) (hn : 0 < n) :
    ∃ rule, gauss roots .quadrilateral n = .ok rule ∧ ∀ (x y : Fin 4 → ℝ) (id : Int),
      0 < cross x y 0 1 3 → 0 < cross x y 1 2 0 → 0 < cross x y 2 3 1 → 0 < cross x y 3 0 2 →
      ∀ p : MvPolynomial (Fin 2) ℝ, p.totalDegree + 2 ≤ 2 * n →
        Cell.integratePosition junk
          ⟨id, ⟨nodesAt [[x 0, y 0], [x 1, y 1], [x 2, y 2], [x 3, y 3]], .quadLinear⟩, rule⟩
          (fun l => MvPolynomial.eval (fun a : Fin 2 => l.getD a 0) p) =
        .ok (∫ z in (fun ξ : Fin 2 → ℝ => ![MvPolynomial.eval ξ (quadPoly x), MvPolynomial.eval ξ (quadPoly y)]) '' cube 2,
          MvPolynomial.eval z p) := by
  obtain ⟨rule, e, -, hex⟩ := C98_gauss_cube roots hroots 2 n hn
  have hl := cube_rule_length e
  refine ⟨rule, e, ?_⟩
  intro x y id c0 c1 c2 c3 p hp
  have hI : (Interpolation.quadLinear : Interpolation ℝ) ∈ polynomialTypes := by simp [polynomialTypes]
  have hpt : ∀ ξ : Fin 2 → ℝ, point Interpolation.quadLinear [[x 0, y 0], [x 1, y 1], [x 2, y 2], [x 3, y 3]] ξ =
      fun a : Fin 2 => MvPolynomial.eval ξ (![quadPoly x, quadPoly y] a) := by
    intro ξ
    funext a
    fin_cases a <;>
    simp [point, quadPoly, Interpolation.quadLinear, Interpolation.quadLinearShape, sum_range_succ, ext] <;> ring
  have hdet : ∀ ξ : Fin 2 → ℝ, (jac Interpolation.quadLinear [[x 0, y 0], [x 1, y 1], [x 2, y 2], [x 3, y 3]] ξ).det =
      MvPolynomial.eval ξ (quadDet x y) := by
    intro ξ
    refine (Matrix.det_fin_two (jac Interpolation.quadLinear [[x 0, y 0], [x 1, y 1], [x 2, y 2], [x 3, y 3]] ξ :
      Matrix (Fin 2) (Fin 2) ℝ)).trans ?_
    simp [jac, quadDet, Interpolation.quadLinear, Interpolation.quadLinearDeriv, sum_range_succ, ext]
    ring
  have hpos : ∀ ξ ∈ cube 2, 0 < MvPolynomial.eval ξ (quadDet x y) := by
    intro ξ hξ
    have h0 := hξ 0 (Set.mem_univ _)
    have h1 := hξ 1 (Set.mem_univ _)
    simp only [Set.mem_Ioo] at h0 h1
    have : MvPolynomial.eval ξ (quadDet x y) = ((1 - ξ 0) * (1 - ξ 1) * cross x y 0 1 3 + (1 + ξ 0) * (1 - ξ 1) * cross x y 1 2 0 +
        (1 + ξ 0) * (1 + ξ 1) * cross x y 2 3 1 + (1 - ξ 0) * (1 + ξ 1) * cross x y 3 0 2) / 16 := by
      simp [quadDet, cross]
      ring
    rw [this]
    have a0 : 0 < 1 - ξ 0 := by linarith
    have a1 : 0 < 1 + ξ 0 := by linarith
    have b0 : 0 < 1 - ξ 1 := by linarith
    have b1 : 0 < 1 + ξ 1 := by linarith
    positivity
  have hinj : Set.InjOn (point Interpolation.quadLinear [[x 0, y 0], [x 1, y 1], [x 2, y 2], [x 3, y 3]]) (cube 2) := by
    refine C116_injective (d := 2) _ (by simp [quadraticTypes]) _ rfl (cube 2) (convex_cube 2) fun ξ hξ => ?_
    rw [hdet]
    exact (hpos ξ hξ).ne'
  have hval : value 2 rule (fun ξ => MvPolynomial.eval (fun a => MvPolynomial.eval ξ (![quadPoly x, quadPoly y] a)) p *
      MvPolynomial.eval ξ (quadDet x y)) =
      ∫ ξ in cube 2, MvPolynomial.eval (fun a => MvPolynomial.eval ξ (![quadPoly x, quadPoly y] a)) p * MvPolynomial.eval ξ (quadDet x y) := by
    have := hex (sub ![quadPoly x, quadPoly y] p * quadDet x y) fun i => by
      have h1 := degreeOf_sub_total ![quadPoly x, quadPoly y] p i fun a => by fin_cases a <;> exact degreeOf_quadPoly _ i
      have h2 := degreeOf_quadDet x y i
      have h3 := MvPolynomial.degreeOf_mul_le i (sub ![quadPoly x, quadPoly y] p) (quadDet x y)
      omega
    rw [cube_integral] at this
    simpa only [map_mul, eval_sub] using this
  have := C116_element (d := 2) junk ⟨id, ⟨nodesAt [[x 0, y 0], [x 1, y 1], [x 2, y 2], [x 3, y 3]], .quadLinear⟩, rule⟩ .quadLinear hI
    [[x 0, y 0], [x 1, y 1], [x 2, y 2], [x 3, y 3]] (full _ hI (by simp [Interpolation.quadLinear]) (by simp [Interpolation.quadLinear])
      (by simp [Interpolation.quadLinear]) _ (by simp [Interpolation.quadLinear]) (by simp [Interpolation.quadLinear])) rfl rfl hl
    (fun z => MvPolynomial.eval z p) (cube 2) measurableSet_cube hinj (fun ξ hξ => by rw [hdet]; exact (hpos ξ hξ).le)
    (by simp only [hpt, hdet]; exact hval)
  have hfun : (fun ξ : Fin 2 → ℝ => ![MvPolynomial.eval ξ (quadPoly x), MvPolynomial.eval ξ (quadPoly y)]) =
      point Interpolation.quadLinear [[x 0, y 0], [x 1, y 1], [x 2, y 2], [x 3, y 3]] := by
    funext ξ a
    rw [hpt]
    fin_cases a <;> rfl
  rw [hfun]
  exact this

/-! ### The hypotheses can be met -/

/-- a quadrilateral that is not a parallelogram -/
example : let x : Fin 4 → ℝ := ![0, 2, 3, 0]; let y : Fin 4 → ℝ := ![0, 0, 2, 1]
    0 < cross x y 0 1 3 ∧ 0 < cross x y 1 2 0 ∧ 0 < cross x y 2 3 1 ∧ 0 < cross x y 3 0 2 := by
  simp [cross]
  norm_num

/-- and a polynomial that two points in each direction integrate -/
example : (MvPolynomial.X 0 * MvPolynomial.X 1 : MvPolynomial (Fin 2) ℝ).totalDegree + 2 ≤ 2 * 2 := by
  have := MvPolynomial.totalDegree_mul (MvPolynomial.X 0 : MvPolynomial (Fin 2) ℝ) (MvPolynomial.X 1)
  simp only [MvPolynomial.totalDegree_X] at this
  omega

/-- a triangle far from the origin -/
example : let (x0, y0, x1, y1, x2, y2, R) := ((10 : ℝ), (5 : ℝ), (12 : ℝ), (6 : ℝ), (9 : ℝ), (8 : ℝ), (13 : ℝ))
    0 < (x1 - x0) * (y2 - y0) - (x2 - x0) * (y1 - y0) ∧ 1 ≤ R ∧ |x0| + |x1 - x0| + |x2 - x0| ≤ R ∧ |y0| + |y1 - y0| + |y2 - y0| ≤ R := by
  norm_num [abs_of_pos, abs_of_neg]

/-- the reference tetrahedron -/
example : let P : Fin 3 → ℝ := 0; let Q0 : Fin 3 → ℝ := ![1, 0, 0]; let Q1 : Fin 3 → ℝ := ![0, 1, 0]; let Q2 : Fin 3 → ℝ := ![0, 0, 1]
    0 < (Matrix.of fun a j : Fin 3 => (![Q0, Q1, Q2] j) a - P a).det ∧ ∀ a, |P a| + |Q0 a - P a| + |Q1 a - P a| + |Q2 a - P a| ≤ 1 := by
  refine ⟨?_, fun a => ?_⟩
  · simp [Matrix.det_fin_three]
  · fin_cases a <;> simp

/-- the straight triangle with six nodes is not folded -/
example : Set.InjOn (point (d := 2) Interpolation.triangleQuadratic [[0, 0], [1, 0], [0, 1], [1 / 2, 0], [1 / 2, 1 / 2], [0, 1 / 2]]) Set.univ := by
  refine C116_injective (d := 2) _ (by simp [quadraticTypes]) _ rfl _ convex_univ fun ξ _ => ?_
  have h : jac (d := 2) Interpolation.triangleQuadratic [[0, 0], [1, 0], [0, 1], [1 / 2, 0], [1 / 2, 1 / 2], [0, 1 / 2]] ξ = 1 := by
    ext a j
    fin_cases a <;> fin_cases j <;>
    simp [jac, Interpolation.triangleQuadratic, Interpolation.triangleQuadraticDeriv, sum_range_succ, ext] <;> ring
  rw [h]
  simp

end MeshIntegral
end NuTo
