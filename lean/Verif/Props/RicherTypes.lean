/-
C119: the interpolations of higher order contain those of lower order.
-/
import Verif.Props.BestApproximation

namespace NuTo

open Finset Interpolation

namespace BestApproximation

/-! ### Example types -/

theorem getD_zero {l : List ℝ} {d b : Nat} (h : l.length = d) (hb : d ≤ b) : l.getD b 0 = 0 := by
  simp [List.getD_eq_getElem?_getD, h, hb]

/-- It suffices to look at the directions of the element. -/
theorem Richer.mk' {I I' : Interpolation ℝ} (hI : I ∈ exactTypes) (hI' : I' ∈ exactTypes) (hd : I.dim = I'.dim)
    (hs : ∀ x, ∀ i < I.numNodes, (I.shape x).getD i 0 =
      ∑ k ∈ range I'.numNodes, (I.shape fun j => (I'.coords.getD k []).getD j 0).getD i 0 * (I'.shape x).getD k 0)
    (hg : ∀ x, ∀ i < I.numNodes, ∀ b < I.dim, ((I.deriv x).getD i []).getD b 0 =
      ∑ k ∈ range I'.numNodes, (I.shape fun j => (I'.coords.getD k []).getD j 0).getD i 0 * ((I'.deriv x).getD k []).getD b 0) :
    Richer I I' := by
  have hz : ∀ (J : Interpolation ℝ), J ∈ exactTypes → ∀ x k b, J.dim ≤ b → ((J.deriv x).getD k []).getD b 0 = 0 := by
    intro J hJ x k b hb
    have h := (C27_sizes J (List.mem_append_left _ hJ) x).2.2
    by_cases hk : k < (J.deriv x).length
    · have h2 : ((J.deriv x).map List.length)[k]? = (List.replicate J.numNodes J.dim)[k]? := by rw [h]
      have hk' : k < J.numNodes := by
        have := congrArg List.length h
        simp only [List.length_map, List.length_replicate] at this
        omega
      rw [List.getD_eq_getElem _ _ hk]
      refine getD_zero ?_ hb
      simpa [hk, hk'] using h2
    · rw [List.getD_eq_default (l := J.deriv x) (n := k) _ (by omega)]
      rfl
  refine ⟨hd, hs, fun x i hi b => ?_⟩
  by_cases hb : b < I.dim
  · exact hg x i hi b hb
  · rw [hz I hI x i b (by omega)]
    symm
    exact sum_eq_zero fun k _ => by rw [hz I' hI' x k b (by omega), mul_zero]

/-- Three levels. -/
theorem Richer.trans {I I' I'' : Interpolation ℝ} (h : Richer I I') (h' : Richer I' I'') : Richer I I'' := by
  have key : ∀ (i : Nat), i < I.numNodes → ∀ g : Nat → ℝ,
      ∑ k ∈ range I'.numNodes, (I.shape fun j => (I'.coords.getD k []).getD j 0).getD i 0 *
        ∑ l ∈ range I''.numNodes, (I'.shape fun j => (I''.coords.getD l []).getD j 0).getD k 0 * g l =
      ∑ l ∈ range I''.numNodes, (I.shape fun j => (I''.coords.getD l []).getD j 0).getD i 0 * g l := by
    intro i hi g
    simp only [mul_sum]
    rw [sum_comm]
    refine sum_congr rfl fun l _ => ?_
    rw [h.shape (fun j => (I''.coords.getD l []).getD j 0) i hi, sum_mul]
    exact sum_congr rfl fun k _ => by ring
  refine ⟨h.dim.trans h'.dim, fun x i hi => ?_, fun x i hi b => ?_⟩
  · rw [h.shape x i hi, ← key i hi]
    exact sum_congr rfl fun k hk => by rw [h'.shape x k (mem_range.1 hk)]
  · rw [h.deriv x i hi b, ← key i hi]
    exact sum_congr rfl fun k hk => by rw [h'.deriv x k (mem_range.1 hk) b]

macro "richer" "[" a:ident "," a1:ident "," a2:ident "," a3:ident "," b:ident "," b1:ident "," b2:ident "," b3:ident "]" : tactic =>
  `(tactic| (
    refine Richer.mk' (by simp [exactTypes]) (by simp [exactTypes]) rfl (fun x i hi => ?_) (fun x i hi b hb => ?_)
    · simp only [$a:ident, $b:ident] at hi ⊢
      interval_cases i <;>
        simp [$a1:ident, $a2:ident, $b1:ident, $b2:ident, sum_range_succ] <;> ring
    · simp only [$a:ident, $b:ident] at hi hb ⊢
      interval_cases i <;> interval_cases b <;>
        simp [$a1:ident, $a2:ident, $a3:ident, $b1:ident, $b2:ident, $b3:ident, sum_range_succ] <;> ring))

theorem richer_truss : Richer trussLinear trussQuadratic := by
  richer [trussLinear, trussLinearCoords, trussLinearShape, trussLinearDeriv, trussQuadratic, trussQuadraticCoords,
    trussQuadraticShape, trussQuadraticDeriv]

theorem richer_truss3 : Richer trussQuadratic truss3rdOrder := by
  richer [trussQuadratic, trussQuadraticCoords, trussQuadraticShape, trussQuadraticDeriv, truss3rdOrder, truss3rdOrderCoords,
    truss3rdOrderShape, truss3rdOrderDeriv]

theorem richer_triangle : Richer triangleLinear triangleQuadratic := by
  richer [triangleLinear, triangleLinearCoords, triangleLinearShape, triangleLinearDeriv, triangleQuadratic,
    triangleQuadraticCoords, triangleQuadraticShape, triangleQuadraticDeriv]

theorem richer_triangle3 : Richer triangleQuadratic triangle3rdOrder := by
  richer [triangleQuadratic, triangleQuadraticCoords, triangleQuadraticShape, triangleQuadraticDeriv, triangle3rdOrder,
    triangle3rdOrderCoords, triangle3rdOrderShape, triangle3rdOrderDeriv]

theorem richer_quad : Richer quadLinear quadSerendipity := by
  richer [quadLinear, quadLinearCoords, quadLinearShape, quadLinearDeriv, quadSerendipity, quadSerendipityCoords,
    quadSerendipityShape, quadSerendipityDeriv]

theorem richer_tetrahedron : Richer tetrahedronLinear tetrahedronQuadratic := by
  richer [tetrahedronLinear, tetrahedronLinearCoords, tetrahedronLinearShape, tetrahedronLinearDeriv, tetrahedronQuadratic,
    tetrahedronQuadraticCoords, tetrahedronQuadraticShape, tetrahedronQuadraticDeriv]

/-- C119: trusses, triangles, quads and tetrahedra of higher order contain those of lower order. -/
theorem C119_types : ∀ p ∈ ([(trussLinear, trussQuadratic), (trussQuadratic, truss3rdOrder), (trussLinear, truss3rdOrder),
    (triangleLinear, triangleQuadratic), (triangleQuadratic, triangle3rdOrder), (triangleLinear, triangle3rdOrder),
    (quadLinear, quadSerendipity), (tetrahedronLinear, tetrahedronQuadratic)] :
      List (Interpolation ℝ × Interpolation ℝ)), Richer p.1 p.2 := by
  intro p hp
  simp only [List.mem_cons, List.not_mem_nil, or_false] at hp
  rcases hp with rfl | rfl | rfl | rfl | rfl | rfl | rfl | rfl
  · exact richer_truss
  · exact richer_truss3
  · exact richer_truss.trans richer_truss3
  · exact richer_triangle
  · exact richer_triangle3
  · exact richer_triangle.trans richer_triangle3
  · exact richer_quad
  · exact richer_tetrahedron

end BestApproximation

end NuTo
