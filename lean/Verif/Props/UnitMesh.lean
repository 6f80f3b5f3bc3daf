/-
C24: the unit meshes are regular grids of positively oriented elements that tile the
unit domain.
-/
import Verif.Model.UnitMesh
import Verif.Model.Interpolation
import Verif.Lemmas.Loops
import Verif.Lemmas.Group
import Mathlib.Algebra.Order.Floor.Ring
import Mathlib.Algebra.Order.Floor.Semiring
import Mathlib.Algebra.BigOperators.Group.List.Basic
import Mathlib.Tactic.Ring
import Mathlib.Tactic.Linarith
import Mathlib.Tactic.FieldSimp
import Mathlib.Tactic.Positivity

set_option linter.unusedSectionVars false

namespace NuTo

open Interpolation UnitMesh

variable {K : Type} [Field K] [LinearOrder K] [IsStrictOrderedRing K] [FloorRing K]

/-! ### Geometry of an element -/

/-- The coordinates of the nodes of element `e`. -/
def UnitMesh.elemCoords (m : UnitMesh K) (e : Nat) : List (List K) :=
  (m.elements.getD e []).map fun i => m.coordNodes.getD i []

/-- Component `d` of the point with natural coordinates `ξ` in an element with the given
node coordinates. -/
def Interpolation.position (I : Interpolation K) (cs : List (List K)) (ξ : Nat → K) (d : Nat) :
    K :=
  (List.zipWith (fun N c => N * c.getD d 0) (I.shape ξ) cs).sum

/-- Entry `(d, j)` of the Jacobian matrix of the element map. -/
def Interpolation.jacobian (I : Interpolation K) (cs : List (List K)) (ξ : Nat → K)
    (d j : Nat) : K :=
  (List.zipWith (fun row c => row.getD j 0 * c.getD d 0) (I.deriv ξ) cs).sum

/-- The determinant of the Jacobian matrix of a plane element. -/
def Interpolation.det2 (I : Interpolation K) (cs : List (List K)) (ξ : Nat → K) : K :=
  I.jacobian cs ξ 0 0 * I.jacobian cs ξ 1 1 - I.jacobian cs ξ 0 1 * I.jacobian cs ξ 1 0

/-- The determinant of the Jacobian matrix of a solid element. -/
def Interpolation.det3 (I : Interpolation K) (cs : List (List K)) (ξ : Nat → K) : K :=
  I.jacobian cs ξ 0 0 * (I.jacobian cs ξ 1 1 * I.jacobian cs ξ 2 2
      - I.jacobian cs ξ 1 2 * I.jacobian cs ξ 2 1)
    - I.jacobian cs ξ 0 1 * (I.jacobian cs ξ 1 0 * I.jacobian cs ξ 2 2
      - I.jacobian cs ξ 1 2 * I.jacobian cs ξ 2 0)
    + I.jacobian cs ξ 0 2 * (I.jacobian cs ξ 1 0 * I.jacobian cs ξ 2 1
      - I.jacobian cs ξ 1 1 * I.jacobian cs ξ 2 0)

/-! ### Helpers -/

instance : LawfulMonad Res := LawfulMonad.mk'
  (id_map := by intro _ x; cases x <;> rfl)
  (pure_bind := by intros; rfl)
  (bind_assoc := by intro _ _ _ x f g; cases x <;> rfl)

theorem Res.mapM_ok {α β : Type} (f : α → Res β) (g : α → β) (l : List α)
    (h : ∀ a ∈ l, f a = .ok (g a)) : l.mapM f = .ok (l.map g) := by
  induction l with
  | nil => rfl
  | cons a l ih =>
    rw [List.mapM_cons, h a List.mem_cons_self, ih fun b hb => h b (List.mem_cons_of_mem _ hb)]
    rfl

theorem ref_ok {coords : List (List K)} {i : Nat} (h : i < coords.length) :
    ref coords i = .ok i := if_pos h

/-- Every coordinate of the unit interval is in a closed cell of the grid. -/
theorem cell_exists {n : Nat} (hn : 0 < n) {x : K} (h0 : 0 ≤ x) (h1 : x ≤ 1) :
    ∃ a, a < n ∧ ∃ s : K, 0 ≤ s ∧ s ≤ 1 ∧ ((a : K) + s) / n = x := by
  have hn' : (0 : K) < n := by exact_mod_cast hn
  have hnx : 0 ≤ (n : K) * x := by positivity
  by_cases hlt : ⌊(n : K) * x⌋₊ < n
  · refine ⟨⌊(n : K) * x⌋₊, hlt, n * x - ⌊(n : K) * x⌋₊, ?_, ?_, ?_⟩
    · linarith [Nat.floor_le hnx]
    · linarith [Nat.lt_floor_add_one ((n : K) * x)]
    · field_simp; ring
  · have hge : (n : K) ≤ (n : K) * x := by
      have := Nat.floor_le hnx
      have h2 : (n : K) ≤ (⌊(n : K) * x⌋₊ : K) := by exact_mod_cast not_lt.1 hlt
      linarith
    have hx : x = 1 := by
      have : (1 : K) ≤ x := by
        by_contra hc
        push Not at hc
        nlinarith
      linarith
    refine ⟨n - 1, by omega, 1, zero_le_one, le_refl 1, ?_⟩
    have : ((n - 1 : Nat) : K) = n - 1 := by
      rw [Nat.cast_sub (by omega)]; simp
    rw [this, hx]
    field_simp
    ring

/-- An interior coordinate of a cell is in no other closed cell. -/
theorem cell_unique {n a b : Nat} (hn : 0 < n) {s t : K} (hs0 : 0 < s) (hs1 : s < 1)
    (ht0 : 0 ≤ t) (ht1 : t ≤ 1) (h : ((a : K) + s) / n = ((b : K) + t) / n) :
    a = b ∧ s = t := by
  have hn' : (n : K) ≠ 0 := by exact_mod_cast hn.ne'
  have h2 : (a : K) + s = b + t := by
    rw [div_left_inj' hn'] at h; exact h
  have h3 : (a : K) < b + 1 := by linarith
  have h4 : (b : K) < a + 1 := by linarith
  have h5 : a < b + 1 := by exact_mod_cast h3
  have h6 : b < a + 1 := by exact_mod_cast h4
  have h7 : a = b := by omega
  subst h7
  exact ⟨rfl, by linarith⟩

theorem nodes2D_length (nx ny : Nat) :
    (nodes2D (K := K) nx ny).length = (ny + 1) * (nx + 1) := by
  rw [nodes2D, length_flatMap_uniform _ (nx + 1) (fun k => by simp)]

theorem nodes2D_get {nx ny a b : Nat} (ha : a ≤ nx) (hb : b ≤ ny) :
    (nodes2D (K := K) nx ny)[a + b * (nx + 1)]? = some [(a : K) / nx, (b : K) / ny] := by
  have h1 : a + b * (nx + 1) < (ny + 1) * (nx + 1) := by
    have : b * (nx + 1) + (nx + 1) ≤ (ny + 1) * (nx + 1) := by
      rw [← Nat.succ_mul]; exact Nat.mul_le_mul_right _ (by omega)
    omega
  have h2 : (a + b * (nx + 1)) % (nx + 1) = a := by
    rw [Nat.add_mul_mod_self_right, Nat.mod_eq_of_lt (by omega)]
  have h3 : (a + b * (nx + 1)) / (nx + 1) = b := by
    rw [Nat.add_mul_div_right _ _ (by omega), Nat.div_eq_of_lt (by omega), Nat.zero_add]
  rw [nodes2D, getElem?_tensor, if_pos h1, h2, h3]

theorem nodes2D_lt {nx ny a b : Nat} (ha : a ≤ nx) (hb : b ≤ ny) :
    a + b * (nx + 1) < (nodes2D (K := K) nx ny).length := by
  have := nodes2D_get (K := K) ha hb
  exact (List.getElem?_eq_some_iff.1 this).1

theorem nodes2D_getD {nx ny a b : Nat} (ha : a ≤ nx) (hb : b ≤ ny) :
    (nodes2D (K := K) nx ny).getD (a + b * (nx + 1)) [] = [(a : K) / nx, (b : K) / ny] := by
  rw [List.getD_eq_getElem?_getD, nodes2D_get ha hb]; rfl

theorem cells2D_mem {nx ny : Nat} {c : Nat × Nat} (h : c ∈ cells2D nx ny) :
    c.1 < nx ∧ c.2 < ny := by
  simp only [cells2D, List.mem_flatMap, List.mem_range, List.mem_map] at h
  obtain ⟨iY, hy, iX, hx, rfl⟩ := h
  exact ⟨hx, hy⟩

theorem cells2D_get {nx ny e : Nat} (he : e < nx * ny) :
    (cells2D nx ny)[e]? = some (e % nx, e / nx) := by
  rw [cells2D, getElem?_tensor, if_pos (by rw [Nat.mul_comm]; exact he)]

theorem cells2D_length (nx ny : Nat) : (cells2D nx ny).length = nx * ny := by
  rw [cells2D, length_flatMap_uniform _ nx (fun k => by simp), Nat.mul_comm]

theorem div_mod_lt {nx ny e : Nat} (he : e < nx * ny) : e % nx < nx ∧ e / nx < ny := by
  have h0 : 0 < nx := by
    rcases Nat.eq_zero_or_pos nx with h | h
    · subst h; omega
    · exact h
  exact ⟨Nat.mod_lt _ h0, Nat.div_lt_of_lt_mul he⟩

/-! ### Quadrilaterals -/

/-- The result of `quadCell`. -/
def quadNodes (nx : Nat) (c : Nat × Nat) : List Nat :=
  [c.1 + c.2 * (nx + 1), c.1 + 1 + c.2 * (nx + 1), c.1 + 1 + (c.2 + 1) * (nx + 1),
   c.1 + (c.2 + 1) * (nx + 1)]

theorem quads_ok (nx ny : Nat) : quads (K := K) nx ny =
    .ok ⟨nodes2D nx ny, (cells2D nx ny).map (quadNodes nx)⟩ := by
  have h : ∀ c ∈ cells2D nx ny,
      quadCell nx (nodes2D (K := K) nx ny) c = .ok (quadNodes nx c) := by
    intro c hc
    obtain ⟨h1, h2⟩ := cells2D_mem hc
    have e0 := ref_ok (nodes2D_lt (K := K) (nx := nx) (ny := ny) (a := c.1) (b := c.2)
      (by omega) (by omega))
    have e1 := ref_ok (nodes2D_lt (K := K) (nx := nx) (ny := ny) (a := c.1 + 1) (b := c.2)
      (by omega) (by omega))
    have e2 := ref_ok (nodes2D_lt (K := K) (nx := nx) (ny := ny) (a := c.1 + 1) (b := c.2 + 1)
      (by omega) (by omega))
    have e3 := ref_ok (nodes2D_lt (K := K) (nx := nx) (ny := ny) (a := c.1) (b := c.2 + 1)
      (by omega) (by omega))
    simp only [quadCell, e0, e1, e2, e3]
    rfl
  rw [quads, Res.mapM_ok _ _ _ h]
  rfl

theorem quad_elemCoords {nx ny e : Nat} (he : e < nx * ny) :
    (UnitMesh.mk (K := K) (nodes2D nx ny) ((cells2D nx ny).map (quadNodes nx))).elemCoords e =
      [[((e % nx : Nat) : K) / nx, ((e / nx : Nat) : K) / ny],
       [((e % nx : Nat) + 1 : K) / nx, ((e / nx : Nat) : K) / ny],
       [((e % nx : Nat) + 1 : K) / nx, ((e / nx : Nat) + 1 : K) / ny],
       [((e % nx : Nat) : K) / nx, ((e / nx : Nat) + 1 : K) / ny]] := by
  obtain ⟨h1, h2⟩ := div_mod_lt he
  have hg : ((cells2D nx ny).map (quadNodes nx)).getD e [] = quadNodes nx (e % nx, e / nx) := by
    rw [List.getD_eq_getElem?_getD, List.getElem?_map, cells2D_get he]; rfl
  simp only [UnitMesh.elemCoords, hg, quadNodes, List.map_cons, List.map_nil]
  rw [nodes2D_getD (by omega) (by omega), nodes2D_getD (by omega) (by omega),
    nodes2D_getD (by omega) (by omega), nodes2D_getD (by omega) (by omega)]
  push_cast
  rfl


/-! ### What is claimed of a plane mesh -/

/-- All nodes of all elements exist and every node belongs to an element. -/
def UnitMesh.NodesUsed (m : UnitMesh K) : Prop :=
  ∀ i, (∃ el ∈ m.elements, i ∈ el) ↔ i < m.coordNodes.length

/-- Every point of the closed unit square is in some closed element. -/
def UnitMesh.Covers2 (m : UnitMesh K) (I : Interpolation K) (closed : K → K → Prop) : Prop :=
  ∀ x y : K, 0 ≤ x → x ≤ 1 → 0 ≤ y → y ≤ 1 → ∃ e, e < m.elements.length ∧ ∃ ξ : Nat → K,
    closed (ξ 0) (ξ 1) ∧ I.position (m.elemCoords e) ξ 0 = x ∧ I.position (m.elemCoords e) ξ 1 = y

/-- Elements stay in the closed unit square. -/
def UnitMesh.Inside2 (m : UnitMesh K) (I : Interpolation K) (closed : K → K → Prop) : Prop :=
  ∀ e, e < m.elements.length → ∀ ξ : Nat → K, closed (ξ 0) (ξ 1) → ∀ d, d < 2 →
    0 ≤ I.position (m.elemCoords e) ξ d ∧ I.position (m.elemCoords e) ξ d ≤ 1

/-- An interior point of an element is in no other (closed) element, and it has only one
pair of natural coordinates. -/
def UnitMesh.Disjoint2 (m : UnitMesh K) (I : Interpolation K) (interior closed : K → K → Prop) :
    Prop :=
  ∀ e e', e < m.elements.length → e' < m.elements.length → ∀ ξ η : Nat → K,
    interior (ξ 0) (ξ 1) → closed (η 0) (η 1) →
    I.position (m.elemCoords e) ξ 0 = I.position (m.elemCoords e') η 0 →
    I.position (m.elemCoords e) ξ 1 = I.position (m.elemCoords e') η 1 →
    e = e' ∧ ξ 0 = η 0 ∧ ξ 1 = η 1

def closedSquare (r s : K) : Prop := (-1 ≤ r ∧ r ≤ 1) ∧ (-1 ≤ s ∧ s ≤ 1)
def interiorSquare (r s : K) : Prop := (-1 < r ∧ r < 1) ∧ (-1 < s ∧ s < 1)
def closedTriangle (r s : K) : Prop := 0 ≤ r ∧ 0 ≤ s ∧ r + s ≤ 1
def interiorTriangle (r s : K) : Prop := 0 < r ∧ 0 < s ∧ r + s < 1

/-- Natural coordinates from a list. -/
def nat (l : List K) : Nat → K := fun d => l.getD d 0

theorem quad_position {nx ny e : Nat} (hx : 0 < nx) (hy : 0 < ny) (he : e < nx * ny)
    (ξ : Nat → K) :
    let cs := (UnitMesh.mk (K := K) (nodes2D nx ny)
      ((cells2D nx ny).map (quadNodes nx))).elemCoords e
    quadLinear.position cs ξ 0 = (((e % nx : Nat) : K) + (1 + ξ 0) / 2) / nx ∧
    quadLinear.position cs ξ 1 = (((e / nx : Nat) : K) + (1 + ξ 1) / 2) / ny := by
  have h1 : (nx : K) ≠ 0 := by exact_mod_cast hx.ne'
  have h2 : (ny : K) ≠ 0 := by exact_mod_cast hy.ne'
  rw [quad_elemCoords he]
  generalize ((e % nx : Nat) : K) = a
  generalize ((e / nx : Nat) : K) = b
  simp only [position, quadLinear, quadLinearShape, List.zipWith, List.sum_cons, List.sum_nil,
    List.getD_cons_zero, List.getD_cons_succ]
  constructor <;> field_simp <;> ring

theorem quad_jacobian {nx ny e : Nat} (hx : 0 < nx) (hy : 0 < ny) (he : e < nx * ny)
    (ξ : Nat → K) :
    let cs := (UnitMesh.mk (K := K) (nodes2D nx ny)
      ((cells2D nx ny).map (quadNodes nx))).elemCoords e
    quadLinear.jacobian cs ξ 0 0 = 1 / (2 * nx) ∧ quadLinear.jacobian cs ξ 0 1 = 0 ∧
    quadLinear.jacobian cs ξ 1 0 = 0 ∧ quadLinear.jacobian cs ξ 1 1 = 1 / (2 * ny) := by
  have h1 : (nx : K) ≠ 0 := by exact_mod_cast hx.ne'
  have h2 : (ny : K) ≠ 0 := by exact_mod_cast hy.ne'
  rw [quad_elemCoords he]
  generalize ((e % nx : Nat) : K) = a
  generalize ((e / nx : Nat) : K) = b
  simp only [jacobian, quadLinear, quadLinearDeriv, List.zipWith, List.sum_cons, List.sum_nil,
    List.getD_cons_zero, List.getD_cons_succ]
  refine ⟨?_, ?_, ?_, ?_⟩ <;> field_simp <;> ring

theorem pos_of_lt_mul {nx ny e : Nat} (he : e < nx * ny) : 0 < nx ∧ 0 < ny := by
  constructor
  · rcases Nat.eq_zero_or_pos nx with h | h
    · subst h; omega
    · exact h
  · rcases Nat.eq_zero_or_pos ny with h | h
    · subst h; omega
    · exact h

/-- A pair of grid indices is the index of a cell. -/
theorem cell_index {nx ny a b : Nat} (ha : a < nx) (hb : b < ny) :
    a + b * nx < nx * ny ∧ (a + b * nx) % nx = a ∧ (a + b * nx) / nx = b := by
  refine ⟨?_, ?_, ?_⟩
  · have : b * nx + nx ≤ nx * ny := by
      rw [← Nat.succ_mul, Nat.mul_comm nx]; exact Nat.mul_le_mul_right _ (by omega)
    omega
  · rw [Nat.add_mul_mod_self_right, Nat.mod_eq_of_lt ha]
  · rw [Nat.add_mul_div_right _ _ (by omega), Nat.div_eq_of_lt ha, Nat.zero_add]

theorem mem_of_grid {nx ny a b : Nat} (hx : 0 < nx) (hy : 0 < ny) (ha : a ≤ nx) (hb : b ≤ ny) :
    ∃ c ∈ cells2D nx ny, (a = c.1 ∨ a = c.1 + 1) ∧ (b = c.2 ∨ b = c.2 + 1) := by
  refine ⟨(min a (nx - 1), min b (ny - 1)), ?_, ?_, ?_⟩
  · simp only [cells2D, List.mem_flatMap, List.mem_range, List.mem_map, Prod.mk.injEq]
    exact ⟨min b (ny - 1), by omega, min a (nx - 1), by omega, rfl, rfl⟩
  · dsimp only; omega
  · dsimp only; omega

theorem sum_const_range (n : Nat) (f : Nat → K) (c : K) (h : ∀ e, e < n → f e = c) :
    ((List.range n).map f).sum = n * c := by
  have : (List.range n).map f = List.replicate n c := by
    rw [List.eq_replicate_iff]
    constructor
    · simp
    · intro b hb
      obtain ⟨e, he, rfl⟩ := List.mem_map.1 hb
      exact h e (List.mem_range.1 he)
  rw [this, List.sum_replicate, nsmul_eq_mul]

/-- `CreateQuads(nx, ny)`: the nodes are the points of the regular grid, row by row; every
node is used; every quadrilateral is mapped to the unit square with a positive, constant
Jacobian determinant; the quadrilaterals cover the unit square, stay in it and do not
overlap; their areas add up to one. -/
theorem C24_quads (nx ny : Nat) (hx : 0 < nx) (hy : 0 < ny) :
    ∃ m : UnitMesh K, quads nx ny = .ok m ∧
      m.coordNodes.length = (nx + 1) * (ny + 1) ∧
      (∀ a b, a ≤ nx → b ≤ ny →
        m.coordNodes[a + b * (nx + 1)]? = some [(a : K) / nx, (b : K) / ny]) ∧
      m.elements.length = nx * ny ∧
      m.NodesUsed ∧
      (∀ e, e < m.elements.length → ∀ ξ, 0 < quadLinear.det2 (m.elemCoords e) ξ) ∧
      m.Covers2 quadLinear closedSquare ∧
      m.Inside2 quadLinear closedSquare ∧
      m.Disjoint2 quadLinear interiorSquare closedSquare ∧
      (∀ ξ : Nat → Nat → K, ((List.range m.elements.length).map fun e =>
        4 * quadLinear.det2 (m.elemCoords e) (ξ e)).sum = 1) := by
  have h1 : (0 : K) < nx := by exact_mod_cast hx
  have h2 : (0 : K) < ny := by exact_mod_cast hy
  have hlen : (UnitMesh.mk (K := K) (nodes2D nx ny)
      ((cells2D nx ny).map (quadNodes nx))).elements.length = nx * ny := by
    simp [cells2D_length]
  have hdet : ∀ e, e < nx * ny → ∀ ξ : Nat → K, quadLinear.det2 ((UnitMesh.mk (K := K)
      (nodes2D nx ny) ((cells2D nx ny).map (quadNodes nx))).elemCoords e) ξ =
        1 / (4 * (nx * ny)) := by
    intro e he ξ
    obtain ⟨j1, j2, j3, j4⟩ := quad_jacobian hx hy he ξ
    rw [det2, j1, j2, j3, j4]
    field_simp
    ring
  refine ⟨_, quads_ok nx ny, ?_, ?_, hlen, ?_, ?_, ?_, ?_, ?_, ?_⟩
  · rw [nodes2D_length, Nat.mul_comm]
  · exact fun a b ha hb => nodes2D_get ha hb
  · intro i
    constructor
    · rintro ⟨el, hel, hi⟩
      obtain ⟨c, hc, rfl⟩ := List.mem_map.1 hel
      obtain ⟨c1, c2⟩ := cells2D_mem hc
      simp only [quadNodes, List.mem_cons, List.not_mem_nil, or_false] at hi
      rcases hi with rfl | rfl | rfl | rfl <;> exact nodes2D_lt (by omega) (by omega)
    · intro hi
      change i < (nodes2D (K := K) nx ny).length at hi
      rw [nodes2D_length] at hi
      have ha : i % (nx + 1) ≤ nx := Nat.lt_succ_iff.1 (Nat.mod_lt _ (by omega))
      have hb : i / (nx + 1) ≤ ny := Nat.lt_succ_iff.1 (Nat.div_lt_of_lt_mul (by
        rw [Nat.mul_comm]; exact hi))
      obtain ⟨c, hc, ca, cb⟩ := mem_of_grid hx hy ha hb
      have hid : i = i % (nx + 1) + i / (nx + 1) * (nx + 1) := by
        have := Nat.mod_add_div i (nx + 1); rw [Nat.mul_comm]; omega
      refine ⟨quadNodes nx c, List.mem_map.2 ⟨c, hc, rfl⟩, ?_⟩
      simp only [quadNodes, List.mem_cons, List.not_mem_nil, or_false]
      rw [hid]
      rcases ca with ca | ca <;> rcases cb with cb | cb <;> rw [ca, cb] <;> simp
  · intro e he ξ
    rw [hlen] at he
    rw [hdet e he]
    positivity
  · intro x y hx0 hx1 hy0 hy1
    obtain ⟨a, ha, s, hs0, hs1, hs⟩ := cell_exists hx hx0 hx1
    obtain ⟨b, hb, t, ht0, ht1, ht⟩ := cell_exists hy hy0 hy1
    obtain ⟨i1, i2, i3⟩ := cell_index ha hb
    refine ⟨a + b * nx, by rw [hlen]; exact i1, nat [2 * s - 1, 2 * t - 1], ?_, ?_⟩
    · refine ⟨⟨?_, ?_⟩, ?_, ?_⟩ <;> simp only [nat, List.getD_cons_zero, List.getD_cons_succ] <;>
        linarith
    · obtain ⟨p1, p2⟩ := quad_position hx hy i1 (nat [2 * s - 1, 2 * t - 1] : Nat → K)
      rw [p1, p2, i2, i3, ← hs, ← ht]
      simp only [nat, List.getD_cons_zero, List.getD_cons_succ]
      constructor <;> ring
  · rintro e he ξ ⟨⟨r0, r1⟩, s0, s1⟩ d hd
    rw [hlen] at he
    obtain ⟨p1, p2⟩ := quad_position hx hy he ξ
    obtain ⟨l1, l2⟩ := div_mod_lt he
    have q1 : ((e % nx : Nat) : K) + 1 ≤ nx := by exact_mod_cast l1
    have q2 : ((e / nx : Nat) : K) + 1 ≤ ny := by exact_mod_cast l2
    have q3 : (0 : K) ≤ ((e % nx : Nat) : K) := Nat.cast_nonneg _
    have q4 : (0 : K) ≤ ((e / nx : Nat) : K) := Nat.cast_nonneg _
    match d, hd with
    | 0, _ =>
      rw [p1, le_div_iff₀ h1, div_le_iff₀ h1]; constructor <;> linarith
    | 1, _ =>
      rw [p2, le_div_iff₀ h2, div_le_iff₀ h2]; constructor <;> linarith
  · rintro e e' he he' ξ η ⟨⟨r0, r1⟩, s0, s1⟩ ⟨⟨r0', r1'⟩, s0', s1'⟩ ex ey
    rw [hlen] at he he'
    obtain ⟨p1, p2⟩ := quad_position hx hy he ξ
    obtain ⟨p1', p2'⟩ := quad_position hx hy he' η
    rw [p1, p1'] at ex
    rw [p2, p2'] at ey
    obtain ⟨u1, u2⟩ := cell_unique hx (by linarith) (by linarith) (by linarith) (by linarith) ex
    obtain ⟨v1, v2⟩ := cell_unique hy (by linarith) (by linarith) (by linarith) (by linarith) ey
    refine ⟨?_, by linarith, by linarith⟩
    rw [← Nat.mod_add_div e nx, ← Nat.mod_add_div e' nx, u1, v1]
  · intro ξ
    rw [hlen, sum_const_range (nx * ny) _ (1 / ((nx : K) * ny)) ?_]
    · push_cast; field_simp
    · intro e he
      rw [hdet e he]; field_simp


/-! ### Triangles -/

/-- The result of `triangleCell`. -/
def triangleNodes (nx : Nat) (c : Nat × Nat) : List (List Nat) :=
  [[c.1 + c.2 * (nx + 1), c.1 + 1 + c.2 * (nx + 1), c.1 + 1 + (c.2 + 1) * (nx + 1)],
   [c.1 + c.2 * (nx + 1), c.1 + 1 + (c.2 + 1) * (nx + 1), c.1 + (c.2 + 1) * (nx + 1)]]

/-- The mesh made by `triangles`. -/
def triangleMesh (nx ny : Nat) : UnitMesh K :=
  ⟨nodes2D nx ny, ((cells2D nx ny).map (triangleNodes nx)).flatten⟩

theorem triangles_ok (nx ny : Nat) : triangles (K := K) nx ny = .ok (triangleMesh nx ny) := by
  have h : ∀ c ∈ cells2D nx ny,
      triangleCell nx (nodes2D (K := K) nx ny) c = .ok (triangleNodes nx c) := by
    intro c hc
    obtain ⟨h1, h2⟩ := cells2D_mem hc
    have e0 := ref_ok (nodes2D_lt (K := K) (nx := nx) (ny := ny) (a := c.1) (b := c.2)
      (by omega) (by omega))
    have e1 := ref_ok (nodes2D_lt (K := K) (nx := nx) (ny := ny) (a := c.1 + 1) (b := c.2)
      (by omega) (by omega))
    have e2 := ref_ok (nodes2D_lt (K := K) (nx := nx) (ny := ny) (a := c.1 + 1) (b := c.2 + 1)
      (by omega) (by omega))
    have e3 := ref_ok (nodes2D_lt (K := K) (nx := nx) (ny := ny) (a := c.1) (b := c.2 + 1)
      (by omega) (by omega))
    simp only [triangleCell, e0, e1, e2, e3]
    rfl
  rw [triangles, Res.mapM_ok _ _ _ h]
  rfl

theorem triangle_elements_get (nx : Nat) (cells : List (Nat × Nat)) (k e : Nat) (hk : k < 2) :
    ((cells.map (triangleNodes nx)).flatten)[2 * e + k]? =
      (cells[e]?).map fun c => (triangleNodes nx c).getD k [] := by
  induction cells generalizing e with
  | nil => simp
  | cons c cells ih =>
    cases e with
    | zero =>
      match k, hk with
      | 0, _ => rfl
      | 1, _ => rfl
    | succ e =>
      have : 2 * (e + 1) + k = (2 * e + k) + 2 := by ring
      rw [this]
      simpa [triangleNodes] using ih e

theorem triangle_elements_length (nx : Nat) (cells : List (Nat × Nat)) :
    ((cells.map (triangleNodes nx)).flatten).length = 2 * cells.length := by
  induction cells with
  | nil => rfl
  | cons c cells ih =>
    simp only [List.map_cons, List.flatten_cons, List.length_append, ih, List.length_cons]
    simp only [triangleNodes, List.length_cons, List.length_nil]
    ring

theorem triangle_elem {nx ny e k : Nat} (he : e < nx * ny) (hk : k < 2) :
    (triangleMesh (K := K) nx ny).elements.getD (2 * e + k) [] =
      (triangleNodes nx (e % nx, e / nx)).getD k [] := by
  rw [List.getD_eq_getElem?_getD, triangleMesh, triangle_elements_get _ _ _ _ hk,
    cells2D_get he]
  rfl

theorem triangle_coords0 {nx ny e : Nat} (he : e < nx * ny) :
    (triangleMesh (K := K) nx ny).elemCoords (2 * e + 0) =
      [[((e % nx : Nat) : K) / nx, ((e / nx : Nat) : K) / ny],
       [((e % nx : Nat) + 1 : K) / nx, ((e / nx : Nat) : K) / ny],
       [((e % nx : Nat) + 1 : K) / nx, ((e / nx : Nat) + 1 : K) / ny]] := by
  obtain ⟨h1, h2⟩ := div_mod_lt he
  rw [UnitMesh.elemCoords, triangle_elem he (by omega)]
  simp only [triangleNodes, List.getD_cons_zero, triangleMesh, List.map_cons, List.map_nil]
  rw [nodes2D_getD (by omega) (by omega), nodes2D_getD (by omega) (by omega),
    nodes2D_getD (by omega) (by omega)]
  push_cast
  rfl

theorem triangle_coords1 {nx ny e : Nat} (he : e < nx * ny) :
    (triangleMesh (K := K) nx ny).elemCoords (2 * e + 1) =
      [[((e % nx : Nat) : K) / nx, ((e / nx : Nat) : K) / ny],
       [((e % nx : Nat) + 1 : K) / nx, ((e / nx : Nat) + 1 : K) / ny],
       [((e % nx : Nat) : K) / nx, ((e / nx : Nat) + 1 : K) / ny]] := by
  obtain ⟨h1, h2⟩ := div_mod_lt he
  rw [UnitMesh.elemCoords, triangle_elem he (by omega)]
  simp only [triangleNodes, List.getD_cons_zero, List.getD_cons_succ, triangleMesh,
    List.map_cons, List.map_nil]
  rw [nodes2D_getD (by omega) (by omega), nodes2D_getD (by omega) (by omega),
    nodes2D_getD (by omega) (by omega)]
  push_cast
  rfl

theorem triangle_position0 {nx ny e : Nat} (hx : 0 < nx) (hy : 0 < ny) (he : e < nx * ny)
    (ξ : Nat → K) :
    triangleLinear.position ((triangleMesh nx ny).elemCoords (2 * e + 0)) ξ 0 =
      (((e % nx : Nat) : K) + (ξ 0 + ξ 1)) / nx ∧
    triangleLinear.position ((triangleMesh nx ny).elemCoords (2 * e + 0)) ξ 1 =
      (((e / nx : Nat) : K) + ξ 1) / ny := by
  have h1 : (nx : K) ≠ 0 := by exact_mod_cast hx.ne'
  have h2 : (ny : K) ≠ 0 := by exact_mod_cast hy.ne'
  rw [triangle_coords0 he]
  generalize ((e % nx : Nat) : K) = a
  generalize ((e / nx : Nat) : K) = b
  simp only [position, triangleLinear, triangleLinearShape, List.zipWith, List.sum_cons,
    List.sum_nil, List.getD_cons_zero, List.getD_cons_succ]
  constructor <;> field_simp <;> ring

theorem triangle_position1 {nx ny e : Nat} (hx : 0 < nx) (hy : 0 < ny) (he : e < nx * ny)
    (ξ : Nat → K) :
    triangleLinear.position ((triangleMesh nx ny).elemCoords (2 * e + 1)) ξ 0 =
      (((e % nx : Nat) : K) + ξ 0) / nx ∧
    triangleLinear.position ((triangleMesh nx ny).elemCoords (2 * e + 1)) ξ 1 =
      (((e / nx : Nat) : K) + (ξ 0 + ξ 1)) / ny := by
  have h1 : (nx : K) ≠ 0 := by exact_mod_cast hx.ne'
  have h2 : (ny : K) ≠ 0 := by exact_mod_cast hy.ne'
  rw [triangle_coords1 he]
  generalize ((e % nx : Nat) : K) = a
  generalize ((e / nx : Nat) : K) = b
  simp only [position, triangleLinear, triangleLinearShape, List.zipWith, List.sum_cons,
    List.sum_nil, List.getD_cons_zero, List.getD_cons_succ]
  constructor <;> field_simp <;> ring

theorem triangle_det {nx ny e k : Nat} (hx : 0 < nx) (hy : 0 < ny) (he : e < nx * ny)
    (hk : k < 2) (ξ : Nat → K) :
    triangleLinear.det2 ((triangleMesh nx ny).elemCoords (2 * e + k)) ξ = 1 / (nx * ny) := by
  have h1 : (nx : K) ≠ 0 := by exact_mod_cast hx.ne'
  have h2 : (ny : K) ≠ 0 := by exact_mod_cast hy.ne'
  match k, hk with
  | 0, _ =>
    rw [triangle_coords0 he]
    generalize ((e % nx : Nat) : K) = a
    generalize ((e / nx : Nat) : K) = b
    simp only [det2, jacobian, triangleLinear, triangleLinearDeriv, List.zipWith,
      List.sum_cons, List.sum_nil, List.getD_cons_zero, List.getD_cons_succ]
    field_simp
    ring
  | 1, _ =>
    rw [triangle_coords1 he]
    generalize ((e % nx : Nat) : K) = a
    generalize ((e / nx : Nat) : K) = b
    simp only [det2, jacobian, triangleLinear, triangleLinearDeriv, List.zipWith,
      List.sum_cons, List.sum_nil, List.getD_cons_zero, List.getD_cons_succ]
    field_simp
    ring

theorem split_index {n e : Nat} (he : e < 2 * n) :
    ∃ c k, c < n ∧ k < 2 ∧ e = 2 * c + k := ⟨e / 2, e % 2, by omega, by omega, by omega⟩

/-- `CreateTriangles(nx, ny)`: as for the quadrilaterals, every cell being divided into two
triangles. -/
theorem C24_triangles (nx ny : Nat) (hx : 0 < nx) (hy : 0 < ny) :
    ∃ m : UnitMesh K, triangles nx ny = .ok m ∧
      m.coordNodes.length = (nx + 1) * (ny + 1) ∧
      (∀ a b, a ≤ nx → b ≤ ny →
        m.coordNodes[a + b * (nx + 1)]? = some [(a : K) / nx, (b : K) / ny]) ∧
      m.elements.length = 2 * (nx * ny) ∧
      m.NodesUsed ∧
      (∀ e, e < m.elements.length → ∀ ξ, 0 < triangleLinear.det2 (m.elemCoords e) ξ) ∧
      m.Covers2 triangleLinear closedTriangle ∧
      m.Inside2 triangleLinear closedTriangle ∧
      m.Disjoint2 triangleLinear interiorTriangle closedTriangle ∧
      (∀ ξ : Nat → Nat → K, ((List.range m.elements.length).map fun e =>
        1 / 2 * triangleLinear.det2 (m.elemCoords e) (ξ e)).sum = 1) := by
  have h1 : (0 : K) < nx := by exact_mod_cast hx
  have h2 : (0 : K) < ny := by exact_mod_cast hy
  have hlen : (triangleMesh (K := K) nx ny).elements.length = 2 * (nx * ny) := by
    rw [triangleMesh, triangle_elements_length, cells2D_length]
  refine ⟨_, triangles_ok nx ny, ?_, ?_, hlen, ?_, ?_, ?_, ?_, ?_, ?_⟩
  · rw [triangleMesh, nodes2D_length, Nat.mul_comm]
  · exact fun a b ha hb => nodes2D_get ha hb
  · intro i
    constructor
    · rintro ⟨el, hel, hi⟩
      simp only [triangleMesh, List.mem_flatten, List.mem_map] at hel
      obtain ⟨_, ⟨c, hc, rfl⟩, hel⟩ := hel
      obtain ⟨c1, c2⟩ := cells2D_mem hc
      simp only [triangleNodes, List.mem_cons, List.not_mem_nil, or_false] at hel
      rcases hel with rfl | rfl <;>
        simp only [List.mem_cons, List.not_mem_nil, or_false] at hi <;>
        rcases hi with rfl | rfl | rfl <;> exact nodes2D_lt (by omega) (by omega)
    · intro hi
      change i < (nodes2D (K := K) nx ny).length at hi
      rw [nodes2D_length] at hi
      have ha : i % (nx + 1) ≤ nx := Nat.lt_succ_iff.1 (Nat.mod_lt _ (by omega))
      have hb : i / (nx + 1) ≤ ny := Nat.lt_succ_iff.1 (Nat.div_lt_of_lt_mul (by
        rw [Nat.mul_comm]; exact hi))
      obtain ⟨c, hc, ca, cb⟩ := mem_of_grid hx hy ha hb
      have hid : i = i % (nx + 1) + i / (nx + 1) * (nx + 1) := by
        have := Nat.mod_add_div i (nx + 1); rw [Nat.mul_comm]; omega
      have hmem : ∃ el ∈ triangleNodes nx c, i ∈ el := by
        rw [hid]
        simp only [triangleNodes, List.mem_cons, List.not_mem_nil, or_false,
          exists_eq_or_imp, exists_eq_left]
        rcases ca with ca | ca <;> rcases cb with cb | cb <;> rw [ca, cb] <;> simp
      obtain ⟨el, h3, h4⟩ := hmem
      exact ⟨el, List.mem_flatten.2 ⟨_, List.mem_map.2 ⟨c, hc, rfl⟩, h3⟩, h4⟩
  · intro e he ξ
    rw [hlen] at he
    obtain ⟨c, k, hc, hk, rfl⟩ := split_index he
    rw [triangle_det hx hy hc hk]
    positivity
  · intro x y hx0 hx1 hy0 hy1
    obtain ⟨a, ha, s, hs0, hs1, hs⟩ := cell_exists hx hx0 hx1
    obtain ⟨b, hb, t, ht0, ht1, ht⟩ := cell_exists hy hy0 hy1
    obtain ⟨i1, i2, i3⟩ := cell_index ha hb
    rcases le_total t s with hts | hts
    · refine ⟨2 * (a + b * nx) + 0, by rw [hlen]; omega, nat [s - t, t], ?_, ?_⟩
      · refine ⟨?_, ?_, ?_⟩ <;> simp only [nat, List.getD_cons_zero, List.getD_cons_succ] <;>
          linarith
      · obtain ⟨p1, p2⟩ := triangle_position0 hx hy i1 (nat [s - t, t] : Nat → K)
        rw [p1, p2, i2, i3, ← hs, ← ht]
        simp only [nat, List.getD_cons_zero, List.getD_cons_succ]
        constructor <;> simp
    · refine ⟨2 * (a + b * nx) + 1, by rw [hlen]; omega, nat [s, t - s], ?_, ?_⟩
      · refine ⟨?_, ?_, ?_⟩ <;> simp only [nat, List.getD_cons_zero, List.getD_cons_succ] <;>
          linarith
      · obtain ⟨p1, p2⟩ := triangle_position1 hx hy i1 (nat [s, t - s] : Nat → K)
        rw [p1, p2, i2, i3, ← hs, ← ht]
        simp only [nat, List.getD_cons_zero, List.getD_cons_succ]
        constructor <;> simp
  · rintro e he ξ ⟨r0, s0, rs⟩ d hd
    rw [hlen] at he
    obtain ⟨c, k, hc, hk, rfl⟩ := split_index he
    obtain ⟨l1, l2⟩ := div_mod_lt hc
    have q1 : ((c % nx : Nat) : K) + 1 ≤ nx := by exact_mod_cast l1
    have q2 : ((c / nx : Nat) : K) + 1 ≤ ny := by exact_mod_cast l2
    have q3 : (0 : K) ≤ ((c % nx : Nat) : K) := Nat.cast_nonneg _
    have q4 : (0 : K) ≤ ((c / nx : Nat) : K) := Nat.cast_nonneg _
    match k, hk, d, hd with
    | 0, _, 0, _ =>
      rw [(triangle_position0 hx hy hc ξ).1, le_div_iff₀ h1, div_le_iff₀ h1]
      constructor <;> linarith
    | 0, _, 1, _ =>
      rw [(triangle_position0 hx hy hc ξ).2, le_div_iff₀ h2, div_le_iff₀ h2]
      constructor <;> linarith
    | 1, _, 0, _ =>
      rw [(triangle_position1 hx hy hc ξ).1, le_div_iff₀ h1, div_le_iff₀ h1]
      constructor <;> linarith
    | 1, _, 1, _ =>
      rw [(triangle_position1 hx hy hc ξ).2, le_div_iff₀ h2, div_le_iff₀ h2]
      constructor <;> linarith
  · rintro e e' he he' ξ η ⟨r0, s0, rs⟩ ⟨r0', s0', rs'⟩ ex ey
    rw [hlen] at he he'
    obtain ⟨c, k, hc, hk, rfl⟩ := split_index he
    obtain ⟨c', k', hc', hk', rfl⟩ := split_index he'
    match k, hk, k', hk' with
    | 0, _, 0, _ =>
      rw [(triangle_position0 hx hy hc ξ).1, (triangle_position0 hx hy hc' η).1] at ex
      rw [(triangle_position0 hx hy hc ξ).2, (triangle_position0 hx hy hc' η).2] at ey
      obtain ⟨u1, u2⟩ := cell_unique hx (by linarith) (by linarith) (by linarith) (by linarith) ex
      obtain ⟨v1, v2⟩ := cell_unique hy (by linarith) (by linarith) (by linarith) (by linarith) ey
      refine ⟨?_, by linarith, by linarith⟩
      rw [← Nat.mod_add_div c nx, ← Nat.mod_add_div c' nx, u1, v1]
    | 1, _, 1, _ =>
      rw [(triangle_position1 hx hy hc ξ).1, (triangle_position1 hx hy hc' η).1] at ex
      rw [(triangle_position1 hx hy hc ξ).2, (triangle_position1 hx hy hc' η).2] at ey
      obtain ⟨u1, u2⟩ := cell_unique hx (by linarith) (by linarith) (by linarith) (by linarith) ex
      obtain ⟨v1, v2⟩ := cell_unique hy (by linarith) (by linarith) (by linarith) (by linarith) ey
      refine ⟨?_, by linarith, by linarith⟩
      rw [← Nat.mod_add_div c nx, ← Nat.mod_add_div c' nx, u1, v1]
    | 0, _, 1, _ =>
      rw [(triangle_position0 hx hy hc ξ).1, (triangle_position1 hx hy hc' η).1] at ex
      rw [(triangle_position0 hx hy hc ξ).2, (triangle_position1 hx hy hc' η).2] at ey
      obtain ⟨u1, u2⟩ := cell_unique hx (by linarith) (by linarith) (by linarith) (by linarith) ex
      obtain ⟨v1, v2⟩ := cell_unique hy (by linarith) (by linarith) (by linarith) (by linarith) ey
      exfalso; linarith
    | 1, _, 0, _ =>
      rw [(triangle_position1 hx hy hc ξ).1, (triangle_position0 hx hy hc' η).1] at ex
      rw [(triangle_position1 hx hy hc ξ).2, (triangle_position0 hx hy hc' η).2] at ey
      obtain ⟨u1, u2⟩ := cell_unique hx (by linarith) (by linarith) (by linarith) (by linarith) ex
      obtain ⟨v1, v2⟩ := cell_unique hy (by linarith) (by linarith) (by linarith) (by linarith) ey
      exfalso; linarith
  · intro ξ
    rw [hlen, sum_const_range (2 * (nx * ny)) _ (1 / 2 * (1 / ((nx : K) * ny))) ?_]
    · push_cast; field_simp
    · intro e he
      obtain ⟨c, k, hc, hk, rfl⟩ := split_index he
      rw [triangle_det hx hy hc hk]

/-! ### Lines -/

/-- The mesh made by `lines`. -/
def lineMesh (nx : Nat) : UnitMesh K := ⟨nodes1D nx, (List.range nx).map fun i => [i, i + 1]⟩

theorem nodes1D_get {nx a : Nat} (ha : a ≤ nx) :
    (nodes1D (K := K) nx)[a]? = some [(a : K) / nx] := by
  rw [nodes1D, List.getElem?_map, List.getElem?_range (by omega)]; rfl

theorem lines_ok (nx : Nat) : lines (K := K) nx = .ok (lineMesh nx) := by
  have hl : (nodes1D (K := K) nx).length = nx + 1 := by simp [nodes1D]
  have h : ∀ i ∈ List.range nx, line (nodes1D (K := K) nx) i = .ok [i, i + 1] := by
    intro i hi
    have hi := List.mem_range.1 hi
    simp only [line, ref_ok (show i < (nodes1D (K := K) nx).length by omega),
      ref_ok (show i + 1 < (nodes1D (K := K) nx).length by omega)]
    rfl
  rw [lines, Res.mapM_ok _ _ _ h]
  rfl

theorem line_coords {nx e : Nat} (he : e < nx) :
    (lineMesh (K := K) nx).elemCoords e = [[(e : K) / nx], [((e : K) + 1) / nx]] := by
  have hg : (lineMesh (K := K) nx).elements.getD e [] = [e, e + 1] := by
    rw [List.getD_eq_getElem?_getD, lineMesh, List.getElem?_map, List.getElem?_range he]; rfl
  rw [UnitMesh.elemCoords, hg]
  simp only [List.map_cons, List.map_nil, lineMesh, List.getD_eq_getElem?_getD,
    nodes1D_get (K := K) (show e ≤ nx by omega), nodes1D_get (K := K) (show e + 1 ≤ nx by omega)]
  push_cast
  rfl

/-- `CreateLines(nx)`: the same for the unit interval. -/
theorem C24_lines (nx : Nat) (hx : 0 < nx) :
    ∃ m : UnitMesh K, lines nx = .ok m ∧
      m.coordNodes.length = nx + 1 ∧
      (∀ a, a ≤ nx → m.coordNodes[a]? = some [(a : K) / nx]) ∧
      m.elements.length = nx ∧
      m.NodesUsed ∧
      (∀ e, e < m.elements.length → ∀ ξ, 0 < trussLinear.jacobian (m.elemCoords e) ξ 0 0) ∧
      (∀ x : K, 0 ≤ x → x ≤ 1 → ∃ e, e < m.elements.length ∧ ∃ ξ : Nat → K,
        (-1 ≤ ξ 0 ∧ ξ 0 ≤ 1) ∧ trussLinear.position (m.elemCoords e) ξ 0 = x) ∧
      (∀ e, e < m.elements.length → ∀ ξ : Nat → K, -1 ≤ ξ 0 → ξ 0 ≤ 1 →
        0 ≤ trussLinear.position (m.elemCoords e) ξ 0 ∧
        trussLinear.position (m.elemCoords e) ξ 0 ≤ 1) ∧
      (∀ e e', e < m.elements.length → e' < m.elements.length → ∀ ξ η : Nat → K,
        -1 < ξ 0 → ξ 0 < 1 → -1 ≤ η 0 → η 0 ≤ 1 →
        trussLinear.position (m.elemCoords e) ξ 0 = trussLinear.position (m.elemCoords e') η 0 →
        e = e' ∧ ξ 0 = η 0) ∧
      (∀ ξ : Nat → Nat → K, ((List.range m.elements.length).map fun e =>
        2 * trussLinear.jacobian (m.elemCoords e) (ξ e) 0 0).sum = 1) := by
  have h1 : (0 : K) < nx := by exact_mod_cast hx
  have hlen : (lineMesh (K := K) nx).elements.length = nx := by simp [lineMesh]
  have hpos : ∀ e, e < nx → ∀ ξ : Nat → K,
      trussLinear.position ((lineMesh nx).elemCoords e) ξ 0 = ((e : K) + (1 + ξ 0) / 2) / nx := by
    intro e he ξ
    rw [line_coords he]
    simp only [position, trussLinear, trussLinearShape, List.zipWith, List.sum_cons,
      List.sum_nil, List.getD_cons_zero]
    field_simp
    ring
  have hjac : ∀ e, e < nx → ∀ ξ : Nat → K,
      trussLinear.jacobian ((lineMesh nx).elemCoords e) ξ 0 0 = 1 / (2 * nx) := by
    intro e he ξ
    rw [line_coords he]
    simp only [jacobian, trussLinear, trussLinearDeriv, List.zipWith, List.sum_cons,
      List.sum_nil, List.getD_cons_zero]
    field_simp
    ring
  refine ⟨_, lines_ok nx, ?_, fun a ha => nodes1D_get ha, hlen, ?_, ?_, ?_, ?_, ?_, ?_⟩
  · simp [lineMesh, nodes1D]
  · intro i
    simp only [lineMesh, nodes1D, List.mem_map, List.mem_range, List.length_map,
      List.length_range]
    constructor
    · rintro ⟨_, ⟨j, hj, rfl⟩, hi⟩
      simp only [List.mem_cons, List.not_mem_nil, or_false] at hi
      omega
    · intro hi
      refine ⟨_, ⟨min i (nx - 1), by omega, rfl⟩, ?_⟩
      simp only [List.mem_cons, List.not_mem_nil, or_false]
      omega
  · intro e he ξ
    rw [hlen] at he
    rw [hjac e he]
    positivity
  · intro x hx0 hx1
    obtain ⟨a, ha, s, hs0, hs1, hs⟩ := cell_exists hx hx0 hx1
    refine ⟨a, by rw [hlen]; exact ha, nat [2 * s - 1], ?_, ?_⟩
    · constructor <;> simp only [nat, List.getD_cons_zero] <;> linarith
    · rw [hpos a ha, ← hs]
      simp only [nat, List.getD_cons_zero]
      ring
  · intro e he ξ r0 r1
    rw [hlen] at he
    have q1 : (e : K) + 1 ≤ nx := by exact_mod_cast he
    have q3 : (0 : K) ≤ (e : K) := Nat.cast_nonneg _
    rw [hpos e he, le_div_iff₀ h1, div_le_iff₀ h1]
    constructor <;> linarith
  · intro e e' he he' ξ η r0 r1 r0' r1' ex
    rw [hlen] at he he'
    rw [hpos e he, hpos e' he'] at ex
    obtain ⟨u1, u2⟩ := cell_unique hx (by linarith) (by linarith) (by linarith) (by linarith) ex
    exact ⟨u1, by linarith⟩
  · intro ξ
    rw [hlen, sum_const_range nx _ (1 / (nx : K)) ?_]
    · field_simp
    · intro e he
      rw [hjac e he]; field_simp

end NuTo
