/-
C24: the brick mesh of the unit cube, and `Transform`.
-/
import Verif.Props.UnitMesh
import Mathlib.Data.Rat.Floor

set_option linter.unusedSectionVars false

namespace NuTo

open Interpolation UnitMesh

variable {K : Type} [Field K] [LinearOrder K] [IsStrictOrderedRing K] [FloorRing K]

/-! ### Bricks -/

theorem nodes3D_eq (nx ny nz : Nat) : nodes3D (K := K) nx ny nz =
    (List.range (nz + 1)).flatMap fun (iZ : Nat) => (nodes2D (K := K) nx ny).map
      (fun c => c ++ [(iZ : K) / nz]) := by
  simp [nodes3D, nodes2D, List.map_flatMap, Function.comp_def]

theorem nodes3D_length (nx ny nz : Nat) :
    (nodes3D (K := K) nx ny nz).length = (nz + 1) * ((ny + 1) * (nx + 1)) := by
  rw [nodes3D_eq, length_flatMap_uniform _ ((ny + 1) * (nx + 1))
    (fun k => by rw [List.length_map, nodes2D_length])]

theorem nodes3D_get {nx ny nz a b c : Nat} (ha : a ≤ nx) (hb : b ≤ ny) (hc : c ≤ nz) :
    (nodes3D (K := K) nx ny nz)[a + b * (nx + 1) + c * (nx + 1) * (ny + 1)]? =
      some [(a : K) / nx, (b : K) / ny, (c : K) / nz] := by
  have h0 : a + b * (nx + 1) < (ny + 1) * (nx + 1) := by
    have := nodes2D_lt (K := K) ha hb
    rwa [nodes2D_length] at this
  have hid : a + b * (nx + 1) + c * (nx + 1) * (ny + 1) =
      a + b * (nx + 1) + c * ((ny + 1) * (nx + 1)) := by ring
  have h1 : a + b * (nx + 1) + c * ((ny + 1) * (nx + 1)) < (nz + 1) * ((ny + 1) * (nx + 1)) := by
    have : c * ((ny + 1) * (nx + 1)) + ((ny + 1) * (nx + 1)) ≤
        (nz + 1) * ((ny + 1) * (nx + 1)) := by
      rw [← Nat.succ_mul]; exact Nat.mul_le_mul_right _ (by omega)
    omega
  rw [hid, nodes3D_eq, getElem?_flatMap_uniform _ ((ny + 1) * (nx + 1))
    (fun k => by rw [List.length_map, nodes2D_length]), if_pos h1,
    Nat.add_mul_mod_self_right, Nat.mod_eq_of_lt h0,
    Nat.add_mul_div_right _ _ (by omega), Nat.div_eq_of_lt h0, Nat.zero_add,
    List.getElem?_map, nodes2D_get ha hb]
  rfl

theorem nodes3D_lt {nx ny nz a b c : Nat} (ha : a ≤ nx) (hb : b ≤ ny) (hc : c ≤ nz) :
    a + b * (nx + 1) + c * (nx + 1) * (ny + 1) < (nodes3D (K := K) nx ny nz).length :=
  (List.getElem?_eq_some_iff.1 (nodes3D_get (K := K) ha hb hc)).1

theorem nodes3D_getD {nx ny nz a b c : Nat} (ha : a ≤ nx) (hb : b ≤ ny) (hc : c ≤ nz) :
    (nodes3D (K := K) nx ny nz).getD (a + b * (nx + 1) + c * (nx + 1) * (ny + 1)) [] =
      [(a : K) / nx, (b : K) / ny, (c : K) / nz] := by
  rw [List.getD_eq_getElem?_getD, nodes3D_get ha hb hc]; rfl

theorem cells3D_eq (nx ny nz : Nat) : cells3D nx ny nz =
    (List.range nz).flatMap fun (iZ : Nat) => (cells2D nx ny).map
      (fun c => (c.1, c.2, iZ)) := by
  simp [cells3D, cells2D, List.map_flatMap, Function.comp_def]

theorem cells3D_length (nx ny nz : Nat) : (cells3D nx ny nz).length = nz * (nx * ny) := by
  rw [cells3D_eq, length_flatMap_uniform _ (nx * ny)
    (fun k => by rw [List.length_map, cells2D_length])]

theorem cells3D_mem {nx ny nz : Nat} {c : Nat × Nat × Nat} :
    c ∈ cells3D nx ny nz ↔ c.1 < nx ∧ c.2.1 < ny ∧ c.2.2 < nz := by
  simp only [cells3D, List.mem_flatMap, List.mem_range, List.mem_map]
  constructor
  · rintro ⟨iZ, hz, iY, hy, iX, hx, rfl⟩
    exact ⟨hx, hy, hz⟩
  · rintro ⟨hx, hy, hz⟩
    exact ⟨_, hz, _, hy, _, hx, rfl⟩

/-- The grid indices of cell number `e`. -/
def cellIdx (nx ny e : Nat) : Nat × Nat × Nat :=
  (e % (nx * ny) % nx, e % (nx * ny) / nx, e / (nx * ny))

theorem cells3D_get {nx ny nz e : Nat} (he : e < nz * (nx * ny)) :
    (cells3D nx ny nz)[e]? = some (cellIdx nx ny e) := by
  have hpos : 0 < nx * ny := (pos_of_lt_mul he).2
  rw [cells3D_eq, getElem?_flatMap_uniform _ (nx * ny)
    (fun k => by rw [List.length_map, cells2D_length]), if_pos he, List.getElem?_map,
    cells2D_get (Nat.mod_lt _ hpos)]
  rfl

theorem cellIdx_lt {nx ny nz e : Nat} (he : e < nz * (nx * ny)) :
    (cellIdx nx ny e).1 < nx ∧ (cellIdx nx ny e).2.1 < ny ∧ (cellIdx nx ny e).2.2 < nz := by
  have h := cells3D_get he
  exact cells3D_mem.1 (List.mem_of_getElem? h)

theorem cellIdx_inj {nx ny e e' : Nat} (h : cellIdx nx ny e = cellIdx nx ny e') : e = e' := by
  simp only [cellIdx, Prod.mk.injEq] at h
  obtain ⟨h1, h2, h3⟩ := h
  have h4 : e % (nx * ny) = e' % (nx * ny) := by
    rw [← Nat.mod_add_div (e % (nx * ny)) nx, ← Nat.mod_add_div (e' % (nx * ny)) nx, h1, h2]
  rw [← Nat.mod_add_div e (nx * ny), ← Nat.mod_add_div e' (nx * ny), h4, h3]

theorem cellIdx_surj {nx ny nz : Nat} {c : Nat × Nat × Nat} (h1 : c.1 < nx) (h2 : c.2.1 < ny)
    (h3 : c.2.2 < nz) : ∃ e, e < nz * (nx * ny) ∧ cellIdx nx ny e = c := by
  obtain ⟨e, he, hec⟩ := List.getElem_of_mem (cells3D_mem.2 ⟨h1, h2, h3⟩)
  rw [cells3D_length] at he
  refine ⟨e, he, ?_⟩
  have := cells3D_get he
  rw [List.getElem?_eq_getElem (by rw [cells3D_length]; exact he), hec] at this
  exact (Option.some.inj this).symm

/-- The result of `brickCell`. -/
def brickNodes (nx ny : Nat) (c : Nat × Nat × Nat) : List Nat :=
  [c.1 + c.2.1 * (nx + 1) + c.2.2 * (nx + 1) * (ny + 1),
   c.1 + 1 + c.2.1 * (nx + 1) + c.2.2 * (nx + 1) * (ny + 1),
   c.1 + 1 + (c.2.1 + 1) * (nx + 1) + c.2.2 * (nx + 1) * (ny + 1),
   c.1 + (c.2.1 + 1) * (nx + 1) + c.2.2 * (nx + 1) * (ny + 1),
   c.1 + c.2.1 * (nx + 1) + (c.2.2 + 1) * (nx + 1) * (ny + 1),
   c.1 + 1 + c.2.1 * (nx + 1) + (c.2.2 + 1) * (nx + 1) * (ny + 1),
   c.1 + 1 + (c.2.1 + 1) * (nx + 1) + (c.2.2 + 1) * (nx + 1) * (ny + 1),
   c.1 + (c.2.1 + 1) * (nx + 1) + (c.2.2 + 1) * (nx + 1) * (ny + 1)]

/-- The mesh made by `bricks`. -/
def brickMesh (nx ny nz : Nat) : UnitMesh K :=
  ⟨nodes3D nx ny nz, (cells3D nx ny nz).map (brickNodes nx ny)⟩

theorem bricks_ok (nx ny nz : Nat) : bricks (K := K) nx ny nz = .ok (brickMesh nx ny nz) := by
  have h : ∀ c ∈ cells3D nx ny nz,
      brickCell (nx + 1) (ny + 1) (nodes3D (K := K) nx ny nz) c = .ok (brickNodes nx ny c) := by
    rintro ⟨a, b, c⟩ hc
    obtain ⟨h1, h2, h3⟩ := cells3D_mem.1 hc
    dsimp only at h1 h2 h3
    have e0 := ref_ok (nodes3D_lt (K := K) (nx := nx) (ny := ny) (nz := nz) (a := a) (b := b)
      (c := c) (by omega) (by omega) (by omega))
    have e1 := ref_ok (nodes3D_lt (K := K) (nx := nx) (ny := ny) (nz := nz) (a := a + 1) (b := b)
      (c := c) (by omega) (by omega) (by omega))
    have e2 := ref_ok (nodes3D_lt (K := K) (nx := nx) (ny := ny) (nz := nz) (a := a + 1)
      (b := b + 1) (c := c) (by omega) (by omega) (by omega))
    have e3 := ref_ok (nodes3D_lt (K := K) (nx := nx) (ny := ny) (nz := nz) (a := a) (b := b + 1)
      (c := c) (by omega) (by omega) (by omega))
    have e4 := ref_ok (nodes3D_lt (K := K) (nx := nx) (ny := ny) (nz := nz) (a := a) (b := b)
      (c := c + 1) (by omega) (by omega) (by omega))
    have e5 := ref_ok (nodes3D_lt (K := K) (nx := nx) (ny := ny) (nz := nz) (a := a + 1) (b := b)
      (c := c + 1) (by omega) (by omega) (by omega))
    have e6 := ref_ok (nodes3D_lt (K := K) (nx := nx) (ny := ny) (nz := nz) (a := a + 1)
      (b := b + 1) (c := c + 1) (by omega) (by omega) (by omega))
    have e7 := ref_ok (nodes3D_lt (K := K) (nx := nx) (ny := ny) (nz := nz) (a := a) (b := b + 1)
      (c := c + 1) (by omega) (by omega) (by omega))
    simp only [brickCell, e0, e1, e2, e3, e4, e5, e6, e7]
    rfl
  rw [bricks, Res.mapM_ok _ _ _ h]
  rfl

theorem brick_coords {nx ny nz e : Nat} (he : e < nz * (nx * ny)) :
    (brickMesh (K := K) nx ny nz).elemCoords e =
      let a : K := ((cellIdx nx ny e).1 : Nat)
      let b : K := ((cellIdx nx ny e).2.1 : Nat)
      let c : K := ((cellIdx nx ny e).2.2 : Nat)
      [[a / nx, b / ny, c / nz], [(a + 1) / nx, b / ny, c / nz],
       [(a + 1) / nx, (b + 1) / ny, c / nz], [a / nx, (b + 1) / ny, c / nz],
       [a / nx, b / ny, (c + 1) / nz], [(a + 1) / nx, b / ny, (c + 1) / nz],
       [(a + 1) / nx, (b + 1) / ny, (c + 1) / nz], [a / nx, (b + 1) / ny, (c + 1) / nz]] := by
  obtain ⟨h1, h2, h3⟩ := cellIdx_lt he
  have hg : (brickMesh (K := K) nx ny nz).elements.getD e [] =
      brickNodes nx ny (cellIdx nx ny e) := by
    rw [List.getD_eq_getElem?_getD, brickMesh, List.getElem?_map, cells3D_get he]; rfl
  rw [UnitMesh.elemCoords, hg]
  revert h1 h2 h3
  generalize cellIdx nx ny e = c
  obtain ⟨a, b, c⟩ := c
  intro h1 h2 h3
  dsimp only at h1 h2 h3
  simp only [brickNodes, List.map_cons, List.map_nil, brickMesh]
  rw [nodes3D_getD (by omega) (by omega) (by omega), nodes3D_getD (by omega) (by omega) (by omega),
    nodes3D_getD (by omega) (by omega) (by omega), nodes3D_getD (by omega) (by omega) (by omega),
    nodes3D_getD (by omega) (by omega) (by omega), nodes3D_getD (by omega) (by omega) (by omega),
    nodes3D_getD (by omega) (by omega) (by omega), nodes3D_getD (by omega) (by omega) (by omega)]
  push_cast
  rfl

theorem brick_position {nx ny nz e : Nat} (hx : 0 < nx) (hy : 0 < ny) (hz : 0 < nz)
    (he : e < nz * (nx * ny)) (ξ : Nat → K) :
    brickLinear.position ((brickMesh nx ny nz).elemCoords e) ξ 0 =
      (((cellIdx nx ny e).1 : K) + (1 + ξ 0) / 2) / nx ∧
    brickLinear.position ((brickMesh nx ny nz).elemCoords e) ξ 1 =
      (((cellIdx nx ny e).2.1 : K) + (1 + ξ 1) / 2) / ny ∧
    brickLinear.position ((brickMesh nx ny nz).elemCoords e) ξ 2 =
      (((cellIdx nx ny e).2.2 : K) + (1 + ξ 2) / 2) / nz := by
  have h1 : (nx : K) ≠ 0 := by exact_mod_cast hx.ne'
  have h2 : (ny : K) ≠ 0 := by exact_mod_cast hy.ne'
  have h3 : (nz : K) ≠ 0 := by exact_mod_cast hz.ne'
  rw [brick_coords he]
  generalize (((cellIdx nx ny e).1 : Nat) : K) = a
  generalize (((cellIdx nx ny e).2.1 : Nat) : K) = b
  generalize (((cellIdx nx ny e).2.2 : Nat) : K) = c
  simp only [position, brickLinear, brickLinearShape, List.zipWith, List.sum_cons, List.sum_nil,
    List.getD_cons_zero, List.getD_cons_succ]
  refine ⟨?_, ?_, ?_⟩ <;> field_simp <;> ring

theorem brick_jacobian {nx ny nz e : Nat} (hx : 0 < nx) (hy : 0 < ny) (hz : 0 < nz)
    (he : e < nz * (nx * ny)) (ξ : Nat → K) :
    let J := brickLinear.jacobian ((brickMesh nx ny nz).elemCoords e) ξ
    J 0 0 = 1 / (2 * nx) ∧ J 1 1 = 1 / (2 * ny) ∧ J 2 2 = 1 / (2 * nz) ∧
    J 0 1 = 0 ∧ J 0 2 = 0 ∧ J 1 0 = 0 ∧ J 1 2 = 0 ∧ J 2 0 = 0 ∧ J 2 1 = 0 := by
  have h1 : (nx : K) ≠ 0 := by exact_mod_cast hx.ne'
  have h2 : (ny : K) ≠ 0 := by exact_mod_cast hy.ne'
  have h3 : (nz : K) ≠ 0 := by exact_mod_cast hz.ne'
  rw [brick_coords he]
  generalize (((cellIdx nx ny e).1 : Nat) : K) = a
  generalize (((cellIdx nx ny e).2.1 : Nat) : K) = b
  generalize (((cellIdx nx ny e).2.2 : Nat) : K) = c
  simp only [jacobian, brickLinear, brickLinearDeriv, List.zipWith, List.sum_cons, List.sum_nil,
    List.getD_cons_zero, List.getD_cons_succ]
  refine ⟨?_, ?_, ?_, ?_, ?_, ?_, ?_, ?_, ?_⟩ <;> field_simp <;> ring

def closedCube (ξ : Nat → K) : Prop := ∀ d, d < 3 → -1 ≤ ξ d ∧ ξ d ≤ 1
def interiorCube (ξ : Nat → K) : Prop := ∀ d, d < 3 → -1 < ξ d ∧ ξ d < 1

theorem grid3 {nx ny nz i : Nat} (hi : i < (nz + 1) * ((ny + 1) * (nx + 1))) :
    ∃ a b c, a ≤ nx ∧ b ≤ ny ∧ c ≤ nz ∧ i = a + b * (nx + 1) + c * (nx + 1) * (ny + 1) := by
  have hpos : 0 < (nx + 1) * (ny + 1) := by positivity
  have hi' : i < (nz + 1) * ((nx + 1) * (ny + 1)) := by rwa [Nat.mul_comm (nx + 1)]
  obtain ⟨h1, h2, h3⟩ := cellIdx_lt (nx := nx + 1) (ny := ny + 1) (nz := nz + 1) hi'
  refine ⟨_, _, _, Nat.lt_succ_iff.1 h1, Nat.lt_succ_iff.1 h2, Nat.lt_succ_iff.1 h3, ?_⟩
  simp only [cellIdx]
  have e1 := Nat.mod_add_div i ((nx + 1) * (ny + 1))
  have e2 := Nat.mod_add_div (i % ((nx + 1) * (ny + 1))) (nx + 1)
  generalize i % ((nx + 1) * (ny + 1)) = r at e1 e2 ⊢
  generalize i / ((nx + 1) * (ny + 1)) = q at e1 ⊢
  rw [← e1]
  nth_rewrite 1 [← e2]
  ring

/-- `CreateBricks(nx, ny, nz)`: the same for the unit cube. -/
theorem C24_bricks (nx ny nz : Nat) (hx : 0 < nx) (hy : 0 < ny) (hz : 0 < nz) :
    ∃ m : UnitMesh K, bricks nx ny nz = .ok m ∧
      m.coordNodes.length = (nx + 1) * (ny + 1) * (nz + 1) ∧
      (∀ a b c, a ≤ nx → b ≤ ny → c ≤ nz →
        m.coordNodes[a + b * (nx + 1) + c * (nx + 1) * (ny + 1)]? =
          some [(a : K) / nx, (b : K) / ny, (c : K) / nz]) ∧
      m.elements.length = nx * ny * nz ∧
      m.NodesUsed ∧
      (∀ e, e < m.elements.length → ∀ ξ, 0 < brickLinear.det3 (m.elemCoords e) ξ) ∧
      (∀ x : Nat → K, (∀ d, d < 3 → 0 ≤ x d ∧ x d ≤ 1) →
        ∃ e, e < m.elements.length ∧ ∃ ξ : Nat → K, closedCube ξ ∧
          ∀ d, d < 3 → brickLinear.position (m.elemCoords e) ξ d = x d) ∧
      (∀ e, e < m.elements.length → ∀ ξ : Nat → K, closedCube ξ → ∀ d, d < 3 →
        0 ≤ brickLinear.position (m.elemCoords e) ξ d ∧
        brickLinear.position (m.elemCoords e) ξ d ≤ 1) ∧
      (∀ e e', e < m.elements.length → e' < m.elements.length → ∀ ξ η : Nat → K,
        interiorCube ξ → closedCube η →
        (∀ d, d < 3 → brickLinear.position (m.elemCoords e) ξ d =
          brickLinear.position (m.elemCoords e') η d) →
        e = e' ∧ ∀ d, d < 3 → ξ d = η d) ∧
      (∀ ξ : Nat → Nat → K, ((List.range m.elements.length).map fun e =>
        8 * brickLinear.det3 (m.elemCoords e) (ξ e)).sum = 1) := by
  have h1 : (0 : K) < nx := by exact_mod_cast hx
  have h2 : (0 : K) < ny := by exact_mod_cast hy
  have h3 : (0 : K) < nz := by exact_mod_cast hz
  have hlen : (brickMesh (K := K) nx ny nz).elements.length = nz * (nx * ny) := by
    rw [brickMesh, List.length_map, cells3D_length]
  have hdet : ∀ e, e < nz * (nx * ny) → ∀ ξ : Nat → K,
      brickLinear.det3 ((brickMesh nx ny nz).elemCoords e) ξ =
        1 / (8 * ((nx : K) * ny * nz)) := by
    intro e he ξ
    obtain ⟨j1, j2, j3, j4, j5, j6, j7, j8, j9⟩ := brick_jacobian hx hy hz he ξ
    rw [det3, j1, j2, j3, j4, j5, j6, j7, j8, j9]
    field_simp
    ring
  refine ⟨_, bricks_ok nx ny nz, ?_, fun a b c ha hb hc => nodes3D_get ha hb hc, ?_, ?_, ?_, ?_,
    ?_, ?_, ?_⟩
  · rw [brickMesh, nodes3D_length]; ring
  · rw [hlen]; ring
  · intro i
    constructor
    · rintro ⟨el, hel, hi⟩
      obtain ⟨c, hc, rfl⟩ := List.mem_map.1 hel
      obtain ⟨c1, c2, c3⟩ := cells3D_mem.1 hc
      simp only [brickNodes, List.mem_cons, List.not_mem_nil, or_false] at hi
      rcases hi with rfl | rfl | rfl | rfl | rfl | rfl | rfl | rfl <;>
        exact nodes3D_lt (by omega) (by omega) (by omega)
    · intro hi
      change i < (nodes3D (K := K) nx ny nz).length at hi
      rw [nodes3D_length] at hi
      obtain ⟨a, b, c, ha, hb, hc, rfl⟩ := grid3 hi
      have ca : a = min a (nx - 1) ∨ a = min a (nx - 1) + 1 := by omega
      have cb : b = min b (ny - 1) ∨ b = min b (ny - 1) + 1 := by omega
      have cc : c = min c (nz - 1) ∨ c = min c (nz - 1) + 1 := by omega
      have hmem : (min a (nx - 1), min b (ny - 1), min c (nz - 1)) ∈ cells3D nx ny nz :=
        cells3D_mem.2 ⟨by dsimp only; omega, by dsimp only; omega, by dsimp only; omega⟩
      refine ⟨_, List.mem_map.2 ⟨_, hmem, rfl⟩, ?_⟩
      simp only [brickNodes, List.mem_cons, List.not_mem_nil, or_false]
      generalize min a (nx - 1) = a' at ca
      generalize min b (ny - 1) = b' at cb
      generalize min c (nz - 1) = c' at cc
      rcases ca with rfl | rfl <;> rcases cb with rfl | rfl <;> rcases cc with rfl | rfl <;> simp
  · intro e he ξ
    rw [hlen] at he
    rw [hdet e he]
    positivity
  · intro x hx01
    obtain ⟨a, ha, s, hs0, hs1, hs⟩ := cell_exists hx (hx01 0 (by omega)).1 (hx01 0 (by omega)).2
    obtain ⟨b, hb, t, ht0, ht1, ht⟩ := cell_exists hy (hx01 1 (by omega)).1 (hx01 1 (by omega)).2
    obtain ⟨c, hc, u, hu0, hu1, hu⟩ := cell_exists hz (hx01 2 (by omega)).1 (hx01 2 (by omega)).2
    obtain ⟨e, he, hec⟩ := cellIdx_surj (c := (a, b, c)) ha hb hc
    refine ⟨e, by rw [hlen]; exact he, nat [2 * s - 1, 2 * t - 1, 2 * u - 1], ?_, ?_⟩
    · intro d hd
      match d, hd with
      | 0, _ => constructor <;> simp only [nat, List.getD_cons_zero] <;> linarith
      | 1, _ => constructor <;> simp only [nat, List.getD_cons_zero, List.getD_cons_succ] <;>
                  linarith
      | 2, _ => constructor <;> simp only [nat, List.getD_cons_zero, List.getD_cons_succ] <;>
                  linarith
    · obtain ⟨p1, p2, p3⟩ := brick_position hx hy hz he
        (nat [2 * s - 1, 2 * t - 1, 2 * u - 1] : Nat → K)
      rw [hec] at p1 p2 p3
      intro d hd
      match d, hd with
      | 0, _ => rw [p1, ← hs]; simp only [nat, List.getD_cons_zero]; ring
      | 1, _ => rw [p2, ← ht]; simp only [nat, List.getD_cons_zero, List.getD_cons_succ]; ring
      | 2, _ => rw [p3, ← hu]; simp only [nat, List.getD_cons_zero, List.getD_cons_succ]; ring
  · intro e he ξ hξ d hd
    rw [hlen] at he
    obtain ⟨p1, p2, p3⟩ := brick_position hx hy hz he ξ
    obtain ⟨l1, l2, l3⟩ := cellIdx_lt he
    have q1 : ((cellIdx nx ny e).1 : K) + 1 ≤ nx := by exact_mod_cast l1
    have q2 : ((cellIdx nx ny e).2.1 : K) + 1 ≤ ny := by exact_mod_cast l2
    have q3 : ((cellIdx nx ny e).2.2 : K) + 1 ≤ nz := by exact_mod_cast l3
    have q4 : (0 : K) ≤ ((cellIdx nx ny e).1 : K) := Nat.cast_nonneg _
    have q5 : (0 : K) ≤ ((cellIdx nx ny e).2.1 : K) := Nat.cast_nonneg _
    have q6 : (0 : K) ≤ ((cellIdx nx ny e).2.2 : K) := Nat.cast_nonneg _
    obtain ⟨r0, r1⟩ := hξ d hd
    match d, hd with
    | 0, _ => rw [p1, le_div_iff₀ h1, div_le_iff₀ h1]; constructor <;> linarith
    | 1, _ => rw [p2, le_div_iff₀ h2, div_le_iff₀ h2]; constructor <;> linarith
    | 2, _ => rw [p3, le_div_iff₀ h3, div_le_iff₀ h3]; constructor <;> linarith
  · intro e e' he he' ξ η hξ hη heq
    rw [hlen] at he he'
    obtain ⟨p1, p2, p3⟩ := brick_position hx hy hz he ξ
    obtain ⟨p1', p2', p3'⟩ := brick_position hx hy hz he' η
    have e1 := heq 0 (by omega)
    have e2 := heq 1 (by omega)
    have e3 := heq 2 (by omega)
    rw [p1, p1'] at e1
    rw [p2, p2'] at e2
    rw [p3, p3'] at e3
    obtain ⟨a0, a1⟩ := hξ 0 (by omega)
    obtain ⟨b0, b1⟩ := hξ 1 (by omega)
    obtain ⟨c0, c1⟩ := hξ 2 (by omega)
    obtain ⟨a0', a1'⟩ := hη 0 (by omega)
    obtain ⟨b0', b1'⟩ := hη 1 (by omega)
    obtain ⟨c0', c1'⟩ := hη 2 (by omega)
    obtain ⟨u1, u2⟩ := cell_unique hx (by linarith) (by linarith) (by linarith) (by linarith) e1
    obtain ⟨v1, v2⟩ := cell_unique hy (by linarith) (by linarith) (by linarith) (by linarith) e2
    obtain ⟨w1, w2⟩ := cell_unique hz (by linarith) (by linarith) (by linarith) (by linarith) e3
    refine ⟨cellIdx_inj (Prod.ext u1 (Prod.ext v1 w1)), ?_⟩
    intro d hd
    match d, hd with
    | 0, _ => linarith
    | 1, _ => linarith
    | 2, _ => linarith
  · intro ξ
    rw [hlen, sum_const_range (nz * (nx * ny)) _ (1 / ((nx : K) * ny * nz)) ?_]
    · push_cast; field_simp
    · intro e he
      rw [hdet e he]; field_simp

/-! ### Transform -/

theorem foldlM_eq {α β : Type} (f : β → α → Res β) (l : List α) (b : β) :
    List.foldlM f b l = Res.foldlM f b l := by
  induction l generalizing b with
  | nil => rfl
  | cons a l ih =>
    rw [List.foldlM_cons, Res.foldlM_cons]
    cases h : f b a with
    | ok c => exact ih c
    | throw => rfl
    | ub => rfl

theorem transform_fold (f : List K → List K) (hf : ∀ c, (f c).length = c.length)
    (l : List Nat) (hn : l.Nodup) (coords : List (List K)) :
    ∃ coords', Res.foldlM (transformStep f) coords l = .ok coords' ∧
      coords'.length = coords.length ∧
      ∀ i, coords'[i]? = if i ∈ l then (coords[i]?).map f else coords[i]? := by
  induction l generalizing coords with
  | nil => exact ⟨coords, rfl, rfl, fun i => by simp⟩
  | cons a l ih =>
    obtain ⟨ha, hn⟩ := List.nodup_cons.1 hn
    obtain ⟨coords', h1, h2, h3⟩ := ih hn (coords.set a (f (coords.getD a [])))
    refine ⟨coords', ?_, ?_, ?_⟩
    · rw [Res.foldlM_cons, transformStep, if_pos (hf _)]
      exact h1
    · rw [h2, List.length_set]
    · intro i
      rw [h3 i, List.getElem?_set]
      by_cases hia : a = i
      · subst hia
        simp only [ha, if_false, List.mem_cons_self, if_true]
        split
        · next hlt => rw [List.getD_eq_getElem?_getD, List.getElem?_eq_getElem hlt]; rfl
        · next hlt => rw [List.getElem?_eq_none (by omega)]; rfl
      · have hai : (i ∈ a :: l) = (i ∈ l) := by
          simp [List.mem_cons, Ne.symm hia]
        simp only [hia, if_false, hai]

theorem mem_ofList (xs : List Nat) (i : Nat) : i ∈ (Group.ofList xs).data ↔ i ∈ xs := by
  suffices h : ∀ (g : Group), Group.Inv g →
      (i ∈ (xs.foldl Group.add g).data ↔ i ∈ g.data ∨ i ∈ xs) by
    rw [Group.ofList, h _ Group.inv_empty]
    simp [Group.empty]
  induction xs with
  | nil => intro g _; simp
  | cons x xs ih =>
    intro g hg
    rw [List.foldl_cons, ih _ (Group.inv_add hg x), Group.data_add hg]
    split
    · next hx =>
      simp only [List.mem_cons]
      constructor
      · rintro (h | h)
        · exact Or.inl h
        · exact Or.inr (Or.inr h)
      · rintro (h | rfl | h)
        · exact Or.inl h
        · exact Or.inl hx
        · exact Or.inr h
    · simp only [List.mem_append, List.mem_cons, List.not_mem_nil, or_false, or_assoc]

/-- `Transform`: if `f` keeps the dimension, every coordinate node of an element is moved by
`f` exactly once, however many elements share it; other nodes and the elements stay. -/
theorem C24_transform (m : UnitMesh K) (f : List K → List K)
    (hf : ∀ c, (f c).length = c.length) :
    ∃ m', m.transform f = .ok m' ∧ m'.elements = m.elements ∧
      m'.coordNodes.length = m.coordNodes.length ∧
      ∀ i c, m.coordNodes[i]? = some c →
        ((∃ el ∈ m.elements, i ∈ el) → m'.coordNodes[i]? = some (f c)) ∧
        ((¬ ∃ el ∈ m.elements, i ∈ el) → m'.coordNodes[i]? = some c) := by
  have hinv : Group.Inv (Group.ofList m.elements.flatten) :=
    Group.inv_foldl_add _ _ Group.inv_empty
  obtain ⟨coords', h1, h2, h3⟩ := transform_fold f hf _ hinv.nodup m.coordNodes
  refine ⟨⟨coords', m.elements⟩, ?_, rfl, h2, ?_⟩
  · rw [transform, nodesTotal, foldlM_eq, h1]; rfl
  · intro i c hc
    have hmem : i ∈ (Group.ofList m.elements.flatten).data ↔ ∃ el ∈ m.elements, i ∈ el := by
      rw [mem_ofList, List.mem_flatten]
    constructor
    · intro h
      change coords'[i]? = _
      rw [h3 i, if_pos (hmem.2 h), hc]; rfl
    · intro h
      change coords'[i]? = _
      rw [h3 i, if_neg (fun hc' => h (hmem.1 hc')), hc]

/-- Transforming a unit mesh moves each of its nodes by `f` exactly once. -/
theorem C24_transform_unit (m : UnitMesh K) (hm : m.NodesUsed) (f : List K → List K)
    (hf : ∀ c, (f c).length = c.length) :
    m.transform f = .ok ⟨m.coordNodes.map f, m.elements⟩ := by
  obtain ⟨⟨cs, es⟩, h1, h2, h3, h4⟩ := C24_transform m f hf
  rw [h1]
  dsimp only at h2 h3 h4
  subst h2
  congr 2
  apply List.ext_getElem?
  intro i
  rw [List.getElem?_map]
  cases hc : m.coordNodes[i]? with
  | none =>
    have : m.coordNodes.length ≤ i := by simpa using hc
    rw [List.getElem?_eq_none (by omega)]; rfl
  | some c =>
    exact (h4 i c hc).1 ((hm i).2 (List.getElem?_eq_some_iff.1 hc).1)

/-- The hypotheses are met: stretching a mesh of two triangles. -/
example : ∃ m : UnitMesh ℚ, triangles 1 1 = .ok m ∧ m.NodesUsed ∧
    m.transform (fun c => c.map (2 * ·)) =
      .ok ⟨[[0, 0], [2, 0], [0, 2], [2, 2]], [[0, 1, 3], [0, 3, 2]]⟩ := by
  obtain ⟨m, h1, _, _, _, h5, _⟩ := C24_triangles (K := ℚ) 1 1 (by omega) (by omega)
  refine ⟨m, h1, h5, ?_⟩
  rw [C24_transform_unit m h5 _ (fun c => by simp)]
  have h2 : triangles (K := ℚ) 1 1 = .ok ⟨[[0, 0], [1, 0], [0, 1], [1, 1]],
      [[0, 1, 3], [0, 3, 2]]⟩ := by decide +kernel
  rw [h1] at h2
  injection h2 with h2
  subst h2
  simp

end NuTo
