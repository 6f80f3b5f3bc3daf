/-
C113: when mass matrices can be inverted.
-/
import Verif.Model.MassMatrix
import Verif.Props.Stiffness
import Verif.Props.FrameInvariance
import Mathlib.LinearAlgebra.Dimension.Constructions
import Mathlib.LinearAlgebra.FiniteDimensional.Basic
import Mathlib.LinearAlgebra.FiniteDimensional.Lemmas
import Mathlib.Tactic.LinearCombination
import Mathlib.Algebra.BigOperators.Field

namespace NuTo

open Assembly Finset Balance

namespace Mass

/-- What is known about a mass matrix that the assembler has built for the elements of a mesh -/
structure Built (dof dim n : Nat) (rho : ℝ) (cells : List (Cell × FemElement ℝ)) (m : SpMat ℝ) : Prop where
  part : ∀ x ∈ cells, Part dim n x.2
  points : ∀ x ∈ cells, ∃ pts, x.1.Points pts
  result : ∃ s junk threads h, s.size dof = .ok n ∧ threads.flatten.Perm cells ∧
    assembleMatrix s dof (mass junk dof rho) threads = .ok h ∧ h.find? (toLex (dof, dof)) = some m

/-- C113: the assembler delivers the matrix for every schedule of the threads. -/
theorem C113_exists (s : DofSizes) (dof dim n : Nat) (junk : Nat → Nat → ℝ) (rho : ℝ)
    (cells : List (Cell × FemElement ℝ)) (threads : List (List (Cell × FemElement ℝ)))
    (hp : threads.flatten.Perm cells) (hs : s.size dof = .ok n) (hb : ∀ x ∈ cells, Part dim n x.2)
    (hpts : ∀ x ∈ cells, ∃ pts, x.1.Points pts) :
    ∃ h m, assembleMatrix s dof (mass junk dof rho) threads = .ok h ∧ h.find? (toLex (dof, dof)) = some m ∧
      m.rows = n ∧ m.cols = n ∧ Built dof dim n rho cells m := by
  have : Inhabited (List (ℝ × IpData)) := ⟨[]⟩
  choose! pts h using hpts
  obtain ⟨r, m, h1, h2, h3, h4, _⟩ := C78_mass_form s dof dim n junk rho cells threads hp hs hb pts h
  exact ⟨r, m, h1, h2, h3, h4, hb, fun x hx => ⟨_, h x hx⟩, s, junk, threads, r, hs, hp, h1, h2⟩

variable {dof dim n : Nat} {rho : ℝ} {cells : List (Cell × FemElement ℝ)} {m : SpMat ℝ}

theorem Built.form (k : Built dof dim n rho cells m) (pts : Cell × FemElement ℝ → List (ℝ × IpData))
    (hpts : ∀ x ∈ cells, x.1.Points (pts x)) (R S : Nat → ℝ) :
    ∑ i ∈ range n, ∑ j ∈ range n, R i * m.entry i j * S j =
      (cells.map fun x => ((pts x).map fun p =>
        rho * dot (interpolated dim x.2 R fun k => p.2.coords.getD k 0)
          (interpolated dim x.2 S fun k => p.2.coords.getD k 0) * p.2.jacobian.det * p.1).sum).sum := by
  obtain ⟨s, junk, threads, h, hs, hp, h1, h2⟩ := k.result
  obtain ⟨h', m', g1, g2, _, _, g5⟩ := C78_mass_form s dof dim n junk rho cells threads hp hs k.part pts hpts
  rw [h1] at g1
  obtain rfl := Res.ok.inj g1
  rw [h2] at g2
  obtain rfl := Option.some.inj g2
  exact g5 R S

theorem Built.choice (k : Built dof dim n rho cells m) :
    ∃ pts : Cell × FemElement ℝ → List (ℝ × IpData), ∀ x ∈ cells, x.1.Points (pts x) := by
  have : Inhabited (List (ℝ × IpData)) := ⟨[]⟩
  have hpts := k.points
  choose! pts h using hpts
  exact ⟨pts, h⟩

theorem dot_comm (a b : List ℝ) (h : a.length = b.length) : dot a b = dot b a := by
  rw [dot, dot, h]
  exact sum_congr rfl fun k _ => mul_comm _ _

theorem interpolated_length (dim : Nat) (e : FemElement ℝ) (R xi : Nat → ℝ) : (interpolated dim e R xi).length = dim := by
  simp [interpolated]

/-- C113: the mass matrix is symmetric. -/
theorem C113_symmetric (k : Built dof dim n rho cells m) (i j : Nat) (hi : i < n) (hj : j < n) :
    m.entry i j = m.entry j i := by
  obtain ⟨pts, hpts⟩ := k.choice
  rw [← pick n i j hi hj m.entry, ← pick n j i hj hi m.entry, k.form pts hpts, k.form pts hpts]
  congr 1
  refine List.map_congr_left fun x hx => ?_
  congr 1
  refine List.map_congr_left fun p _ => ?_
  rw [dot_comm _ _ (by rw [interpolated_length, interpolated_length])]

/-- The interpolated values of `R` vanish at all integration points. -/
def Still (dim : Nat) (cells : List (Cell × FemElement ℝ)) (R : Nat → ℝ) : Prop :=
  ∀ x ∈ cells, ∀ ip ∈ x.1.rule, ∀ y ∈ interpolated dim x.2 R fun k => ip.2.getD k 0, y = 0

/-- All integration points have positive weights. -/
def Weighted (cells : List (Cell × FemElement ℝ)) : Prop :=
  ∀ x ∈ cells, ∀ pts, x.1.Points pts → ∀ p ∈ pts, 0 < p.2.jacobian.det * p.1

theorem points_rule {c : Cell} {pts : List (ℝ × IpData)} (h : c.Points pts) :
    (∀ p ∈ pts, ∃ ip ∈ c.rule, p.2.coords = ip.2) ∧ ∀ ip ∈ c.rule, ∃ p ∈ pts, p.2.coords = ip.2 := by
  have key : ∀ (L : List ((ℝ × List ℝ) × Nat)) (A : List (ℝ × IpData)),
      List.Forall₂ (fun (ip : (ℝ × List ℝ) × Nat) (p : ℝ × IpData) => p.1 = ip.1.1 ∧ c.ipData ip.2 ip.1.2 = .ok p.2) L A →
      (∀ p ∈ A, ∃ ip ∈ L.map Prod.fst, p.2.coords = ip.2) ∧ ∀ ip ∈ L.map Prod.fst, ∃ p ∈ A, p.2.coords = ip.2 := by
    intro L A hf
    induction hf with
    | nil => exact ⟨fun p hp => absurd hp List.not_mem_nil, fun p hp => absurd hp List.not_mem_nil⟩
    | @cons ip p L A hp _ ih =>
      have hc : p.2.coords = ip.1.2 := (Frame.ipData_fields hp.2).2.2
      refine ⟨fun q hq => ?_, fun q hq => ?_⟩
      · rcases List.mem_cons.1 hq with rfl | hq
        · exact ⟨ip.1, List.mem_cons_self, hc⟩
        · obtain ⟨r, h1, h2⟩ := ih.1 q hq
          exact ⟨r, List.mem_cons_of_mem _ h1, h2⟩
      · rw [List.map_cons] at hq
        rcases List.mem_cons.1 hq with rfl | hq
        · exact ⟨p, List.mem_cons_self, hc⟩
        · obtain ⟨r, h1, h2⟩ := ih.2 q hq
          exact ⟨r, List.mem_cons_of_mem _ h1, h2⟩
  have := key _ _ h
  rwa [List.zipIdx_map_fst] at this

theorem dot_self_zero {a : List ℝ} : dot a a = 0 ↔ ∀ y ∈ a, y = 0 := by
  rw [dot, sum_eq_zero_iff_of_nonneg fun k _ => mul_self_nonneg _]
  constructor
  · intro h y hy
    obtain ⟨k, hk, rfl⟩ := List.getElem_of_mem hy
    have := h k (mem_range.2 hk)
    rw [List.getD_eq_getElem _ _ hk] at this
    exact mul_self_eq_zero.1 this
  · intro h k hk
    have hk := mem_range.1 hk
    rw [List.getD_eq_getElem _ _ hk, h _ (List.getElem_mem hk), mul_zero]

theorem dot_self_nonneg (a : List ℝ) : 0 ≤ dot a a := sum_nonneg fun _ _ => mul_self_nonneg _

theorem dot_zero {a b : List ℝ} (hl : a.length = b.length) (h : ∀ y ∈ b, y = 0) : dot a b = 0 := by
  rw [dot]
  refine sum_eq_zero fun k hk => ?_
  have hk : k < b.length := by rw [← hl]; exact mem_range.1 hk
  rw [List.getD_eq_getElem b _ hk, h _ (List.getElem_mem hk), mul_zero]

/-- C113: the kinetic energy of a motion is never negative. -/
theorem C113_nonneg (k : Built dof dim n rho cells m) (hr : 0 < rho) (hw : Weighted cells) (R : Nat → ℝ) :
    0 ≤ ∑ i ∈ range n, ∑ j ∈ range n, R i * m.entry i j * R j := by
  obtain ⟨pts, hpts⟩ := k.choice
  rw [k.form pts hpts]
  refine List.sum_nonneg fun y hy => ?_
  obtain ⟨x, hx, rfl⟩ := List.mem_map.1 hy
  refine List.sum_nonneg fun z hz => ?_
  obtain ⟨p, hp, rfl⟩ := List.mem_map.1 hz
  rw [mul_assoc]
  exact mul_nonneg (mul_nonneg hr.le (dot_self_nonneg _)) (hw x hx _ (hpts x hx) p hp).le

/-- C113: it vanishes exactly for motions whose interpolation vanishes at all integration points. -/
theorem C113_energy_zero (k : Built dof dim n rho cells m) (hr : 0 < rho) (hw : Weighted cells) (R : Nat → ℝ) :
    ∑ i ∈ range n, ∑ j ∈ range n, R i * m.entry i j * R j = 0 ↔ Still dim cells R := by
  obtain ⟨pts, hpts⟩ := k.choice
  have hterm : ∀ x ∈ cells, ∀ p ∈ pts x, 0 ≤ rho * dot (interpolated dim x.2 R fun k => p.2.coords.getD k 0)
      (interpolated dim x.2 R fun k => p.2.coords.getD k 0) * p.2.jacobian.det * p.1 := by
    intro x hx p hp
    rw [mul_assoc]
    exact mul_nonneg (mul_nonneg hr.le (dot_self_nonneg _)) (hw x hx _ (hpts x hx) p hp).le
  rw [k.form pts hpts]
  constructor
  · intro h0 x hx ip hip
    have h1 := list_sum_zero (by
      intro y hy
      obtain ⟨x, hx, rfl⟩ := List.mem_map.1 hy
      refine List.sum_nonneg fun z hz => ?_
      obtain ⟨p, hp, rfl⟩ := List.mem_map.1 hz
      exact hterm x hx p hp) h0 _ (List.mem_map.2 ⟨x, hx, rfl⟩)
    obtain ⟨p, hp, hc⟩ := (points_rule (hpts x hx)).2 ip hip
    have h2 := list_sum_zero (by
      intro z hz
      obtain ⟨p, hp, rfl⟩ := List.mem_map.1 hz
      exact hterm x hx p hp) h1 _ (List.mem_map.2 ⟨p, hp, rfl⟩)
    rw [mul_assoc] at h2
    have h3 := (mul_eq_zero.1 h2).resolve_right (hw x hx _ (hpts x hx) p hp).ne'
    rw [← hc]
    exact dot_self_zero.1 ((mul_eq_zero.1 h3).resolve_left hr.ne')
  · intro h0
    refine List.sum_eq_zero fun y hy => ?_
    obtain ⟨x, hx, rfl⟩ := List.mem_map.1 hy
    refine List.sum_eq_zero fun z hz => ?_
    obtain ⟨p, hp, rfl⟩ := List.mem_map.1 hz
    obtain ⟨ip, hip, hc⟩ := (points_rule (hpts x hx)).1 p hp
    rw [hc, dot_self_zero.2 (h0 x hx ip hip), mul_zero, zero_mul, zero_mul]

theorem still_kernel (k : Built dof dim n rho cells m) {R : Nat → ℝ} (h0 : Still dim cells R) (i : Nat) (hi : i < n) :
    ∑ j ∈ range n, m.entry i j * R j = 0 := by
  obtain ⟨pts, hpts⟩ := k.choice
  rw [← pickRow n i hi, k.form pts hpts]
  refine List.sum_eq_zero fun y hy => ?_
  obtain ⟨x, hx, rfl⟩ := List.mem_map.1 hy
  refine List.sum_eq_zero fun z hz => ?_
  obtain ⟨p, hp, rfl⟩ := List.mem_map.1 hz
  obtain ⟨ip, hip, hc⟩ := (points_rule (hpts x hx)).1 p hp
  rw [hc, dot_zero (by rw [interpolated_length, interpolated_length]) (h0 x hx ip hip), mul_zero, zero_mul, zero_mul]

/-- C113: these motions are the kernel of the matrix. -/
theorem C113_kernel (k : Built dof dim n rho cells m) (hr : 0 < rho) (hw : Weighted cells) (R : Nat → ℝ) :
    (∀ i < n, ∑ j ∈ range n, m.entry i j * R j = 0) ↔ Still dim cells R := by
  constructor
  · intro h
    rw [← C113_energy_zero k hr hw]
    refine sum_eq_zero fun i hi => ?_
    rw [show (∑ j ∈ range n, R i * m.entry i j * R j) = R i * ∑ j ∈ range n, m.entry i j * R j by
      rw [mul_sum]
      exact sum_congr rfl fun j _ => by ring, h i (mem_range.1 hi), mul_zero]
  · exact still_kernel k

/-- The points of a rule determine what is interpolated from the nodes. -/
def Resolves (I : Interpolation ℝ) (rule : List (ℝ × List ℝ)) : Prop :=
  ∀ c : Nat → ℝ, (∀ ip ∈ rule, ∑ i ∈ range I.numNodes, (I.shape fun k => ip.2.getD k 0).getD i 0 * c i = 0) →
    ∀ i < I.numNodes, c i = 0

/-- Each dof belongs to a node of an element. -/
def Covered (dim n : Nat) (cells : List (Cell × FemElement ℝ)) : Prop :=
  ∀ i < n, ∃ x ∈ cells, ∃ l < x.2.nodes.length, ∃ a < dim, number x.2 l a = i

theorem still_zero (hpart : ∀ x ∈ cells, Part dim n x.2) (hc : Covered dim n cells)
    (hres : ∀ x ∈ cells, Resolves x.2.interp x.1.rule) {R : Nat → ℝ} (h : Still dim cells R) (i : Nat) (hi : i < n) : R i = 0 := by
  obtain ⟨x, hx, l, hl, a, ha, rfl⟩ := hc i hi
  rw [(hpart x hx).nodes.count] at hl
  refine hres x hx (fun l => R (number x.2 l a)) (fun ip hip => ?_) l hl
  exact h x hx ip hip _ (List.mem_map.2 ⟨a, List.mem_range.2 ha, rfl⟩)

/-- C113: if the points of the rules determine the interpolations, every motion has kinetic energy and the matrix is
invertible: two accelerations with the same inertia forces agree. -/
theorem C113_definite (k : Built dof dim n rho cells m) (hr : 0 < rho) (hw : Weighted cells) (hc : Covered dim n cells)
    (hres : ∀ x ∈ cells, Resolves x.2.interp x.1.rule) :
    (∀ R : Nat → ℝ, (∃ i < n, R i ≠ 0) → 0 < ∑ i ∈ range n, ∑ j ∈ range n, R i * m.entry i j * R j) ∧
    ∀ R S : Nat → ℝ, (∀ i < n, ∑ j ∈ range n, m.entry i j * R j = ∑ j ∈ range n, m.entry i j * S j) →
      ∀ i < n, R i = S i := by
  refine ⟨fun R ⟨i, hi, hne⟩ => ?_, fun R S h i hi => ?_⟩
  · refine lt_of_le_of_ne (C113_nonneg k hr hw R) fun h0 => hne ?_
    exact still_zero k.part hc hres ((C113_energy_zero k hr hw R).1 h0.symm) i hi
  · have : Still dim cells fun j => R j - S j := by
      rw [← C113_kernel k hr hw]
      intro i hi
      rw [← sub_eq_zero.2 (h i hi), ← sum_sub_distrib]
      exact sum_congr rfl fun j _ => by ring
    exact sub_eq_zero.1 (still_zero k.part hc hres this i hi)

/-! ### Which rules determine an interpolation -/

/-- C113: two points determine linear trusses. -/
theorem C113_trussLinear (rule : List (ℝ × List ℝ)) (w v x y : ℝ) (h1 : (w, [x]) ∈ rule) (h2 : (v, [y]) ∈ rule)
    (hxy : x ≠ y) : Resolves Interpolation.trussLinear rule := by
  intro c h i hi
  have e1 := h _ h1
  have e2 := h _ h2
  simp [Interpolation.trussLinear, Interpolation.trussLinearShape, sum_range_succ] at e1 e2 hi
  have hd : x - y ≠ 0 := sub_ne_zero.2 hxy
  have k1 : c 1 = c 0 := mul_left_cancel₀ hd (by linear_combination 2 * e1 - 2 * e2)
  have k0 : c 0 = 0 := by rw [k1] at e1; linear_combination e1
  obtain rfl | rfl : i = 0 ∨ i = 1 := by omega
  · exact k0
  · rw [k1, k0]

/-- C113: three points determine quadratic trusses. -/
theorem C113_trussQuadratic (rule : List (ℝ × List ℝ)) (w v u x y z : ℝ) (h1 : (w, [x]) ∈ rule) (h2 : (v, [y]) ∈ rule)
    (h3 : (u, [z]) ∈ rule) (hxy : x ≠ y) (hxz : x ≠ z) (hyz : y ≠ z) : Resolves Interpolation.trussQuadratic rule := by
  intro c h i hi
  have e1 := h _ h1
  have e2 := h _ h2
  have e3 := h _ h3
  simp [Interpolation.trussQuadratic, Interpolation.trussQuadraticShape, sum_range_succ] at e1 e2 e3 hi
  have k2 : (c 0 + c 2) / 2 - c 1 = 0 := mul_left_cancel₀
    (mul_ne_zero (mul_ne_zero (sub_ne_zero.2 hxy) (sub_ne_zero.2 hxz)) (sub_ne_zero.2 hyz)) (by
      linear_combination (y - z) * e1 + (z - x) * e2 + (x - y) * e3)
  have k1 : c 2 = c 0 := mul_left_cancel₀ (sub_ne_zero.2 hxy) (by
    linear_combination 2 * e1 - 2 * e2 - 2 * (x * x - y * y) * k2)
  have k3 : c 1 = 0 := by linear_combination e1 - (x * x) * k2 - (x / 2) * k1
  have k0 : c 0 = 0 := by linear_combination k2 + k3 - k1 / 2
  obtain rfl | rfl | rfl : i = 0 ∨ i = 1 ∨ i = 2 := by omega
  · exact k0
  · exact k3
  · rw [k1, k0]

/-- C113: three points that are not on a line determine linear triangles. -/
theorem C113_triangleLinear (rule : List (ℝ × List ℝ)) (w v u x0 y0 x1 y1 x2 y2 : ℝ) (h1 : (w, [x0, y0]) ∈ rule)
    (h2 : (v, [x1, y1]) ∈ rule) (h3 : (u, [x2, y2]) ∈ rule)
    (hd : (x1 - x0) * (y2 - y0) - (x2 - x0) * (y1 - y0) ≠ 0) : Resolves Interpolation.triangleLinear rule := by
  intro c h i hi
  have e1 := h _ h1
  have e2 := h _ h2
  have e3 := h _ h3
  simp [Interpolation.triangleLinear, Interpolation.triangleLinearShape, sum_range_succ] at e1 e2 e3 hi
  have k1 : c 1 = c 0 := mul_left_cancel₀ hd (by
    linear_combination (e2 - e1) * (y2 - y0) - (e3 - e1) * (y1 - y0))
  have k2 : c 2 = c 0 := mul_left_cancel₀ hd (by
    linear_combination (e3 - e1) * (x1 - x0) - (e2 - e1) * (x2 - x0))
  have k0 : c 0 = 0 := by rw [k1, k2] at e1; linear_combination e1
  obtain rfl | rfl | rfl : i = 0 ∨ i = 1 ∨ i = 2 := by omega
  · exact k0
  · rw [k1, k0]
  · rw [k2, k0]

/-- C113: a grid of two by two points determines linear quadrilaterals. -/
theorem C113_quadLinear (rule : List (ℝ × List ℝ)) (x y : Fin 2 → ℝ) (w : Fin 2 → Fin 2 → ℝ)
    (h : ∀ i j, (w i j, [x i, y j]) ∈ rule) (hx : x 0 ≠ x 1) (hy : y 0 ≠ y 1) :
    Resolves Interpolation.quadLinear rule := by
  intro c hc i hi
  have e00 := hc _ (h 0 0)
  have e01 := hc _ (h 0 1)
  have e10 := hc _ (h 1 0)
  have e11 := hc _ (h 1 1)
  simp [Interpolation.quadLinear, Interpolation.quadLinearShape, sum_range_succ] at e00 e01 e10 e11 hi
  have dx := sub_ne_zero.2 hx
  have dy := sub_ne_zero.2 hy
  have kD : c 0 - c 1 + c 2 - c 3 = 0 := mul_left_cancel₀ (mul_ne_zero dx dy) (by
    linear_combination 4 * (e00 - e01 - e10 + e11))
  have kB : -c 0 + c 1 + c 2 - c 3 = 0 := mul_left_cancel₀ dx (by
    linear_combination 4 * (e00 - e10) - (x 0 - x 1) * y 0 * kD)
  have kC : -c 0 - c 1 + c 2 + c 3 = 0 := mul_left_cancel₀ dy (by
    linear_combination 4 * (e00 - e01) - (y 0 - y 1) * x 0 * kD)
  have kA : c 0 + c 1 + c 2 + c 3 = 0 := by
    linear_combination 4 * e00 - x 0 * kB - y 0 * kC - x 0 * y 0 * kD
  obtain rfl | rfl | rfl | rfl : i = 0 ∨ i = 1 ∨ i = 2 ∨ i = 3 := by omega
  · linear_combination (kA - kB - kC + kD) / 4
  · linear_combination (kA + kB - kC - kD) / 4
  · linear_combination (kA + kB + kC + kD) / 4
  · linear_combination (kA - kB + kC - kD) / 4

/-- C113: the rule with the nodes as points, which spectral elements use, determines the interpolation. -/
theorem C113_nodal (I : Interpolation ℝ) (hI : I ∈ exactTypes) (rule : List (ℝ × List ℝ))
    (h : ∀ i < I.numNodes, ∃ w c, I.localCoords i = .ok c ∧ (w, c) ∈ rule) : Resolves I rule := by
  intro c hc i hi
  obtain ⟨w, p, h1, h2⟩ := h i hi
  obtain ⟨p', g1, g2⟩ := (C28_nodal_partial I hI i).1 hi
  rw [h1] at g1
  obtain rfl := Res.ok.inj g1
  have := hc _ h2
  rw [show (fun k => ((w, p) : ℝ × List ℝ).2.getD k 0) = vec p from rfl, g2] at this
  rw [sum_eq_single_of_mem i (mem_range.2 hi)] at this
  · rw [List.getD_eq_getElem _ _ (by simpa using hi)] at this
    simpa using this
  · intro k hk hne
    rw [List.getD_eq_getElem _ _ (by simpa using hk)]
    simp [hne]

/-! ### Too few points -/

theorem exists_zero (n : Nat) (L : List ((Nat → ℝ) →ₗ[ℝ] ℝ)) (h : L.length < n) :
    ∃ R : Nat → ℝ, (∃ i < n, R i ≠ 0) ∧ ∀ f ∈ L, f R = 0 := by
  let E : (Fin n → ℝ) →ₗ[ℝ] (Nat → ℝ) :=
    LinearMap.pi fun j => if h : j < n then LinearMap.proj ⟨j, h⟩ else 0
  let T : (Fin n → ℝ) →ₗ[ℝ] (Fin L.length → ℝ) := LinearMap.pi fun k => (L[k]).comp E
  have hk : LinearMap.ker T ≠ ⊥ := LinearMap.ker_ne_bot_of_finrank_lt (by simpa using h)
  obtain ⟨r, hr, hne⟩ := Submodule.exists_mem_ne_zero_of_ne_bot hk
  refine ⟨E r, ?_, fun f hf => ?_⟩
  · obtain ⟨i, hi⟩ := Function.ne_iff.1 hne
    refine ⟨i, i.2, ?_⟩
    simpa [E] using hi
  · obtain ⟨k, hk, rfl⟩ := List.getElem_of_mem hf
    exact congrFun (LinearMap.mem_ker.1 hr) ⟨k, hk⟩

/-- C113: with fewer integration points than nodes the matrix is singular, whatever the rules, shapes and densities: some
motion has no inertia forces. -/
theorem C113_few_points (k : Built dof dim n rho cells m) (hfew : dim * (cells.map fun x => x.1.rule.length).sum < n) :
    ∃ R : Nat → ℝ, (∃ i < n, R i ≠ 0) ∧ ∀ i < n, ∑ j ∈ range n, m.entry i j * R j = 0 := by
  obtain ⟨R, h1, h2⟩ := exists_zero n (cells.flatMap fun x => x.1.rule.flatMap fun ip => (List.range dim).map fun a =>
    ∑ i ∈ range x.2.interp.numNodes, (x.2.interp.shape fun k => ip.2.getD k 0).getD i 0 •
      (LinearMap.proj (number x.2 i a) : (Nat → ℝ) →ₗ[ℝ] ℝ)) (by
    refine lt_of_eq_of_lt ?_ hfew
    rw [List.length_flatMap, ← List.sum_map_mul_left]
    congr 1
    refine List.map_congr_left fun x _ => ?_
    rw [List.length_flatMap]
    simp [mul_comm])
  refine ⟨R, h1, ?_⟩
  have h0 : Still dim cells R := by
    intro x hx ip hip y hy
    obtain ⟨a, ha, rfl⟩ := List.mem_map.1 hy
    have := h2 _ (List.mem_flatMap.2 ⟨x, hx, List.mem_flatMap.2 ⟨ip, hip, List.mem_map.2 ⟨a, ha, rfl⟩⟩⟩)
    simpa using this
  exact still_kernel k h0

/-! ### Lumped matrices -/

/-- Shape function of a node at an integration point -/
noncomputable def shapeAt (e : FemElement ℝ) (i : Nat) (p : ℝ × IpData) : ℝ :=
  (e.interp.shape fun k => p.2.coords.getD k 0).getD i 0

/-- Integral of the square of a shape function -/
noncomputable def share (e : FemElement ℝ) (pts : List (ℝ × IpData)) (i : Nat) : ℝ :=
  (pts.map fun p => shapeAt e i p * shapeAt e i p * (p.2.jacobian.det * p.1)).sum

/-- Volume of the cell -/
noncomputable def size (pts : List (ℝ × IpData)) : ℝ := (pts.map fun p => p.2.jacobian.det * p.1).sum

theorem share_nonneg (e : FemElement ℝ) {pts : List (ℝ × IpData)} (hw : ∀ p ∈ pts, 0 < p.2.jacobian.det * p.1) (i : Nat) :
    0 ≤ share e pts i := by
  refine List.sum_nonneg fun y hy => ?_
  obtain ⟨p, hp, rfl⟩ := List.mem_map.1 hy
  exact mul_nonneg (mul_self_nonneg _) (hw p hp).le

/-- The share of a node is positive exactly if its shape function does not vanish at all integration points. -/
theorem share_pos (e : FemElement ℝ) {pts : List (ℝ × IpData)} (hw : ∀ p ∈ pts, 0 < p.2.jacobian.det * p.1) (i : Nat) :
    0 < share e pts i ↔ ∃ p ∈ pts, shapeAt e i p ≠ 0 := by
  constructor
  · intro h
    by_contra hn
    push Not at hn
    refine h.ne' (List.sum_eq_zero fun y hy => ?_)
    obtain ⟨p, hp, rfl⟩ := List.mem_map.1 hy
    rw [hn p hp, zero_mul, zero_mul]
  · rintro ⟨p, hp, hne⟩
    refine lt_of_le_of_ne (share_nonneg e hw i) fun h0 => hne ?_
    have := list_sum_zero (by
      intro y hy
      obtain ⟨p, hp, rfl⟩ := List.mem_map.1 hy
      exact mul_nonneg (mul_self_nonneg _) (hw p hp).le) h0.symm _ (List.mem_map.2 ⟨p, hp, rfl⟩)
    exact mul_self_eq_zero.1 ((mul_eq_zero.1 this).resolve_right (hw p hp).ne')

theorem share_sum_pos {x : Cell × FemElement ℝ} (hb : Part dim n x.2) {pts : List (ℝ × IpData)} (hpts : x.1.Points pts)
    (hw : ∀ p ∈ pts, 0 < p.2.jacobian.det * p.1) (hne : x.1.rule ≠ []) :
    0 < ∑ i ∈ range x.2.nodes.length, share x.2 pts i := by
  obtain ⟨ip, hip⟩ := List.exists_mem_of_ne_nil _ hne
  obtain ⟨p, hp, _⟩ := (points_rule hpts).2 ip hip
  refine lt_of_le_of_ne (sum_nonneg fun i _ => share_nonneg x.2 hw i) fun h0 => ?_
  have hz : ∀ i ∈ range x.2.nodes.length, shapeAt x.2 i p = 0 := by
    intro i hi
    by_contra hne
    exact (share_pos x.2 hw i |>.2 ⟨p, hp, hne⟩).ne' ((sum_eq_zero_iff_of_nonneg fun i _ => share_nonneg x.2 hw i).1 h0.symm i hi)
  have hu := hb.unity.shapeSum fun k => p.2.coords.getD k 0
  rw [← hb.nodes.count] at hu
  rw [show ∑ i ∈ range x.2.nodes.length, (x.2.interp.shape fun k => p.2.coords.getD k 0).getD i 0 = 0 from sum_eq_zero hz] at hu
  exact zero_ne_one hu

theorem mass_coef {e : FemElement ℝ} (h : Part dim n e) (junk : Nat → Nat → ℝ) (dof : Nat) (rho : ℝ) (d : IpData) :
    ∃ M : DMat ℝ, mass junk dof rho e d = .ok [(toLex (dof, dof), M)] ∧ M.rows = dim * e.nodes.length ∧
      M.cols = dim * e.nodes.length ∧ ∀ i < e.nodes.length, ∀ a < dim, ∀ j < e.nodes.length, ∀ b < dim,
        M.coef (dim * i + a) (dim * j + b) = if a = b then rho *
          ((e.interp.shape fun k => d.coords.getD k 0).getD i 0 * (e.interp.shape fun k => d.coords.getD k 0).getD j 0)
          else 0 := by
  obtain ⟨N, h1, h2, h3, h4⟩ := nMatrix_fold junk (e.interp.shape fun k => d.coords.getD k 0) dim
    (dim * e.interp.numNodes) e.interp.numNodes (h.unity.shapeLen _).ge
  have hN : e.nMatrix junk (fun k => d.coords.getD k 0) = .ok N := by
    rw [FemElement.nMatrix, h.nodes.dimension, Res.bind_ok']
    exact h1
  have hmul : N.transpose.mul N = .ok ⟨N.cols, N.cols, fun i j => ((List.range N.rows).map fun (k : Nat) =>
      N.coef k i * N.coef k j).sum⟩ := by
    rw [DMat.mul, Res.require, if_pos (show N.transpose.cols = N.rows from rfl)]
    rfl
  have hc : N.cols = dim * e.nodes.length := by rw [h3, h.nodes.count]
  refine ⟨DMat.scale ⟨N.cols, N.cols, fun i j => ((List.range N.rows).map fun (k : Nat) =>
      N.coef k i * N.coef k j).sum⟩ rho, by rw [mass, hN, Res.bind_ok', hmul, Res.bind_ok'], hc, hc, ?_⟩
  intro i hi a ha j hj b hb
  rw [h.nodes.count] at hi hj
  simp only [DMat.scale]
  rw [sum_range_list, h2]
  have : ∀ k ∈ range dim, N.coef k (dim * i + a) * N.coef k (dim * j + b) = if k = a then (if a = b then
      (e.interp.shape fun k => d.coords.getD k 0).getD i 0 * (e.interp.shape fun k => d.coords.getD k 0).getD j 0
      else 0) else 0 := by
    intro k hk
    rw [h4 i hi k (mem_range.1 hk) a ha, h4 j hj k (mem_range.1 hk) b hb]
    by_cases hka : k = a
    · subst hka
      rw [if_pos rfl, if_pos rfl]
      split_ifs <;> simp
    · rw [if_neg hka, if_neg hka, zero_mul]
  rw [sum_congr rfl this, sum_ite_eq' (range dim) a, if_pos (mem_range.2 ha)]
  split_ifs
  · rw [mul_comm]
  · rw [zero_mul]

/-- The lumped diagonal of a cell. -/
theorem lumped_cell {x : Cell × FemElement ℝ} (hb : Part dim n x.2) (hdim : 0 < dim) (junk : Nat → Nat → ℝ) (dof : Nat)
    (rho num : ℝ) (hr : 0 < rho) (pts : List (ℝ × IpData)) (hpts : x.1.Points pts)
    (hpos : 0 < ∑ i ∈ range x.2.nodes.length, share x.2 pts i) :
    ∃ V, matCell dof (mass junk dof rho) x = .ok V ∧ MatCell.LumpFits V [dof] (fun _ => n) ∧
      ∀ R : Nat → ℝ, ∑ g ∈ range n, MatCell.lumpedAdds V (fun _ => num) dof g * R g =
        rho * size pts / num * ∑ i ∈ range x.2.nodes.length,
          share x.2 pts i / (∑ j ∈ range x.2.nodes.length, share x.2 pts j) * ∑ a ∈ range dim, R (number x.2 i a) := by
  choose M hM using fun d => mass_coef hb junk dof rho d
  obtain ⟨r, r1, r2, r3⟩ := matrix_cell x.1 pts hpts dof (dim * x.2.nodes.length) (mass junk dof rho x.2) M
    (fun p _ => (hM p.2).1) (fun p _ => ⟨(hM p.2).2.1, (hM p.2).2.2.1⟩)
  obtain ⟨_, nums, n1, n2, n3, n4⟩ := hb.nodes.read
  have n5 := n4 n hb.numbered
  have hcoef : ∀ i < x.2.nodes.length, ∀ a < dim, ∀ j < x.2.nodes.length, ∀ b < dim,
      DofDMat.coef r dof dof (dim * i + a) (dim * j + b) = if a = b then
        rho * (pts.map fun p => shapeAt x.2 i p * shapeAt x.2 j p * (p.2.jacobian.det * p.1)).sum else 0 := by
    intro i hi a ha j hj b hb
    rw [r3]
    by_cases hab : a = b
    · rw [if_pos hab, ← List.sum_map_mul_left]
      congr 1
      refine List.map_congr_left fun p _ => ?_
      rw [(hM p.2).2.2.2 i hi a ha j hj b hb, if_pos hab]
      simp only [shapeAt]
      ring
    · rw [if_neg hab]
      refine List.sum_eq_zero fun y hy => ?_
      obtain ⟨p, _, rfl⟩ := List.mem_map.1 hy
      rw [(hM p.2).2.2.2 i hi a ha j hj b hb, if_neg hab, zero_mul, zero_mul]
  have hdiag : ∀ i < x.2.nodes.length, ∀ a < dim, DofDMat.coef r dof dof (dim * i + a) (dim * i + a) =
      rho * share x.2 pts i := fun i hi a ha => by rw [hcoef i hi a ha i hi a ha, if_pos rfl]; rfl
  have hdim' : (dim : ℝ) ≠ 0 := Nat.cast_ne_zero.2 hdim.ne'
  obtain ⟨B, hB⟩ : ∃ B, r.find? (toLex (dof, dof)) = some B := by
    cases hf : r.find? (toLex (dof, dof)) with
    | some B => exact ⟨B, rfl⟩
    | none =>
      refine absurd hpos (not_lt.2 (le_of_eq (sum_eq_zero fun i hi => ?_)))
      have := hdiag i (mem_range.1 hi) 0 hdim
      rw [DofDMat.coef, hf] at this
      exact (mul_eq_zero.1 this.symm).resolve_left hr.ne'
  obtain ⟨_, b1, b2⟩ := r2 _ B hB
  have hBc : ∀ k l, B.coef k l = DofDMat.coef r dof dof k l := fun k l => by rw [DofDMat.coef, hB]
  have hD : diagTotal B = dim * rho * ∑ i ∈ range x.2.nodes.length, share x.2 pts i := by
    rw [diagTotal, sum_range_list, b1, sum_range_mul, mul_sum]
    refine sum_congr rfl fun i hi => ?_
    rw [sum_congr rfl fun a ha => (hBc _ _).trans (hdiag i (mem_range.1 hi) a (mem_range.1 ha)), sum_const, card_range,
      nsmul_eq_mul, mul_assoc]
  have hT : blockTotal B = dim * rho * size pts := by
    rw [blockTotal, sum_range_list, b1, sum_range_mul]
    have hrow : ∀ i ∈ range x.2.nodes.length, ∀ a ∈ range dim,
        ((List.range B.cols).map fun j => B.coef (dim * i + a) j).sum =
        rho * (pts.map fun p => shapeAt x.2 i p * (p.2.jacobian.det * p.1)).sum := by
      intro i hi a ha
      rw [sum_range_list, b2, sum_range_mul]
      calc _ = ∑ j ∈ range x.2.nodes.length, rho *
            (pts.map fun p => shapeAt x.2 i p * shapeAt x.2 j p * (p.2.jacobian.det * p.1)).sum := by
            refine sum_congr rfl fun j hj => ?_
            rw [sum_congr rfl fun b hb => (hBc _ _).trans
              (hcoef i (mem_range.1 hi) a (mem_range.1 ha) j (mem_range.1 hj) b (mem_range.1 hb)), sum_ite_eq (range dim) a,
              if_pos ha]
        _ = _ := by
            rw [← mul_sum, list_sum_range]
            congr 2
            refine List.map_congr_left fun p _ => ?_
            have hu := hb.unity.shapeSum fun k => p.2.coords.getD k 0
            rw [← sum_mul, ← mul_sum, hb.nodes.count]
            rw [show ∑ j ∈ range x.2.interp.numNodes, shapeAt x.2 j p = 1 from hu, mul_one]
    rw [sum_congr rfl fun i hi => sum_congr rfl (hrow i hi)]
    simp only [sum_const, card_range, nsmul_eq_mul]
    rw [← mul_sum, ← mul_sum, list_sum_range, mul_assoc, size]
    congr 3
    refine List.map_congr_left fun p _ => ?_
    have hu := hb.unity.shapeSum fun k => p.2.coords.getD k 0
    rw [← sum_mul, hb.nodes.count, show ∑ j ∈ range x.2.interp.numNodes, shapeAt x.2 j p = 1 from hu, one_mul]
  refine ⟨⟨r, fun d => if d = dof then nums else []⟩, by rw [matCell, r1, Res.bind_ok', n1, Res.bind_ok'], ?_, ?_⟩
  · intro d hd _
    obtain rfl := List.mem_singleton.1 hd
    refine ⟨B, hB, by rw [b1, b2], ?_, ?_⟩
    · rw [hD]
      exact mul_ne_zero (mul_ne_zero hdim' hr.ne') hpos.ne'
    · dsimp only
      rw [if_pos rfl]
      exact ⟨n5, by rw [n2, b1]⟩
  · intro R
    simp only [MatCell.lumpedAdds, hB, if_true]
    rw [scatter_sum n nums _ R n5, n2, sum_range_mul, mul_sum]
    refine sum_congr rfl fun i hi => ?_
    rw [mul_sum, mul_sum]
    refine sum_congr rfl fun a ha => ?_
    have hk := index_lt (mem_range.1 hi) (mem_range.1 ha)
    have ha' := mem_range.1 ha
    rw [n3 _ hk, Nat.mul_add_div (by omega), Nat.div_eq_of_lt ha', add_zero, Nat.mul_add_mod, Nat.mod_eq_of_lt ha',
      List.getD_eq_getElem _ _ (by rw [List.length_map, List.length_range, b1]; exact hk)]
    simp only [List.getElem_map, List.getElem_range]
    rw [hBc, hdiag i (mem_range.1 hi) a ha', hT, hD]
    have h1 := hpos.ne'
    have h2 := hr.ne'
    rw [mul_div_mul_left _ _ (mul_ne_zero hdim' h2)]
    ring

/-- C113: for every schedule the lumped matrix exists.  Weighted by `R`, its entries distribute the mass of each element
to the nodes in proportion to the integrals of the squared shape functions. -/
theorem C113_lumped (s : DofSizes) (dof dim n : Nat) (hdim : 0 < dim) (junk : Nat → Nat → ℝ) (rho num : ℝ) (hr : 0 < rho)
    (cells : List (Cell × FemElement ℝ)) (threads : List (List (Cell × FemElement ℝ)))
    (hp : threads.flatten.Perm cells) (hs : s.size dof = .ok n) (hb : ∀ x ∈ cells, Part dim n x.2)
    (pts : Cell × FemElement ℝ → List (ℝ × IpData)) (hpts : ∀ x ∈ cells, x.1.Points (pts x))
    (hw : Weighted cells) (hne : ∀ x ∈ cells, x.1.rule ≠ []) :
    ∃ v y, assembleLumped s dof num (mass junk dof rho) threads = .ok v ∧ v.find? dof = some y ∧ y.length = n ∧
      ∀ R : Nat → ℝ, ∑ g ∈ range n, y.getD g 0 * R g = (cells.map fun x =>
        rho * size (pts x) / num * ∑ i ∈ range x.2.nodes.length,
          share x.2 (pts x) i / (∑ j ∈ range x.2.nodes.length, share x.2 (pts x) j) *
            ∑ a ∈ range dim, R (number x.2 i a)).sum := by
  have hcell : ∀ x ∈ cells, ∃ V, matCell dof (mass junk dof rho) x = .ok V ∧ MatCell.LumpFits V [dof] (fun _ => n) ∧
      ∀ R : Nat → ℝ, ∑ g ∈ range n, MatCell.lumpedAdds V (fun _ => num) dof g * R g =
        rho * size (pts x) / num * ∑ i ∈ range x.2.nodes.length,
          share x.2 (pts x) i / (∑ j ∈ range x.2.nodes.length, share x.2 (pts x) j) *
            ∑ a ∈ range dim, R (number x.2 i a) :=
    fun x hx => lumped_cell (hb x hx) hdim junk dof rho num hr (pts x) (hpts x hx)
      (share_sum_pos (hb x hx) (hpts x hx) (hw x hx _ (hpts x hx)) (hne x hx))
  have : Inhabited (MatCell ℝ) := ⟨⟨[], fun _ => []⟩⟩
  choose! V hV1 hV2 hV3 using hcell
  have hmem : ∀ t ∈ threads, ∀ x ∈ t, x ∈ cells := fun t ht x hx =>
    hp.mem_iff.1 (List.mem_flatten.2 ⟨t, ht, hx⟩)
  have hmap : (threads.mapM fun (t : List (Cell × FemElement ℝ)) => t.mapM (matCell dof (mass junk dof rho))) =
      .ok (threads.map fun t => t.map V) :=
    Res.mapM_ok _ _ _ fun t ht => Res.mapM_ok _ _ _ fun x hx => hV1 x (hmem t ht x hx)
  have hperm : (threads.map fun t => t.map V).flatten.Perm (cells.map V) := by
    rw [← List.map_flatten]
    exact hp.map V
  obtain ⟨v, h1, _, h4⟩ := C15_assembled_partial (fun _ => num) s [dof] (fun _ => n) (cells.map V) _ hperm
    (List.nodup_singleton _) (fun d hd => by rw [List.mem_singleton.1 hd]; exact hs) (fun c hc => by
      obtain ⟨x, hx, rfl⟩ := List.mem_map.1 hc
      exact hV2 x hx)
  obtain ⟨y, g1, g2, g3⟩ := h4 dof (List.mem_singleton.2 rfl)
  refine ⟨v, y, ?_, g1, g2, fun R => ?_⟩
  · rw [assembleLumped, hmap, Res.bind_ok']
    convert h1
  · have : ∀ g ∈ range n, y.getD g 0 * R g = (cells.map fun x => MatCell.lumpedAdds (V x) (fun _ => num) dof g * R g).sum := by
      intro g hg
      rw [List.getD_eq_getElem?_getD, g3 g (mem_range.1 hg), Option.getD_some, List.map_map, ← List.sum_map_mul_right]
      rfl
    rw [sum_congr rfl this, list_sum_range]
    congr 1
    exact List.map_congr_left fun x hx => hV3 x hx R

theorem size_pos {x : Cell × FemElement ℝ} {pts : List (ℝ × IpData)} (hpts : x.1.Points pts)
    (hw : ∀ p ∈ pts, 0 < p.2.jacobian.det * p.1) (hne : x.1.rule ≠ []) : 0 < size pts := by
  obtain ⟨ip, hip⟩ := List.exists_mem_of_ne_nil _ hne
  obtain ⟨p, hp, _⟩ := (points_rule hpts).2 ip hip
  refine List.sum_pos _ (fun y hy => ?_) (by simpa using List.ne_nil_of_mem hp)
  obtain ⟨q, hq, rfl⟩ := List.mem_map.1 hy
  exact hw q hq

/-- C113: the entries of the lumped matrix are nonnegative.  An entry is positive, so that explicit time integration can
divide by it, exactly if the shape function of the node does not vanish at some integration point of an element. -/
theorem C113_lumped_positive (s : DofSizes) (dof dim n : Nat) (hdim : 0 < dim) (junk : Nat → Nat → ℝ) (rho num : ℝ)
    (hr : 0 < rho) (hnum : 0 < num) (cells : List (Cell × FemElement ℝ))
    (threads : List (List (Cell × FemElement ℝ))) (hp : threads.flatten.Perm cells) (hs : s.size dof = .ok n)
    (hb : ∀ x ∈ cells, Part dim n x.2) (hpts : ∀ x ∈ cells, ∃ pts, x.1.Points pts)
    (hw : Weighted cells) (hne : ∀ x ∈ cells, x.1.rule ≠ []) :
    ∃ v y, assembleLumped s dof num (mass junk dof rho) threads = .ok v ∧ v.find? dof = some y ∧ y.length = n ∧
      ∀ g < n, 0 ≤ y.getD g 0 ∧ (0 < y.getD g 0 ↔ ∃ x ∈ cells, ∃ i < x.2.nodes.length, ∃ a < dim, number x.2 i a = g ∧
        ∃ ip ∈ x.1.rule, (x.2.interp.shape fun k => ip.2.getD k 0).getD i 0 ≠ 0) := by
  have : Inhabited (List (ℝ × IpData)) := ⟨[]⟩
  choose! pts hpts using hpts
  obtain ⟨v, y, h1, h2, h3, h4⟩ := C113_lumped s dof dim n hdim junk rho num hr cells threads hp hs hb pts hpts hw hne
  refine ⟨v, y, h1, h2, h3, fun g hg => ?_⟩
  have hy : y.getD g 0 = (cells.map fun x =>
        rho * size (pts x) / num * ∑ i ∈ range x.2.nodes.length,
          share x.2 (pts x) i / (∑ j ∈ range x.2.nodes.length, share x.2 (pts x) j) *
            ∑ a ∈ range dim, if number x.2 i a = g then (1 : ℝ) else 0).sum := by
    rw [← h4 fun k => if k = g then 1 else 0]
    simp [hg]
  have hfac : ∀ x ∈ cells, 0 < rho * size (pts x) / num := fun x hx =>
    div_pos (mul_pos hr (size_pos (hpts x hx) (hw x hx _ (hpts x hx)) (hne x hx))) hnum
  have hS : ∀ x ∈ cells, 0 < ∑ j ∈ range x.2.nodes.length, share x.2 (pts x) j := fun x hx =>
    share_sum_pos (hb x hx) (hpts x hx) (hw x hx _ (hpts x hx)) (hne x hx)
  have hterm : ∀ x ∈ cells, ∀ i ∈ range x.2.nodes.length,
      0 ≤ share x.2 (pts x) i / (∑ j ∈ range x.2.nodes.length, share x.2 (pts x) j) *
            ∑ a ∈ range dim, if number x.2 i a = g then (1 : ℝ) else 0 := fun x hx i _ =>
    mul_nonneg (div_nonneg (share_nonneg _ (hw x hx _ (hpts x hx)) i) (hS x hx).le)
      (sum_nonneg fun a _ => by split_ifs <;> norm_num)
  have hcell : ∀ z ∈ cells.map fun x => rho * size (pts x) / num * ∑ i ∈ range x.2.nodes.length,
          share x.2 (pts x) i / (∑ j ∈ range x.2.nodes.length, share x.2 (pts x) j) *
            ∑ a ∈ range dim, if number x.2 i a = g then (1 : ℝ) else 0, 0 ≤ z := by
    intro z hz
    obtain ⟨x, hx, rfl⟩ := List.mem_map.1 hz
    exact mul_nonneg (hfac x hx).le (sum_nonneg (hterm x hx))
  refine ⟨by rw [hy]; exact List.sum_nonneg hcell, ?_⟩
  constructor
  · intro hpos
    by_contra hno
    push Not at hno
    refine hpos.ne' ?_
    rw [hy]
    refine List.sum_eq_zero fun z hz => ?_
    obtain ⟨x, hx, rfl⟩ := List.mem_map.1 hz
    rw [sum_eq_zero, mul_zero]
    intro i hi
    by_cases hex : ∃ a < dim, number x.2 i a = g
    · obtain ⟨a, ha, hga⟩ := hex
      have h0 : share x.2 (pts x) i = 0 := by
        refine le_antisymm (not_lt.1 fun hlt => ?_) (share_nonneg _ (hw x hx _ (hpts x hx)) i)
        obtain ⟨p, hp, hpne⟩ := (share_pos x.2 (hw x hx _ (hpts x hx)) i).1 hlt
        obtain ⟨ip, hip, hc⟩ := (points_rule (hpts x hx)).1 p hp
        refine hpne ?_
        rw [shapeAt, hc]
        exact hno x hx i (mem_range.1 hi) a ha hga ip hip
      rw [h0, zero_div, zero_mul]
    · rw [show (∑ a ∈ range dim, if number x.2 i a = g then (1 : ℝ) else 0) = 0 from sum_eq_zero fun a ha =>
        if_neg fun h => hex ⟨a, mem_range.1 ha, h⟩, mul_zero]
  · rintro ⟨x, hx, i, hi, a, ha, hga, ip, hip, hN⟩
    obtain ⟨p, hp, hc⟩ := (points_rule (hpts x hx)).2 ip hip
    have hsh : 0 < share x.2 (pts x) i := (share_pos x.2 (hw x hx _ (hpts x hx)) i).2 ⟨p, hp, by rwa [shapeAt, hc]⟩
    rw [hy]
    refine lt_of_le_of_ne (List.sum_nonneg hcell) fun h0 => ?_
    have := list_sum_zero hcell h0.symm _ (List.mem_map.2 ⟨x, hx, rfl⟩)
    have h2 := (mul_eq_zero.1 this).resolve_left (hfac x hx).ne'
    have h3 := (sum_eq_zero_iff_of_nonneg (hterm x hx)).1 h2 i (mem_range.2 hi)
    have h4 := (mul_eq_zero.1 h3).resolve_left (div_pos hsh (hS x hx)).ne'
    have h5 := (sum_eq_zero_iff_of_nonneg (fun a _ => by split_ifs <;> norm_num)).1 h4 a (mem_range.2 ha)
    rw [if_pos hga] at h5
    exact one_ne_zero h5

/-- C113: for translations the entries of the lumped matrix add up to the mass divided by `GetNum`, where the consistent
matrix has the whole mass (`C78_mass_total`). -/
theorem C113_lumped_total (s : DofSizes) (dof dim n : Nat) (hdim : 0 < dim) (junk : Nat → Nat → ℝ) (rho num : ℝ)
    (hr : 0 < rho) (cells : List (Cell × FemElement ℝ))
    (threads : List (List (Cell × FemElement ℝ))) (hp : threads.flatten.Perm cells) (hs : s.size dof = .ok n)
    (hb : ∀ x ∈ cells, Part dim n x.2) (hw : Weighted cells) (hne : ∀ x ∈ cells, x.1.rule ≠ [])
    (A : Cell × FemElement ℝ → ℝ) (hA : ∀ x ∈ cells, x.1.integrateScalar (fun _ => .ok 1) = .ok (A x)) :
    ∃ v y, assembleLumped s dof num (mass junk dof rho) threads = .ok v ∧ v.find? dof = some y ∧ y.length = n ∧
      ∀ t R : Nat → ℝ, (∀ x ∈ cells, ∀ i < x.2.nodes.length, ∀ a < dim, R (number x.2 i a) = t a) →
        ∑ g ∈ range n, y.getD g 0 * R g = (∑ a ∈ range dim, t a) * (rho * (cells.map A).sum) / num := by
  have hex : ∀ x : Cell × FemElement ℝ, ∃ pts, x ∈ cells → x.1.Points pts ∧
      A x = (pts.map fun p => p.2.jacobian.det * p.1).sum := by
    intro x
    by_cases hx : x ∈ cells
    · obtain ⟨pts, h⟩ := points_of_volume x.1 (A x) (hA x hx)
      exact ⟨pts, fun _ => h⟩
    · exact ⟨[], fun h => absurd h hx⟩
  choose pts hpts using hex
  obtain ⟨v, y, h1, h2, h3, h4⟩ := C113_lumped s dof dim n hdim junk rho num hr cells threads hp hs hb pts
    (fun x hx => (hpts x hx).1) hw hne
  refine ⟨v, y, h1, h2, h3, fun t R hR => ?_⟩
  rw [h4, ← List.sum_map_mul_left, ← List.sum_map_mul_left, div_eq_mul_inv, ← List.sum_map_mul_right]
  congr 1
  refine List.map_congr_left fun x hx => ?_
  have hS := share_sum_pos (hb x hx) (hpts x hx).1 (hw x hx _ (hpts x hx).1) (hne x hx)
  rw [(hpts x hx).2, sum_congr rfl fun i hi => congrArg (_ * ·) (sum_congr rfl fun a ha =>
    hR x hx i (mem_range.1 hi) a (mem_range.1 ha)), ← sum_mul, ← sum_div, div_self hS.ne', one_mul]
  simp only [size]
  ring

/-- The triangle of `exampleBody` with the rule of order 2 -/
noncomputable def exampleMass : Cell × FemElement ℝ :=
  (⟨0, ⟨nodesAt [[0, 0], [2, 0], [0, 3]], Interpolation.triangleLinear⟩,
    [(1 / 6, [1 / 6, 1 / 6]), (1 / 6, [2 / 3, 1 / 6]), (1 / 6, [1 / 6, 2 / 3])]⟩, exampleBody.2)

theorem exampleMass_points (x : Cell × FemElement ℝ)
    (hx : x.1.coordElement = ⟨nodesAt [[0, 0], [2, 0], [0, 3]], Interpolation.triangleLinear⟩)
    (hpos : ∀ ip ∈ x.1.rule, 0 < ip.1) (pts : List (ℝ × IpData)) (h : x.1.Points pts) :
    ∀ p ∈ pts, 0 < p.2.jacobian.det * p.1 := by
  have key : ∀ (L : List ((ℝ × List ℝ) × Nat)) (A : List (ℝ × IpData)), (∀ ip ∈ L, 0 < ip.1.1) →
      List.Forall₂ (fun (ip : (ℝ × List ℝ) × Nat) (p : ℝ × IpData) => p.1 = ip.1.1 ∧ x.1.ipData ip.2 ip.1.2 = .ok p.2) L A →
      ∀ p ∈ A, 0 < p.2.jacobian.det * p.1 := by
    intro L A hL hf
    induction hf with
    | nil => exact fun p hp => absurd hp List.not_mem_nil
    | @cons ip p L A hp _ ih =>
      intro q hq
      rcases List.mem_cons.1 hq with rfl | hq
      · have hd := hp.2
        rw [Cell.ipData, hx, extract_nodesAt 2 _ (by simp) (by simp), Res.bind_ok',
          show (Interpolation.triangleLinear : Interpolation ℝ).dim = 2 from rfl,
          make_square2 _ _ (by simp [Interpolation.triangleLinear, Interpolation.triangleLinearDeriv])
            (by simp [Interpolation.triangleLinear, Interpolation.triangleLinearDeriv]), Res.bind_ok'] at hd
        rw [← Res.ok.inj hd, hp.1]
        have := hL ip List.mem_cons_self
        simp [Jacobian.det2, Jacobian.calculate, List.range_succ, Interpolation.triangleLinear,
          Interpolation.triangleLinearDeriv]
        linarith
      · exact ih (fun y hy => hL y (List.mem_cons_of_mem _ hy)) q hq
  refine key _ _ (fun ip hip => ?_) h
  exact hpos _ (by
    have := List.mem_map_of_mem (f := Prod.fst) hip
    rwa [List.zipIdx_map_fst] at this)

theorem exampleMass_part : Part 2 6 exampleMass.2 :=
  ⟨exampleBody_ok.dof, exampleBody_ok.dofUnity, exampleBody_ok.numbered⟩

theorem exampleMass_volume : exampleMass.1.integrateScalar (fun _ => .ok 1) = .ok 3 := by
  rw [C57_triangle exampleMass.1 0 0 2 0 0 3 rfl (by
    simp only [exampleMass, List.map_cons, List.map_nil, List.sum_cons, List.sum_nil]
    norm_num)]
  norm_num

theorem exampleMass_weighted : Weighted [exampleMass] := by
  intro x hx
  obtain rfl := List.mem_singleton.1 hx
  exact exampleMass_points _ rfl (by simp [exampleMass])

/-- The triangle meets the hypotheses of the theorems: its mass matrix is definite. -/
example : ∃ m, Built 0 2 6 (5 / 2) [exampleMass] m ∧
    ∀ R : Nat → ℝ, (∃ i < 6, R i ≠ 0) → 0 < ∑ i ∈ range 6, ∑ j ∈ range 6, R i * m.entry i j * R j := by
  obtain ⟨pts, hpts, _⟩ := points_of_volume exampleMass.1 _ exampleMass_volume
  obtain ⟨_, m, _, _, _, _, hm⟩ := C113_exists ⟨[(0, 4)], [(0, 2)]⟩ 0 2 6 (fun _ _ => 7) (5 / 2) [exampleMass]
    [[], [exampleMass]] (by simp) rfl (by simpa using exampleMass_part) (by simpa using ⟨pts, hpts⟩)
  refine ⟨m, hm, (C113_definite hm (by norm_num) exampleMass_weighted ?_ ?_).1⟩
  · intro i hi
    refine ⟨exampleMass, List.mem_singleton.2 rfl, i / 2, ?_, i % 2, by omega, ?_⟩
    · show i / 2 < 3
      omega
    · interval_cases i <;> rfl
  · intro x hx
    obtain rfl := List.mem_singleton.1 hx
    exact C113_triangleLinear _ (1 / 6) (1 / 6) (1 / 6) (1 / 6) (1 / 6) (2 / 3) (1 / 6) (1 / 6) (2 / 3)
      (by simp [exampleMass]) (by simp [exampleMass]) (by simp [exampleMass]) (by norm_num)

/-- With one integration point the mass matrix of the triangle is singular. -/
theorem C113_one_point : ∃ m, Built 0 2 6 (5 / 2) [exampleBody] m ∧ Weighted [exampleBody] ∧
    ∃ R : Nat → ℝ, (∃ i < 6, R i ≠ 0) ∧ ∀ i < 6, ∑ j ∈ range 6, m.entry i j * R j = 0 := by
  obtain ⟨pts, hpts, _⟩ := points_of_volume exampleBody.1 _ (C57_triangle exampleBody.1 0 0 2 0 0 3 rfl (by
    simp [exampleBody]))
  obtain ⟨_, m, _, _, _, _, hm⟩ := C113_exists ⟨[(0, 4)], [(0, 2)]⟩ 0 2 6 (fun _ _ => 7) (5 / 2) [exampleBody]
    [[], [exampleBody]] (by simp) rfl (fun x hx => by
      obtain rfl := List.mem_singleton.1 hx
      exact exampleMass_part) (by simpa using ⟨pts, hpts⟩)
  refine ⟨m, hm, ?_, C113_few_points hm (by simp [exampleBody])⟩
  intro x hx
  obtain rfl := List.mem_singleton.1 hx
  exact exampleMass_points _ rfl (by simp [exampleBody])

/-- C15 fails on meshes as well.  The lumped matrix of the triangle with area 3 and density 5/2: a translation in the first direction has the mass 15/4
instead of 15/2. -/
theorem C15_mesh_counterexample :
    ∃ h m v y, assembleMatrix ⟨[(0, 4)], [(0, 2)]⟩ 0 (mass (fun _ _ => 7) 0 (5 / 2)) [[exampleMass]] = .ok h ∧
      h.find? (toLex (0, 0)) = some m ∧
      ∑ i ∈ range 6, ∑ j ∈ range 6, (if i % 2 = 0 then 1 else 0) * m.entry i j * (if j % 2 = 0 then 1 else 0) = 15 / 2 ∧
      assembleLumped ⟨[(0, 4)], [(0, 2)]⟩ 0 2 (mass (fun _ _ => 7) 0 (5 / 2)) [[exampleMass]] = .ok v ∧
      v.find? 0 = some y ∧ ∑ i ∈ range 6, y.getD i 0 * (if i % 2 = 0 then 1 else 0) = 15 / 4 := by
  have hnum : ∀ x ∈ [exampleMass], ∀ i < x.2.nodes.length, ∀ a < 2,
      (if number x.2 i a % 2 = 0 then (1 : ℝ) else 0) = if a = 0 then 1 else 0 := by
    intro x hx i hi a ha
    obtain rfl := List.mem_singleton.1 hx
    have hi : i < 3 := hi
    interval_cases i <;> interval_cases a <;> simp [number, exampleMass, exampleBody]
  obtain ⟨h, m, h1, h2, _, _, h5⟩ := C78_mass_total ⟨[(0, 4)], [(0, 2)]⟩ 0 2 6 (fun _ _ => 7) (5 / 2) [exampleMass]
    [[exampleMass]] (by simp) rfl (by simpa using exampleMass_part) (fun _ => 3) (by simpa using exampleMass_volume)
  obtain ⟨v, y, g1, g2, _, g4⟩ := C113_lumped_total ⟨[(0, 4)], [(0, 2)]⟩ 0 2 6 (by norm_num) (fun _ _ => 7) (5 / 2) 2
    (by norm_num) [exampleMass] [[exampleMass]] (by simp) rfl (by simpa using exampleMass_part) exampleMass_weighted
    (by simp [exampleMass]) (fun _ => 3) (by simpa using exampleMass_volume)
  refine ⟨h, m, v, y, h1, h2, ?_, g1, g2, ?_⟩
  · rw [h5 (fun a => if a = 0 then 1 else 0) (fun a => if a = 0 then 1 else 0) (fun i => if i % 2 = 0 then 1 else 0)
      (fun i => if i % 2 = 0 then 1 else 0) fun x hx i hi a ha => ⟨hnum x hx i hi a ha, hnum x hx i hi a ha⟩]
    simp
    norm_num
  · rw [g4 (fun a => if a = 0 then 1 else 0) (fun i => if i % 2 = 0 then 1 else 0) hnum]
    simp
    norm_num

end Mass

end NuTo
