import Verif.Lemmas.Continuity
import Verif.Props.CompletenessLobatto

/-!
# Values of the Lobatto classes on the facets of quadrilaterals and bricks
-/

set_option linter.unusedSectionVars false
set_option linter.unusedSimpArgs false

namespace NuTo

namespace Continuity

open Interpolation Lobatto Factory

variable {K : Type} [Field K] [LinearOrder K] [IsStrictOrderedRing K]

/-- What is needed from the nodes: they are apart from each other, symmetric, in [-1, 1], the first is -1. -/
structure LobattoNodes (nodes : List K) : Prop where
  separated : Separated nodes
  pos : 0 < nodes.length
  first : node nodes 0 = -1
  symm : ∀ i < nodes.length, node nodes (nodes.length - 1 - i) = -node nodes i
  bound : ∀ i < nodes.length, -1 ≤ node nodes i ∧ node nodes i ≤ 1

theorem LobattoNodes.last {nodes : List K} (h : LobattoNodes nodes) : node nodes (nodes.length - 1) = 1 := by
  have := h.symm 0 h.pos
  rw [Nat.sub_zero] at this
  rw [this, h.first, neg_neg]

theorem basis_neg {nodes : List K} (h : LobattoNodes nodes) (x : K) (i : Nat) (hi : i < nodes.length) :
    (basis nodes i).eval (-x) = (basis nodes (nodes.length - 1 - i)).eval x := by
  rw [basis, basis, Lagrange.basis, Lagrange.basis, Polynomial.eval_prod, Polynomial.eval_prod]
  refine Finset.prod_nbij' (fun j => nodes.length - 1 - j) (fun j => nodes.length - 1 - j) ?_ ?_ ?_ ?_ ?_
  · intro j hj
    simp only [Finset.mem_erase, Finset.mem_range] at hj ⊢
    omega
  · intro j hj
    simp only [Finset.mem_erase, Finset.mem_range] at hj ⊢
    omega
  · intro j hj
    simp only [Finset.mem_erase, Finset.mem_range] at hj ⊢
    omega
  · intro j hj
    simp only [Finset.mem_erase, Finset.mem_range] at hj ⊢
    omega
  · intro j hj
    simp only [Finset.mem_erase, Finset.mem_range] at hj
    simp only [Lagrange.basisDivisor, Polynomial.eval_mul, Polynomial.eval_C, Polynomial.eval_sub, Polynomial.eval_X]
    rw [h.symm i hi, h.symm j hj.2]
    have e : -node nodes i - -node nodes j = -(node nodes i - node nodes j) := by ring
    rw [e, inv_neg]
    ring

theorem near_neg {nodes : List K} (h : LobattoNodes nodes) (x : K) (i : Nat) (hi : i < nodes.length) :
    near nodes (-x) i = near nodes x (nodes.length - 1 - i) := by
  have e : -x - node nodes i = -(x - node nodes (nodes.length - 1 - i)) := by rw [h.symm i hi]; ring
  rw [near, near, e, abs_neg]

/-- The functions of opposite nodes have opposite arguments. -/
theorem shape_neg {nodes : List K} (h : LobattoNodes nodes) (x : K) (i : Nat) (hi : i < nodes.length) :
    (shape nodes (-x)).getD i 0 = (shape nodes x).getD (nodes.length - 1 - i) 0 := by
  rcases near_or_far nodes x with ⟨m, hm, hn⟩ | hf
  · have hm' : nodes.length - 1 - m < nodes.length := by omega
    have hn' : near nodes (-x) (nodes.length - 1 - m) = true := by
      rw [near_neg h x _ hm', show nodes.length - 1 - (nodes.length - 1 - m) = m by omega, hn]
    rw [shape_near h.separated hm hn, shape_near h.separated hm' hn']
    have l : nodes.length - 1 - i < nodes.length := by omega
    simp only [List.getD_eq_getElem?_getD, List.getElem?_map, List.getElem?_range hi, List.getElem?_range l, Option.map_some, Option.getD_some]
    congr 1
    apply propext
    omega
  · have r : Regular nodes x := fun j hj => .inr (by simpa [near] using hf j hj)
    have r' : Regular nodes (-x) := fun j hj => .inr (by
      have := hf (nodes.length - 1 - j) (by omega)
      rw [← near_neg h x j hj] at this
      simpa [near] using this)
    rw [shape_regular h.separated r, shape_regular h.separated r']
    have l : nodes.length - 1 - i < nodes.length := by omega
    simp only [List.getD_eq_getElem?_getD, List.getElem?_map, List.getElem?_range hi, List.getElem?_range l, Option.map_some, Option.getD_some]
    exact basis_neg h x i hi

/-! ### Lists over two indices -/

theorem getElem?_grid {α : Type} (f : Nat → Nat → α) (n m i j : Nat) (hi : i < n) (hj : j < m) :
    ((List.range m).flatMap fun j => (List.range n).map fun i => f i j)[j * n + i]? = some (f i j) := by
  induction m with
  | zero => omega
  | succ m ih =>
    rw [List.range_succ, List.flatMap_append]
    have hlen : ((List.range m).flatMap fun j => (List.range n).map fun i => f i j).length = m * n := by
      simp [List.length_flatMap]
    by_cases hjm : j < m
    · rw [List.getElem?_append_left]
      · exact ih hjm
      · rw [hlen]
        have := Nat.mul_le_mul_right n (show j + 1 ≤ m by omega)
        rw [Nat.add_mul] at this
        omega
    · obtain rfl : j = m := by omega
      rw [List.getElem?_append_right (by rw [hlen]; omega), hlen]
      simp [hi]

theorem sum_grid (n : Nat) (m : Nat) (f : Nat → K) :
    ∑ i ∈ Finset.range (m * n), f i = ∑ j ∈ Finset.range m, ∑ i ∈ Finset.range n, f (j * n + i) := by
  induction m with
  | zero => simp
  | succ m ih => rw [Nat.add_mul, one_mul, Finset.sum_range_add, ih, Finset.sum_range_succ]

variable (nodes : List K)

/-- The function of node `i` in one direction -/
def phi (x : K) (i : Nat) : K := (shape nodes x).getD i 0

theorem value_truss (v : Nat → K) (s : K) :
    value (lobattoTruss nodes) v [s] = ∑ i ∈ Finset.range nodes.length, phi nodes s i * v i := rfl

theorem value_quad (v : Nat → K) (s t : K) :
    value (lobattoQuad nodes) v [s, t] =
      ∑ j ∈ Finset.range nodes.length, ∑ i ∈ Finset.range nodes.length, phi nodes s i * phi nodes t j * v (j * nodes.length + i) := by
  rw [value, lobattoQuad]
  simp only
  rw [sum_grid]
  refine Finset.sum_congr rfl fun j hj => Finset.sum_congr rfl fun i hi => ?_
  rw [quadShape]
  simp only [List.getD_eq_getElem?_getD (i := j * nodes.length + i)]
  rw [getElem?_grid (fun i j => (shape nodes (vec [s, t] 0)).getD i 0 * (shape nodes (vec [s, t] 1)).getD j 0) _ _ _ _ (Finset.mem_range.1 hi)
    (Finset.mem_range.1 hj)]
  rfl

theorem coords_quad (i j : Nat) (hi : i < nodes.length) (hj : j < nodes.length) :
    (lobattoQuad nodes).coords[j * nodes.length + i]? = some [node nodes i, node nodes j] :=
  getElem?_grid (fun i j => [node nodes i, node nodes j]) _ _ _ _ hi hj

theorem getElem?_grid3 {α : Type} (f : Nat → Nat → Nat → α) (n i j k : Nat) (hi : i < n) (hj : j < n) (hk : k < n) :
    ((List.range n).flatMap fun k => (List.range n).flatMap fun j => (List.range n).map fun i => f i j k)[k * (n * n) + (j * n + i)]? =
      some (f i j k) := by
  have e : ((List.range n).flatMap fun k => (List.range n).flatMap fun j => (List.range n).map fun i => f i j k) =
      (List.range n).flatMap fun k => (List.range (n * n)).map fun l => f (l % n) (l / n) k := by
    refine List.flatMap_congr fun k _ => ?_
    refine List.ext_getElem? fun l => ?_
    by_cases hl : l < n * n
    · have hn : 0 < n := by omega
      have h1 : l = (l / n) * n + l % n := by rw [Nat.mul_comm]; exact (Nat.div_add_mod l n).symm
      rw [List.getElem?_map, List.getElem?_range hl]
      conv_lhs => rw [h1]
      rw [getElem?_grid (fun i j => f i j k) n n (l % n) (l / n) (Nat.mod_lt _ hn) ((Nat.div_lt_iff_lt_mul hn).2 hl)]
      rfl
    · rw [List.getElem?_eq_none, List.getElem?_eq_none]
      · simpa using hl
      · simp [List.length_flatMap]; omega
  have hl : j * n + i < n * n := by
    have := Nat.mul_le_mul_right n (show j + 1 ≤ n by omega)
    rw [Nat.add_mul] at this
    omega
  rw [e, getElem?_grid (fun l k => f (l % n) (l / n) k) (n * n) n (j * n + i) k hl hk]
  have hn : 0 < n := by omega
  rw [Nat.mul_comm j n, Nat.mul_add_mod, Nat.mod_eq_of_lt hi, Nat.mul_add_div hn, Nat.div_eq_of_lt hi, Nat.add_zero]

theorem value_brick (v : Nat → K) (r s t : K) :
    value (lobattoBrick nodes) v [r, s, t] =
      ∑ k ∈ Finset.range nodes.length, ∑ j ∈ Finset.range nodes.length, ∑ i ∈ Finset.range nodes.length,
        phi nodes r i * phi nodes s j * phi nodes t k * v (k * (nodes.length * nodes.length) + (j * nodes.length + i)) := by
  rw [value, lobattoBrick]
  simp only
  rw [Nat.mul_assoc, sum_grid]
  refine Finset.sum_congr rfl fun k hk => ?_
  rw [sum_grid]
  refine Finset.sum_congr rfl fun j hj => Finset.sum_congr rfl fun i hi => ?_
  rw [brickShape]
  simp only [List.getD_eq_getElem?_getD (i := k * (nodes.length * nodes.length) + (j * nodes.length + i))]
  rw [getElem?_grid3 (fun i j k => (shape nodes (vec [r, s, t] 0)).getD i 0 * (shape nodes (vec [r, s, t] 1)).getD j 0 *
    (shape nodes (vec [r, s, t] 2)).getD k 0) _ _ _ _ (Finset.mem_range.1 hi) (Finset.mem_range.1 hj) (Finset.mem_range.1 hk)]
  rfl

theorem coords_brick (i j k : Nat) (hi : i < nodes.length) (hj : j < nodes.length) (hk : k < nodes.length) :
    (lobattoBrick nodes).coords[k * (nodes.length * nodes.length) + (j * nodes.length + i)]? = some [node nodes i, node nodes j, node nodes k] :=
  getElem?_grid3 (fun i j k => [node nodes i, node nodes j, node nodes k]) _ _ _ _ hi hj hk

variable {nodes}

theorem phi_neg (h : LobattoNodes nodes) (x : K) (i : Nat) (hi : i < nodes.length) : phi nodes (-x) i = phi nodes x (nodes.length - 1 - i) :=
  shape_neg h x i hi

theorem phi_first (h : LobattoNodes nodes) (i : Nat) : phi nodes (-1) i = if i = 0 then 1 else 0 := by
  have := shape_node h.separated h.pos i
  rw [h.first] at this
  exact this

theorem phi_last (h : LobattoNodes nodes) (i : Nat) : phi nodes 1 i = if i = nodes.length - 1 then 1 else 0 := by
  have := shape_node h.separated (show nodes.length - 1 < nodes.length by have := h.pos; omega) i
  rw [h.last] at this
  exact this

/-- Sum over reflected indices -/
theorem sum_neg (h : LobattoNodes nodes) (x : K) (f : Nat → K) :
    ∑ i ∈ Finset.range nodes.length, phi nodes (-x) i * f i =
      ∑ i ∈ Finset.range nodes.length, phi nodes x i * f (nodes.length - 1 - i) := by
  rw [← Finset.sum_range_reflect]
  refine Finset.sum_congr rfl fun i hi => ?_
  have hi' := Finset.mem_range.1 hi
  rw [phi_neg h x _ (by omega), show nodes.length - 1 - (nodes.length - 1 - i) = i by omega]

theorem value_quad' (v : Nat → K) (s t : K) :
    value (lobattoQuad nodes) v [s, t] =
      ∑ j ∈ Finset.range nodes.length, phi nodes t j * ∑ i ∈ Finset.range nodes.length, phi nodes s i * v (j * nodes.length + i) := by
  rw [value_quad]
  refine Finset.sum_congr rfl fun j _ => ?_
  rw [Finset.mul_sum]
  exact Finset.sum_congr rfl fun i _ => by ring

theorem value_quad_swap (v : Nat → K) (s t : K) :
    value (lobattoQuad nodes) v [s, t] =
      ∑ j ∈ Finset.range nodes.length, phi nodes s j * ∑ i ∈ Finset.range nodes.length, phi nodes t i * v (i * nodes.length + j) := by
  rw [value_quad, Finset.sum_comm]
  refine Finset.sum_congr rfl fun j _ => ?_
  rw [Finset.mul_sum]
  exact Finset.sum_congr rfl fun i _ => by ring

theorem lobatto_symmetric_line (h : LobattoNodes nodes) (g : K → K → K × K) (hg : g ∈ (symmetries .line : List (K → K → K × K)))
    (a b : Nat → K) (hab : Agree (lobattoTruss nodes) .line g a b) (s t : K) :
    value (lobattoTruss nodes) a (point .line s t) = value (lobattoTruss nodes) b (point .line (g s t).1 (g s t).2) := by
  have hr : ∀ i < nodes.length, nodes.length - 1 - i < nodes.length := fun i hi => by omega
  simp only [symmetries, List.mem_cons, List.not_mem_nil, or_false] at hg
  have hc : ∀ i < nodes.length, (lobattoTruss nodes).coords[i]? = some [node nodes i] := by
    intro i hi
    simp [lobattoTruss, hi, node]
  rcases hg with rfl | rfl
  · simp only [point, value_truss]
    refine Finset.sum_congr rfl fun i hi => ?_
    have hi := Finset.mem_range.1 hi
    rw [hab i i (node nodes i) 0 (h.bound i hi) (hc i hi) (hc i hi)]
  · simp only [point, value_truss, sum_neg h]
    refine Finset.sum_congr rfl fun i hi => ?_
    have hi := Finset.mem_range.1 hi
    rw [hab i (nodes.length - 1 - i) (node nodes i) 0 (h.bound i hi) (hc i hi) (by rw [hc _ (hr i hi), h.symm i hi]; rfl)]

theorem lobatto_symmetric_quad (h : LobattoNodes nodes) (g : K → K → K × K) (hg : g ∈ (symmetries .quadrilateral : List (K → K → K × K)))
    (a b : Nat → K) (hab : Agree (lobattoQuad nodes) .quadrilateral g a b) (s t : K) :
    value (lobattoQuad nodes) a (point .quadrilateral s t) =
      value (lobattoQuad nodes) b (point .quadrilateral (g s t).1 (g s t).2) := by
  have hr : ∀ i < nodes.length, nodes.length - 1 - i < nodes.length := fun i hi => by omega
  simp only [symmetries, List.mem_cons, List.not_mem_nil, or_false] at hg
  have key : ∀ i j i' j' s t, i < nodes.length → j < nodes.length → i' < nodes.length → j' < nodes.length →
      node nodes i = s → node nodes j = t → (g s t).1 = node nodes i' → (g s t).2 = node nodes j' →
      a (j * nodes.length + i) = b (j' * nodes.length + i') := by
    intro i j i' j' s t hi hj hi' hj' h1 h2 h3 h4
    refine hab _ _ s t ?_ (by rw [coords_quad _ _ _ hi hj, h1, h2]; rfl)
      (by rw [coords_quad _ _ _ hi' hj', h3, h4]; rfl)
    rw [← h1, ← h2]
    exact ⟨(h.bound i hi).1, (h.bound i hi).2, (h.bound j hj).1, (h.bound j hj).2⟩
  change value (lobattoQuad nodes) a [s, t] = value (lobattoQuad nodes) b [(g s t).1, (g s t).2]
  rw [value_quad' a]
  rcases hg with rfl | rfl | rfl | rfl | rfl | rfl | rfl | rfl
  · simp only [value_quad']
    refine Finset.sum_congr rfl fun j hj => congrArg _ (Finset.sum_congr rfl fun i hi => congrArg _ ?_)
    have hi := Finset.mem_range.1 hi
    have hj := Finset.mem_range.1 hj
    exact key i j i j _ _ hi hj hi hj rfl rfl rfl rfl
  · simp only [value_quad', sum_neg h]
    refine Finset.sum_congr rfl fun j hj => congrArg _ (Finset.sum_congr rfl fun i hi => congrArg _ ?_)
    have hi := Finset.mem_range.1 hi
    have hj := Finset.mem_range.1 hj
    exact key i j _ j _ _ hi hj (hr i hi) hj rfl rfl (h.symm i hi).symm rfl
  · simp only [value_quad', sum_neg h]
    refine Finset.sum_congr rfl fun j hj => congrArg _ (Finset.sum_congr rfl fun i hi => congrArg _ ?_)
    have hi := Finset.mem_range.1 hi
    have hj := Finset.mem_range.1 hj
    exact key i j i _ _ _ hi hj hi (hr j hj) rfl rfl rfl (h.symm j hj).symm
  · simp only [value_quad', sum_neg h]
    refine Finset.sum_congr rfl fun j hj => congrArg _ (Finset.sum_congr rfl fun i hi => congrArg _ ?_)
    have hi := Finset.mem_range.1 hi
    have hj := Finset.mem_range.1 hj
    exact key i j _ _ _ _ hi hj (hr i hi) (hr j hj) rfl rfl (h.symm i hi).symm (h.symm j hj).symm
  · simp only [value_quad_swap]
    refine Finset.sum_congr rfl fun j hj => congrArg _ (Finset.sum_congr rfl fun i hi => congrArg _ ?_)
    have hi := Finset.mem_range.1 hi
    have hj := Finset.mem_range.1 hj
    exact key i j j i _ _ hi hj hj hi rfl rfl rfl rfl
  · simp only [value_quad_swap, sum_neg h]
    refine Finset.sum_congr rfl fun j hj => congrArg _ (Finset.sum_congr rfl fun i hi => congrArg _ ?_)
    have hi := Finset.mem_range.1 hi
    have hj := Finset.mem_range.1 hj
    exact key i j _ i _ _ hi hj (hr j hj) hi rfl rfl (h.symm j hj).symm rfl
  · simp only [value_quad_swap, sum_neg h]
    refine Finset.sum_congr rfl fun j hj => congrArg _ (Finset.sum_congr rfl fun i hi => congrArg _ ?_)
    have hi := Finset.mem_range.1 hi
    have hj := Finset.mem_range.1 hj
    exact key i j j _ _ _ hi hj hj (hr i hi) rfl rfl rfl (h.symm i hi).symm
  · simp only [value_quad_swap, sum_neg h]
    refine Finset.sum_congr rfl fun j hj => congrArg _ (Finset.sum_congr rfl fun i hi => congrArg _ ?_)
    have hi := Finset.mem_range.1 hi
    have hj := Finset.mem_range.1 hj
    exact key i j _ _ _ _ hi hj (hr j hj) (hr i hi) rfl rfl (h.symm j hj).symm (h.symm i hi).symm

/-- On the facet the functions of `I` are those of `M`; `index` gives the nodes. -/
structure LobattoTrace (I : Interpolation K) (F : EShape) (p : K → K → List K) (M : Interpolation K) (index : Nat → Nat) : Prop where
  value : ∀ v s t, value I v (p s t) = value M (fun k => v (index k)) (point F s t)
  coords : ∀ k < M.numNodes, ∀ s t, M.coords[k]? = some (point F s t) → I.coords[index k]? = some (p s t)

theorem coords_truss {k : Nat} {c : List K} (hc : (lobattoTruss nodes).coords[k]? = some c) : k < nodes.length ∧ c = [node nodes k] := by
  rw [lobattoTruss] at hc
  simp only [List.getElem?_map, Option.map_eq_some_iff] at hc
  obtain ⟨x, hx, rfl⟩ := hc
  obtain ⟨hk, rfl⟩ := List.getElem?_eq_some_iff.1 hx
  exact ⟨hk, by simp [node, hk]⟩

theorem coords_quad_inv {l : Nat} (hl : l < nodes.length * nodes.length) {c : List K} (hc : (lobattoQuad nodes).coords[l]? = some c) :
    ∃ i j, i < nodes.length ∧ j < nodes.length ∧ l = j * nodes.length + i ∧ c = [node nodes i, node nodes j] := by
  have hn : 0 < nodes.length := by
    rcases Nat.eq_zero_or_pos nodes.length with h | h
    · rw [h] at hl; omega
    · exact h
  have h1 : l = (l / nodes.length) * nodes.length + l % nodes.length := by rw [Nat.mul_comm]; exact (Nat.div_add_mod l _).symm
  have hi := Nat.mod_lt l hn
  have hj := (Nat.div_lt_iff_lt_mul hn).2 hl
  refine ⟨_, _, hi, hj, h1, ?_⟩
  rw [h1, coords_quad _ _ _ hi hj] at hc
  exact (Option.some.inj hc).symm

theorem edge_y (v : Nat → K) (s y : K) (m : Nat) (hm : m < nodes.length) (hy : ∀ k, phi nodes y k = if k = m then 1 else 0) :
    value (lobattoQuad nodes) v [s, y] = value (lobattoTruss nodes) (fun k => v (m * nodes.length + k)) [s] := by
  rw [value_quad', value_truss, Finset.sum_eq_single m]
  · rw [hy, if_pos rfl, one_mul]
  · intro j _ hj
    rw [hy, if_neg hj, zero_mul]
  · intro h
    exact absurd (Finset.mem_range.2 hm) h

theorem edge_x (v : Nat → K) (s x : K) (m : Nat) (hm : m < nodes.length) (hx : ∀ k, phi nodes x k = if k = m then 1 else 0) :
    value (lobattoQuad nodes) v [x, s] = value (lobattoTruss nodes) (fun k => v (k * nodes.length + m)) [s] := by
  rw [value_quad_swap, value_truss, Finset.sum_eq_single m]
  · rw [hx, if_pos rfl, one_mul]
  · intro j _ hj
    rw [hx, if_neg hj, zero_mul]
  · intro h
    exact absurd (Finset.mem_range.2 hm) h

/-- Every edge of the quadrilateral -/
theorem lobatto_trace_quad (h : LobattoNodes nodes) (F : EShape) (p : K → K → List K)
    (hp : (F, p) ∈ (facets .quadrilateral : List (EShape × (K → K → List K)))) :
    F = .line ∧ ∃ index, LobattoTrace (lobattoQuad nodes) .line p (lobattoTruss nodes) index := by
  have hl : nodes.length - 1 < nodes.length := by have := h.pos; omega
  simp only [facets, List.mem_cons, List.not_mem_nil, or_false, Prod.mk.injEq] at hp
  rcases hp with ⟨rfl, rfl⟩ | ⟨rfl, rfl⟩ | ⟨rfl, rfl⟩ | ⟨rfl, rfl⟩ <;> refine ⟨rfl, ?_⟩
  · refine ⟨fun k => 0 * nodes.length + k, fun v s t => edge_y v s _ _ h.pos (phi_first h), ?_⟩
    intro k _ s t hc
    obtain ⟨hk, e⟩ := coords_truss hc
    simp only [point, List.cons.injEq, and_true] at e
    rw [coords_quad _ _ _ hk h.pos, e, h.first]
  · refine ⟨fun k => k * nodes.length + (nodes.length - 1), fun v s t => edge_x v s _ _ hl (phi_last h), ?_⟩
    intro k _ s t hc
    obtain ⟨hk, e⟩ := coords_truss hc
    simp only [point, List.cons.injEq, and_true] at e
    rw [coords_quad _ _ _ hl hk, e, h.last]
  · refine ⟨fun k => (nodes.length - 1) * nodes.length + k, fun v s t => edge_y v s _ _ hl (phi_last h), ?_⟩
    intro k _ s t hc
    obtain ⟨hk, e⟩ := coords_truss hc
    simp only [point, List.cons.injEq, and_true] at e
    rw [coords_quad _ _ _ hk hl, e, h.last]
  · refine ⟨fun k => k * nodes.length + 0, fun v s t => edge_x v s _ _ h.pos (phi_first h), ?_⟩
    intro k _ s t hc
    obtain ⟨hk, e⟩ := coords_truss hc
    simp only [point, List.cons.injEq, and_true] at e
    rw [coords_quad _ _ _ h.pos hk, e, h.first]

theorem face_z (v : Nat → K) (r s z : K) (m : Nat) (hm : m < nodes.length) (hz : ∀ k, phi nodes z k = if k = m then 1 else 0) :
    value (lobattoBrick nodes) v [r, s, z] = value (lobattoQuad nodes) (fun l => v (m * (nodes.length * nodes.length) + l)) [r, s] := by
  rw [value_brick, value_quad, Finset.sum_eq_single m]
  · refine Finset.sum_congr rfl fun j _ => Finset.sum_congr rfl fun i _ => ?_
    rw [hz, if_pos rfl, mul_one]
  · intro k _ hk
    refine Finset.sum_eq_zero fun j _ => Finset.sum_eq_zero fun i _ => ?_
    rw [hz, if_neg hk, mul_zero, zero_mul]
  · intro h
    exact absurd (Finset.mem_range.2 hm) h

theorem index_mod {n i j : Nat} (hi : i < n) : (j * n + i) % n = i := by
  rw [Nat.mul_comm j n, Nat.mul_add_mod, Nat.mod_eq_of_lt hi]

theorem index_div {n i j : Nat} (hi : i < n) : (j * n + i) / n = j := by
  rw [Nat.mul_comm j n, Nat.mul_add_div (by omega), Nat.div_eq_of_lt hi, Nat.add_zero]

theorem face_y (v : Nat → K) (r y t : K) (m : Nat) (hm : m < nodes.length) (hy : ∀ k, phi nodes y k = if k = m then 1 else 0) :
    value (lobattoBrick nodes) v [r, y, t] = value (lobattoQuad nodes)
      (fun l => v (l / nodes.length * (nodes.length * nodes.length) + (m * nodes.length + l % nodes.length))) [r, t] := by
  rw [value_brick, value_quad]
  refine Finset.sum_congr rfl fun k _ => ?_
  rw [Finset.sum_eq_single m]
  · refine Finset.sum_congr rfl fun i hi => ?_
    rw [hy, if_pos rfl, mul_one, index_mod (Finset.mem_range.1 hi), index_div (Finset.mem_range.1 hi)]
  · intro j _ hj
    refine Finset.sum_eq_zero fun i _ => ?_
    rw [hy, if_neg hj, mul_zero, zero_mul, zero_mul]
  · intro h
    exact absurd (Finset.mem_range.2 hm) h

theorem face_x (v : Nat → K) (x s t : K) (m : Nat) (hm : m < nodes.length) (hx : ∀ k, phi nodes x k = if k = m then 1 else 0) :
    value (lobattoBrick nodes) v [x, s, t] = value (lobattoQuad nodes)
      (fun l => v (l / nodes.length * (nodes.length * nodes.length) + (l % nodes.length * nodes.length + m))) [s, t] := by
  rw [value_brick, value_quad]
  refine Finset.sum_congr rfl fun k _ => Finset.sum_congr rfl fun j hj => ?_
  rw [Finset.sum_eq_single m]
  · rw [hx, if_pos rfl, one_mul, index_mod (Finset.mem_range.1 hj), index_div (Finset.mem_range.1 hj)]
  · intro i _ hi
    rw [hx, if_neg hi, zero_mul, zero_mul, zero_mul]
  · intro h
    exact absurd (Finset.mem_range.2 hm) h

/-- Every face of the brick -/
theorem lobatto_trace_brick (h : LobattoNodes nodes) (F : EShape) (p : K → K → List K)
    (hp : (F, p) ∈ (facets .hexahedron : List (EShape × (K → K → List K)))) :
    F = .quadrilateral ∧ ∃ index, LobattoTrace (lobattoBrick nodes) .quadrilateral p (lobattoQuad nodes) index := by
  have hl : nodes.length - 1 < nodes.length := by have := h.pos; omega
  simp only [facets, List.mem_cons, List.not_mem_nil, or_false, Prod.mk.injEq] at hp
  rcases hp with ⟨rfl, rfl⟩ | ⟨rfl, rfl⟩ | ⟨rfl, rfl⟩ | ⟨rfl, rfl⟩ | ⟨rfl, rfl⟩ | ⟨rfl, rfl⟩ <;> refine ⟨rfl, ?_⟩
  · refine ⟨_, fun v s t => face_z v s t _ _ h.pos (phi_first h), ?_⟩
    intro k hk s t hc
    obtain ⟨i, j, hi, hj, rfl, e⟩ := coords_quad_inv hk hc
    simp only [point, List.cons.injEq, and_true] at e
    rw [coords_brick _ _ _ _ hi hj h.pos, e.1, e.2, h.first]
  · refine ⟨_, fun v s t => face_z v s t _ _ hl (phi_last h), ?_⟩
    intro k hk s t hc
    obtain ⟨i, j, hi, hj, rfl, e⟩ := coords_quad_inv hk hc
    simp only [point, List.cons.injEq, and_true] at e
    rw [coords_brick _ _ _ _ hi hj hl, e.1, e.2, h.last]
  · refine ⟨_, fun v s t => face_y v s _ t _ h.pos (phi_first h), ?_⟩
    intro k hk s t hc
    obtain ⟨i, j, hi, hj, rfl, e⟩ := coords_quad_inv hk hc
    simp only [point, List.cons.injEq, and_true] at e
    rw [index_mod hi, index_div hi, coords_brick _ _ _ _ hi h.pos hj, e.1, e.2, h.first]
  · refine ⟨_, fun v s t => face_y v s _ t _ hl (phi_last h), ?_⟩
    intro k hk s t hc
    obtain ⟨i, j, hi, hj, rfl, e⟩ := coords_quad_inv hk hc
    simp only [point, List.cons.injEq, and_true] at e
    rw [index_mod hi, index_div hi, coords_brick _ _ _ _ hi hl hj, e.1, e.2, h.last]
  · refine ⟨_, fun v s t => face_x v _ s t _ h.pos (phi_first h), ?_⟩
    intro k hk s t hc
    obtain ⟨i, j, hi, hj, rfl, e⟩ := coords_quad_inv hk hc
    simp only [point, List.cons.injEq, and_true] at e
    rw [index_mod hi, index_div hi, coords_brick _ _ _ _ h.pos hi hj, e.1, e.2, h.first]
  · refine ⟨_, fun v s t => face_x v _ s t _ hl (phi_last h), ?_⟩
    intro k hk s t hc
    obtain ⟨i, j, hi, hj, rfl, e⟩ := coords_quad_inv hk hc
    simp only [point, List.cons.injEq, and_true] at e
    rw [index_mod hi, index_div hi, coords_brick _ _ _ _ hl hi hj, e.1, e.2, h.last]

end Continuity

end NuTo
