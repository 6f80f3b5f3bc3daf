import Verif.Lemmas.ParticleHandler
import Mathlib.Data.Rat.Encodable
import Mathlib.Tactic.Positivity
import Mathlib.Tactic.NormNum

/-!
C100: the particles of a simulation are those that were given, and those that were exported.
-/

namespace NuTo.Particles

open NuTo.Serialize NuTo.Visualize

variable {K S : Type} [Field K] [LinearOrder K] [IsStrictOrderedRing K]

/-- Specification: the random engine returns numbers of the unit interval. -/
def UnitInterval (next : S → K × S) : Prop := ∀ s, 0 ≤ (next s).1 ∧ (next s).1 ≤ 1

/-- Specification: particle `p` at rest at time zero is row `i` of the matrix, with a velocity within the range. -/
structure IsRow (spheres : Mat K) (range relative absolute : K) (i : Nat) (p : Particle K) : Prop where
  position : ∀ k : Fin 3, p.position k = spheres.entry i k
  radius : p.radius = spheres.entry i 3
  radius0 : p.radius0 = spheres.entry i 3
  radiusGrowth : p.radiusGrowth = spheres.entry i 3
  growthRate : p.growthRate = spheres.entry i 3 * relative + absolute
  index : p.index = 100000 + i
  timeOfLastUpdate : p.timeOfLastUpdate = 0
  timeOfGrowthReset : p.timeOfGrowthReset = 0
  velocity : ∀ k, |p.velocity k| ≤ range / 2

theorem matrixStep_spec (next : S → K × S) (hn : UnitInterval next) (m : Mat K) (range relative absolute : K)
    (hc : 4 ≤ m.cols) (hr : 0 ≤ range) (l : List (Particle K)) (s : S) (i : Nat) (hi : i < m.rows) :
    ∃ p s', matrixStep next m range relative absolute (l, s) i = .ok (l ++ [p], s') ∧
      IsRow m range relative absolute i p := by
  have a : ∀ j < 4, m.at i j = .ok (m.entry i j) := fun j hj => if_pos ⟨hi, by omega⟩
  obtain ⟨v, s', hv, hb⟩ := randomVector_spec next hn _ _ s (half_range range hr)
  refine ⟨Particle.make ![m.entry i 0, m.entry i 1, m.entry i 2] v (m.entry i 3)
    (m.entry i 3 * relative + absolute) (100000 + i), s', ?_, ⟨?_, rfl, rfl, rfl, rfl, rfl, rfl, rfl, ?_⟩⟩
  · rw [matrixStep, a 0 (by decide), Res.bind_ok', a 1 (by decide), Res.bind_ok', a 2 (by decide), Res.bind_ok',
      hv, Res.bind_ok', a 3 (by decide), Res.bind_ok']
  · intro k; fin_cases k <;> rfl
  · intro k; exact abs_of_half _ _ (hb k)

/-- C100: a handler made from a matrix has one particle per row, in order: its position, its radius, the growth rate
`radius * relative + absolute`, a number counted from 100000, and a velocity with components within half the range. -/
theorem C100_from_matrix (next : S → K × S) (hn : UnitInterval next) (m : Mat K) (range relative absolute : K) (seed : S)
    (hc : 4 ≤ m.cols) (hr : 0 ≤ range) :
    ∃ h, fromMatrix next m range relative absolute seed = .ok h ∧ h.particles.length = m.rows ∧
      h.visualizationFileName = "spheres".toList ∧
      ∀ i, i < m.rows → ∃ p, h.getParticle i = .ok p ∧ IsRow m range relative absolute i p := by
  obtain ⟨l, s', h1, h2, h3⟩ := foldlM_append (matrixStep next m range relative absolute)
    (IsRow m range relative absolute) m.rows
    (fun l s i hi => matrixStep_spec next hn m range relative absolute hc hr l s i hi) seed
  refine ⟨⟨l, "spheres".toList, s'⟩, ?_, h2, rfl, ?_⟩
  · rw [fromMatrix, createParticles, h1, Res.bind_ok']; rfl
  · intro i hi
    obtain ⟨p, hp, hrow⟩ := h3 i hi
    refine ⟨p, ?_, hrow⟩
    have : ¬ ((i : Int) < 0) := by omega
    rw [Handler.getParticle, if_neg this]
    simp [hp]

/-- C100: a matrix with rows and less than four columns, and a negative range of velocities, are not handled: the
constructor is undefined exactly then. -/
theorem C100_from_matrix_defined (next : S → K × S) (hn : UnitInterval next) (m : Mat K) (range relative absolute : K)
    (seed : S) :
    fromMatrix next m range relative absolute seed = .ub ↔ 0 < m.rows ∧ (m.cols < 4 ∨ range < 0) := by
  constructor
  · intro h
    by_contra hcon
    by_cases h0 : m.rows = 0
    · rw [fromMatrix, createParticles, h0] at h
      exact absurd h (by simp)
    · have h1 : 4 ≤ m.cols ∧ 0 ≤ range := by
        constructor
        · by_contra h2; exact hcon ⟨by omega, Or.inl (by omega)⟩
        · by_contra h2; exact hcon ⟨by omega, Or.inr (not_le.1 h2)⟩
      obtain ⟨_, hh, _⟩ := C100_from_matrix next hn m range relative absolute seed h1.1 h1.2
      rw [hh] at h; exact absurd h (by simp)
  · rintro ⟨hr, hcase⟩
    obtain ⟨n, hn'⟩ : ∃ n, m.rows = n + 1 := ⟨m.rows - 1, by omega⟩
    have first : matrixStep next m range relative absolute ([], seed) 0 = .ub := by
      have a : ∀ j, j < m.cols → m.at 0 j = .ok (m.entry 0 j) := fun j hj => if_pos ⟨hr, hj⟩
      have b : ∀ j, m.cols ≤ j → m.at 0 j = .ub := fun j hj => if_neg fun h => absurd h.2 (by omega)
      have hneg : range < 0 → randomVector next (-range / 2) (range / 2) seed = .ub := by
        intro h
        have h2 : ¬ (-range / 2 ≤ range / 2) := by
          rw [not_le]; exact div_lt_div_of_pos_right (by linarith) two_pos
        rw [randomVector, uniform, if_neg h2]; rfl
      unfold matrixStep
      by_cases c0 : 0 < m.cols
      · rw [a 0 c0, Res.bind_ok']
        by_cases c1 : 1 < m.cols
        · rw [a 1 c1, Res.bind_ok']
          by_cases c2 : 2 < m.cols
          · rw [a 2 c2, Res.bind_ok']
            dsimp only
            by_cases hr : range < 0
            · rw [hneg hr]; rfl
            · obtain ⟨v, s', hv, -⟩ := randomVector_spec next hn _ _ seed (half_range range (not_lt.1 hr))
              have c3 : m.cols ≤ 3 := by
                rcases hcase with h | h
                · omega
                · exact absurd h hr
              rw [hv, Res.bind_ok', b 3 c3]; rfl
          · rw [b 2 (by omega)]; rfl
        · rw [b 1 (by omega)]; rfl
      · rw [b 0 (by omega)]; rfl
    rw [fromMatrix, createParticles, hn', List.range_succ_eq_map, Res.foldlM_cons, first]; rfl

/-- C100: `GetParticles` of a new handler returns the first four columns of its matrix, whichever radius is asked for. -/
theorem C100_get_particles (next : S → K × S) (hn : UnitInterval next) (m : Mat K) (range relative absolute : K) (seed : S)
    (hc : 4 ≤ m.cols) (hr : 0 ≤ range) (h : Handler K S) (hh : fromMatrix next m range relative absolute seed = .ok h)
    (initial : Bool) :
    (h.getParticles initial).rows = m.rows ∧ (h.getParticles initial).cols = 4 ∧
    ∀ i j, i < m.rows → j < 4 → (h.getParticles initial).at i j = m.at i j := by
  obtain ⟨h', h1, h2, -, h3⟩ := C100_from_matrix next hn m range relative absolute seed hc hr
  rw [hh] at h1; injection h1 with h1; subst h1
  refine ⟨h2, rfl, fun i j hi hj => ?_⟩
  obtain ⟨p, hp, row⟩ := h3 i hi
  have hp' : h.particles[i]? = some p := by
    have : ¬ ((i : Int) < 0) := by omega
    rw [Handler.getParticle, if_neg this, Int.toNat_natCast] at hp
    cases hq : h.particles[i]? with
    | none => rw [hq] at hp; exact absurd hp (by simp)
    | some q => rw [hq] at hp; simp only [Res.ok.injEq] at hp; rw [hp]
  have e1 : (h.getParticles initial).at i j = .ok ((h.getParticles initial).entry i j) := if_pos ⟨by
    show i < h.particles.length; omega, hj⟩
  have e2 : m.at i j = .ok (m.entry i j) := if_pos ⟨hi, by omega⟩
  rw [e1, e2]
  congr 1
  simp only [Handler.getParticles, hp', dif_pos hj]
  have hrad : (if initial then p.radius0 else p.radius) = m.entry i 3 := by
    cases initial
    · exact row.radius
    · exact row.radius0
  have hall : ∀ k : Fin 4, p.exportRow initial k = m.entry i k := by
    intro k
    fin_cases k
    · exact row.position 0
    · exact row.position 1
    · exact row.position 2
    · exact hrad
  exact hall ⟨j, hj⟩

/-! ### Moving -/

/-- C100: `Sync` to a time does not depend on the times the particles were synchronised to before. -/
theorem C100_sync_sync (h : Handler K S) (t1 t2 : K) : (h.sync t1).sync t2 = h.sync t2 := by
  unfold Handler.sync
  simp only [List.map_map, Handler.mk.injEq, and_true]
  apply List.map_congr_left
  intro p _
  simp only [Function.comp, Particle.moveAndGrow, Particle.mk.injEq, and_true]
  funext k; ring

/-- C100: a particle of a new handler at time `t`: it has moved by velocity times `t`, its radius has grown to
`r + (r * relative + absolute) * t`, and the radius of the start is remembered. -/
theorem C100_sync (next : S → K × S) (hn : UnitInterval next) (m : Mat K) (range relative absolute : K) (seed : S)
    (hc : 4 ≤ m.cols) (hr : 0 ≤ range) (h : Handler K S) (hh : fromMatrix next m range relative absolute seed = .ok h)
    (t : K) (i : Nat) (hi : i < m.rows) :
    ∃ p q, h.getParticle i = .ok p ∧ (h.sync t).getParticle i = .ok q ∧
      (∀ k : Fin 3, q.position k = m.entry i k + t * p.velocity k ∧ |q.position k - m.entry i k| ≤ |t| * (range / 2)) ∧
      q.radius = m.entry i 3 + (m.entry i 3 * relative + absolute) * t ∧ q.radius0 = m.entry i 3 ∧
      q.velocity = p.velocity ∧ q.timeOfLastUpdate = t := by
  obtain ⟨h', h1, h2, -, h3⟩ := C100_from_matrix next hn m range relative absolute seed hc hr
  rw [hh] at h1; injection h1 with h1; subst h1
  obtain ⟨p, hp, row⟩ := h3 i hi
  have hneg : ¬ ((i : Int) < 0) := by omega
  refine ⟨p, p.moveAndGrow t, hp, ?_, ?_, ?_, row.radius0, rfl, rfl⟩
  · rw [Handler.getParticle, if_neg hneg, Int.toNat_natCast] at hp ⊢
    cases hq : h.particles[i]? with
    | none => rw [hq] at hp; exact absurd hp (by simp)
    | some q =>
      rw [hq] at hp; simp only [Res.ok.injEq] at hp; subst hp
      simp [Handler.sync, hq]
  · intro k
    have e : (p.moveAndGrow t).position k = m.entry i k + t * p.velocity k := by
      simp only [Particle.moveAndGrow, row.position, row.timeOfLastUpdate]; ring
    refine ⟨e, ?_⟩
    rw [e, add_sub_cancel_left, abs_mul]
    exact mul_le_mul_of_nonneg_left (row.velocity k) (abs_nonneg _)
  · simp only [Particle.moveAndGrow, row.radiusGrowth, row.growthRate, row.timeOfGrowthReset]; ring

/-- C100: after `ResetVelocities` the kinetic energy is zero and `Sync` moves nothing. -/
theorem C100_reset (h : Handler K S) (t : K) :
    h.resetVelocities.kineticEnergy = 0 ∧
    ∀ (i : Nat) (p q : Particle K), h.particles[i]? = some p → (h.resetVelocities.sync t).particles[i]? = some q → q.position = p.position := by
  constructor
  · unfold Handler.resetVelocities Handler.kineticEnergy
    simp only
    induction h.particles with
    | nil => rfl
    | cons p l ih =>
      rw [List.map_cons, List.foldl_cons]
      have : (0 : K) + Particle.kineticEnergy { p with velocity := fun _ => 0 } = 0 := by
        simp [Particle.kineticEnergy]
      rw [this]; exact ih
  · intro i p q hp hq
    simp only [Handler.resetVelocities, Handler.sync, List.getElem?_map, hp, Option.map_some, Option.some.injEq] at hq
    subst hq
    funext k
    simp [Particle.moveAndGrow]

theorem foldl_add_sum (l : List (Particle K)) (f : Particle K → K) (a : K) :
    l.foldl (fun v p => v + f p) a = a + (l.map f).sum := by
  induction l generalizing a with
  | nil => simp
  | cons p t ih => rw [List.foldl_cons, ih]; simp [add_assoc]

theorem sum_nonneg_of (l : List K) (h : ∀ e ∈ l, 0 ≤ e) : 0 ≤ l.sum := by
  induction l with
  | nil => simp
  | cons a t ih =>
    rw [List.sum_cons]
    exact add_nonneg (h a List.mem_cons_self) (ih fun e he => h e (List.mem_cons_of_mem _ he))

/-- C100: the energy is not negative if the radii are not; the volume is the sum of the volumes of the balls; with a
relative growth rate only, the volume at time `t` is the volume at the start times `(1 + relative * t)³`. -/
theorem C100_volume (next : S → K × S) (hn : UnitInterval next) (pi : K) (m : Mat K) (range relative : K) (seed : S)
    (hc : 4 ≤ m.cols) (hr : 0 ≤ range) (h : Handler K S) (hh : fromMatrix next m range relative 0 seed = .ok h) (t : K) :
    h.volume pi = ((List.range m.rows).map fun i => 4 / 3 * pi * m.entry i 3 ^ 3).sum ∧
    (h.sync t).volume pi = (1 + relative * t) ^ 3 * h.volume pi ∧
    ((∀ i, i < m.rows → 0 ≤ m.entry i 3) → 0 ≤ h.kineticEnergy) := by
  obtain ⟨h', h1, h2, -, h3⟩ := C100_from_matrix next hn m range relative 0 seed hc hr
  rw [hh] at h1; injection h1 with h1; subst h1
  have rows : ∀ (i : Nat) (hi : i < h.particles.length), IsRow m range relative 0 i h.particles[i] := by
    intro i hi
    obtain ⟨p, hp, row⟩ := h3 i (h2 ▸ hi)
    have hneg : ¬ ((i : Int) < 0) := by omega
    rw [Handler.getParticle, if_neg hneg, Int.toNat_natCast, List.getElem?_eq_getElem hi] at hp
    simp only [Res.ok.injEq] at hp
    rw [hp]; exact row
  have hvol : h.particles.map (Particle.volume pi) =
      (List.range m.rows).map fun i => 4 / 3 * pi * m.entry i 3 ^ 3 := by
    apply List.ext_getElem
    · simp [h2]
    · intro i hi1 hi2
      simp only [List.getElem_map, List.getElem_range, Particle.volume]
      rw [(rows i (by simpa using hi1)).radius]; ring
  refine ⟨?_, ?_, ?_⟩
  · rw [Handler.volume, foldl_add_sum, zero_add, hvol]
  · have hvol2 : (h.sync t).particles.map (Particle.volume pi) =
        (h.particles.map (Particle.volume pi)).map fun v => (1 + relative * t) ^ 3 * v := by
      rw [Handler.sync, List.map_map, List.map_map]
      apply List.map_congr_left
      intro p hp
      obtain ⟨i, hi, rfl⟩ := List.getElem_of_mem hp
      have row := rows i hi
      simp only [Function.comp, Particle.volume, Particle.moveAndGrow, row.radius, row.radiusGrowth, row.growthRate,
        row.timeOfGrowthReset]
      ring
    rw [Handler.volume, Handler.volume, foldl_add_sum, foldl_add_sum, zero_add, zero_add, hvol2]
    generalize h.particles.map (Particle.volume pi) = l
    induction l with
    | nil => simp
    | cons v l ih => rw [List.map_cons, List.sum_cons, List.sum_cons, ih]; ring
  · intro hpos
    rw [Handler.kineticEnergy, foldl_add_sum, zero_add]
    refine sum_nonneg_of _ fun e he => ?_
    obtain ⟨p, hp, rfl⟩ := List.mem_map.1 he
    obtain ⟨i, hi, rfl⟩ := List.getElem_of_mem hp
    have hrad : 0 ≤ h.particles[i].radius := (rows i hi).radius ▸ hpos i (h2 ▸ hi)
    have hv : ∀ k, 0 ≤ h.particles[i].velocity k * h.particles[i].velocity k := fun k => mul_self_nonneg _
    exact mul_nonneg (mul_nonneg (mul_nonneg (mul_nonneg (by positivity) hrad) hrad) hrad)
      (add_nonneg (add_nonneg (hv 0) (hv 1)) (hv 2))

/-! ### Random particles -/

/-- C100: a handler of random particles: the requested number, each inside of the bounding box, of radius zero, with the
requested growth rate, numbered from 100000, with a velocity within the range; whichever argument the compiler evaluates
first. -/
theorem C100_from_random (next : S → K × S) (hn : UnitInterval next) (positionFirst : Bool) (num : Nat) (bounds : Mat K)
    (range growthRate : K) (seed : S) (hrows : bounds.rows = 3) (hcols : 2 ≤ bounds.cols)
    (hb : ∀ k < 3, bounds.entry k 0 ≤ bounds.entry k 1) (hr : 0 ≤ range) :
    ∃ h, fromRandom next positionFirst num bounds range growthRate seed = .ok h ∧ h.particles.length = num ∧
      ∀ i, i < num → ∃ p, h.getParticle i = .ok p ∧
        (∀ k : Fin 3, bounds.entry k 0 ≤ p.position k ∧ p.position k ≤ bounds.entry k 1) ∧
        (∀ k, |p.velocity k| ≤ range / 2) ∧ p.radius = 0 ∧ p.radius0 = 0 ∧ p.growthRate = growthRate ∧
        p.index = 100000 + (i : Int) := by
  have hstep : ∀ (l : List (Particle K)) (s : S) (i : Nat), i < num → ∃ p s',
      randomStep next positionFirst bounds range growthRate (l, s) i = .ok (l ++ [p], s') ∧
      ((∀ k : Fin 3, bounds.entry k 0 ≤ p.position k ∧ p.position k ≤ bounds.entry k 1) ∧
        (∀ k, |p.velocity k| ≤ range / 2) ∧ p.radius = 0 ∧ p.radius0 = 0 ∧ p.growthRate = growthRate ∧
        p.index = 100000 + (i : Int)) := by
    intro l s i _
    cases positionFirst with
    | true =>
      obtain ⟨x, s1, h1, hx⟩ := randomVectorIn_spec next hn bounds s hrows hcols hb
      obtain ⟨v, s2, h2, hv⟩ := randomVector_spec next hn _ _ s1 (half_range range hr)
      refine ⟨Particle.make x v 0 growthRate (100000 + i), s2, ?_, hx, fun k => abs_of_half _ _ (hv k), rfl, rfl, rfl, rfl⟩
      rw [randomStep, randomArguments, if_pos rfl, h1, Res.bind_ok', h2, Res.bind_ok', Res.bind_ok']
    | false =>
      obtain ⟨v, s1, h1, hv⟩ := randomVector_spec next hn _ _ s (half_range range hr)
      obtain ⟨x, s2, h2, hx⟩ := randomVectorIn_spec next hn bounds s1 hrows hcols hb
      refine ⟨Particle.make x v 0 growthRate (100000 + i), s2, ?_, hx, fun k => abs_of_half _ _ (hv k), rfl, rfl, rfl, rfl⟩
      rw [randomStep, randomArguments, if_neg (by decide), h1, Res.bind_ok', h2, Res.bind_ok', Res.bind_ok']
  obtain ⟨l, s', h1, h2, h3⟩ := foldlM_append _ _ num hstep seed
  refine ⟨⟨l, "spheres".toList, s'⟩, ?_, h2, ?_⟩
  · rw [fromRandom, h1, Res.bind_ok']; rfl
  · intro i hi
    obtain ⟨p, hp, hrest⟩ := h3 i hi
    refine ⟨p, ?_, hrest⟩
    have hneg : ¬ ((i : Int) < 0) := by omega
    rw [Handler.getParticle, if_neg hneg]
    simp [hp]

/-! ### Files -/

/-- C100: the exported file holds the particles: reading it into a matrix with one row per particle and four columns
returns `GetParticles`.  (Missing: the constructor that reads the file does not, see the counterexample.) -/
theorem C100_export_partial (c : Codec) (good : Prim → Nat → Prop) (hc : c.Lawful good) (bits : K → Nat) (value : Nat → K)
    (hv : ∀ x, value (bits x) = x) (h : Handler K S) (initial : Bool)
    (hg : ∀ x ∈ (h.getParticles initial).data, good .double (bits x)) (old : Nat → Nat → K) :
    ∃ m, loadMatrix c bits value ⟨h.exportToFile c bits initial, true⟩ ⟨h.particles.length, 4, old⟩ =
        .ok (m, ⟨[], true⟩) ∧ m.rows = h.particles.length ∧ m.cols = 4 ∧
      ∀ i j, m.at i j = (h.getParticles initial).at i j := by
  set g := h.getParticles initial with hgdef
  have hrow : g.rows = h.particles.length := rfl
  have hcol : g.cols = 4 := rfl
  refine ⟨Mat.ofData g.rows g.cols ((g.data.map bits).map value), ?_, rfl, rfl, ?_⟩
  · have := writeText_read c good hc (.matrix .double g.rows g.cols (g.data.map bits))
      (.matrix .double h.particles.length 4 ((Mat.data ⟨h.particles.length, 4, old⟩).map bits))
      ⟨by rw [List.length_map, data_length], by
        intro v hvm
        obtain ⟨x, hx, rfl⟩ := List.mem_map.1 hvm
        exact hg x hx⟩ ⟨rfl, hrow, hcol⟩ []
    rw [List.append_nil] at this
    rw [loadMatrix, Handler.exportToFile, ← hgdef]
    dsimp only
    rw [this, Res.bind_ok']
  · intro i j
    have hid : (g.data.map bits).map value = g.data := by
      rw [List.map_map]
      conv_rhs => rw [← List.map_id g.data]
      apply List.map_congr_left
      intro x _; exact hv x
    rw [hid]
    unfold Mat.at
    by_cases hij : i < g.rows ∧ j < g.cols
    · rw [if_pos hij]
      rw [if_pos (show i < (Mat.ofData g.rows g.cols g.data).rows ∧ j < (Mat.ofData g.rows g.cols g.data).cols from hij),
        ofData_entry g i j hij.1 hij.2]
    · rw [if_neg hij]
      rw [if_neg (show ¬ (i < (Mat.ofData g.rows g.cols g.data).rows ∧
        j < (Mat.ofData g.rows g.cols g.data).cols) from hij)]

/-- C100: the constructor that reads a file ignores it: it reads into a matrix without entries, so the handler has no
particles, whatever file, range and rates are given; the name of its visualisation files is empty. -/
theorem C100_from_file_counterexample (c : Codec) (bits : K → Nat) (value : Nat → K) (next : S → K × S) (text : List Char)
    (range relative absolute : K) (seed : S) :
    ∃ h, fromFile c bits value next (some text) range relative absolute seed = .ok h ∧ h.particles = [] ∧
      h.visualizationFileName = [] ∧ ∀ initial, (h.getParticles initial).rows = 0 := by
  refine ⟨⟨[], [], seed⟩, ?_, rfl, rfl, fun _ => rfl⟩
  rfl

/-- C100: consequence: particles that are exported and read back are lost, unless there were none. -/
theorem C100_lost_counterexample (c : Codec) (bits : K → Nat) (value : Nat → K) (next : S → K × S) (h : Handler K S)
    (initial : Bool) (range relative absolute : K) (seed : S) (h' : Handler K S)
    (hh : fromFile c bits value next (some (h.exportToFile c bits initial)) range relative absolute seed = .ok h') :
    h'.particles.length = h.particles.length ↔ h.particles = [] := by
  obtain ⟨h1, e, e2, -, -⟩ := C100_from_file_counterexample c bits value next (h.exportToFile c bits initial) range
    relative absolute seed
  rw [e] at hh; injection hh with hh; subst hh
  rw [e2, List.length_nil, eq_comm, List.length_eq_zero_iff]

/-! ### Visualisation -/

/-- C100: the visualised grid has one point per particle, in order, at its position, with the radius asked for (the radius
of the start if `final`) and its velocity; it has no cells. -/
theorem C100_grid (h : Handler K S) (final : Bool) :
    ∃ g, h.grid final = .ok g ∧ g.points.length = h.particles.length ∧ g.cells = [] ∧
      g.pointDataNames = ["Radius", "Velocity"] ∧
      ∀ i p, h.getParticle i = .ok p → ∃ q, g.points[i.toNat]? = some q ∧
        q.coords = (p.position 0, p.position 1, p.position 2) ∧
        q.data = [[if final then p.radius0 else p.radius], [p.velocity 0, p.velocity 1, p.velocity 2]] := by
  refine ⟨_, grid_spec h final, by simp, rfl, rfl, ?_⟩
  intro i p hp
  refine ⟨pointOf final p, ?_, rfl, rfl⟩
  rw [Handler.getParticle] at hp
  by_cases hi : i < 0
  · rw [if_pos hi] at hp; exact absurd hp (by simp)
  · rw [if_neg hi] at hp
    cases hq : h.particles[i.toNat]? with
    | none => rw [hq] at hp; exact absurd hp (by simp)
    | some q =>
      rw [hq] at hp; simp only [Res.ok.injEq] at hp; subst hp
      simp [hq]

/-- One export of the particles: the handler at that time, the global time, whether the radii of the start are shown. -/
abbrev Export (K S : Type) := Handler K S × K × Bool

/-- Specification: the exports of the time steps 0, 1, 2, … in order; an exception ends the sequence. -/
def exports (print : K → List Char) (vtu : Grid K → List Char) (d : Dir) : Nat → List (Export K S) → Res (Dir × Res Unit)
  | _, [] => .ok (d, .ok ())
  | step, e :: t =>
    (e.1.exportVTU3D print vtu d step e.2.1 e.2.2).bind fun r =>
      match r.2 with
      | .ok _ => exports print vtu r.1 (step + 1) t
      | other => .ok (r.1, other)

/-- Specification: the entry of an export in the collection. -/
def entryOf (print : K → List Char) (name : List Char) (e : Export K S × Nat) : List Char :=
  pvdEntry (print (e.1.2.1 + e.2 * (1 / 10 ^ 10))) (vtuFile name e.2)

theorem exports_from (print : K → List Char) (vtu : Grid K → List Char) (name : List Char) (es : List (Export K S))
    (hname : ∀ e ∈ es, e.1.visualizationFileName = name) (step : Nat) (hs : 0 < step) (d : Dir) (pre : List Char)
    (hd : d (pvdName name) = some (pre ++ pvdFooter)) :
    ∃ d', exports print vtu d step es = .ok (d', .ok ()) ∧
      d' (pvdName name) = some (pre ++ (es.zipIdx step).flatMap (entryOf print name) ++ pvdFooter) ∧
      (∀ f, (∀ k, step ≤ k → f ≠ vtuFile name k) → f ≠ pvdName name → d' f = d f) ∧
      ∀ k e, es[k]? = some e → ∃ g, e.1.grid e.2.2 = .ok g ∧ d' (vtuFile name (step + k)) = some (vtu g) := by
  induction es generalizing step d pre with
  | nil => exact ⟨d, rfl, by simp [hd], fun _ _ _ => rfl, fun k e h => by simp at h⟩
  | cons e t ih =>
    have hn := hname e List.mem_cons_self
    have hgrid := grid_spec e.1 e.2.2
    generalize hG : (⟨e.1.particles.map (pointOf e.2.2), [], ["Radius", "Velocity"], []⟩ : Grid K) = G at hgrid
    have hstep : e.1.exportVTU3D print vtu d step e.2.1 e.2.2 =
        .ok ((d.set (vtuFile name step) (vtu G)).set (pvdName name)
          (pre ++ entryOf print name (e, step) ++ pvdFooter), .ok ()) := by
      have hold : (d.set (vtuFile name step) (vtu G)) (pvdName name) = some (pre ++ pvdFooter) := by
        rw [Dir.set, if_neg (vtuFile_ne_pvd _ _ _).symm, hd]
      have := addToPvdFile_some pre (print (e.2.1 + step * (1 / 10 ^ 10))) (vtuFile name step)
      rw [addToPvdFile] at this
      simp only [Handler.exportVTU3D, hgrid, Res.bind_ok', hn, hold]
      rw [if_neg (by omega), this]
      rfl
    obtain ⟨d', h1, h2, h3, h4⟩ := ih (fun x hx => hname x (List.mem_cons_of_mem _ hx)) (step + 1) (by omega)
      ((d.set (vtuFile name step) (vtu G)).set (pvdName name) (pre ++ entryOf print name (e, step) ++ pvdFooter))
      (pre ++ entryOf print name (e, step)) (by rw [Dir.set, if_pos rfl])
    refine ⟨d', ?_, ?_, ?_, ?_⟩
    · rw [exports, hstep, Res.bind_ok']; exact h1
    · rw [h2]; simp [List.zipIdx_cons]
    · intro f hf hp
      rw [h3 f (fun k hk => hf k (by omega)) hp, Dir.set, if_neg hp, Dir.set, if_neg (hf step le_rfl)]
    · intro k x hx
      cases k with
      | zero =>
        simp only [List.getElem?_cons_zero, Option.some.injEq] at hx
        subst hx
        refine ⟨G, hgrid, ?_⟩
        rw [Nat.add_zero, h3 _ (fun k hk heq => ?_) (vtuFile_ne_pvd _ _ _), Dir.set, if_neg (vtuFile_ne_pvd _ _ _),
          Dir.set, if_pos rfl]
        exact absurd (vtuName_inj _ _ _ heq) (by omega)
      | succ k =>
        rw [List.getElem?_cons_succ] at hx
        obtain ⟨g, hg, hd'⟩ := h4 k x hx
        exact ⟨g, hg, by rw [show step + (k + 1) = step + 1 + k by omega]; exact hd'⟩

/-- C100: exporting the time steps 0, 1, 2, … of particles into any directory succeeds; afterwards the collection has one
entry per step, in order, and nothing else, the file of every step shows the particles of that step, and all other files
are as before. -/
theorem C100_exports (print : K → List Char) (vtu : Grid K → List Char) (name : List Char) (es : List (Export K S))
    (hne : es ≠ []) (hname : ∀ e ∈ es, e.1.visualizationFileName = name) (d : Dir) :
    ∃ d', exports print vtu d 0 es = .ok (d', .ok ()) ∧
      d' (pvdName name) = some (pvdHeader ++ es.zipIdx.flatMap (entryOf print name) ++ pvdFooter) ∧
      (∀ f, (∀ k, f ≠ vtuFile name k) → f ≠ pvdName name → d' f = d f) ∧
      ∀ k e, es[k]? = some e → ∃ g, e.1.grid e.2.2 = .ok g ∧ d' (vtuFile name k) = some (vtu g) := by
  cases es with
  | nil => exact absurd rfl hne
  | cons e t =>
    have hn := hname e List.mem_cons_self
    have hgrid := grid_spec e.1 e.2.2
    generalize hG : (⟨e.1.particles.map (pointOf e.2.2), [], ["Radius", "Velocity"], []⟩ : Grid K) = G at hgrid
    have hstep : e.1.exportVTU3D print vtu d 0 e.2.1 e.2.2 =
        .ok ((d.set (vtuFile name 0) (vtu G)).set (pvdName name)
          (pvdHeader ++ entryOf print name (e, 0) ++ pvdFooter), .ok ()) := by
      simp only [Handler.exportVTU3D, hgrid, Res.bind_ok', hn, if_true]
      rw [List.append_assoc]; rfl
    obtain ⟨d', h1, h2, h3, h4⟩ := exports_from print vtu name t (fun x hx => hname x (List.mem_cons_of_mem _ hx)) 1
      (by omega) ((d.set (vtuFile name 0) (vtu G)).set (pvdName name)
          (pvdHeader ++ entryOf print name (e, 0) ++ pvdFooter))
      (pvdHeader ++ entryOf print name (e, 0)) (by rw [Dir.set, if_pos rfl])
    refine ⟨d', ?_, ?_, ?_, ?_⟩
    · rw [exports, hstep, Res.bind_ok']; exact h1
    · rw [h2]; simp [List.zipIdx_cons]
    · intro f hf hp
      rw [h3 f (fun k _ => hf k) hp, Dir.set, if_neg hp, Dir.set, if_neg (hf 0)]
    · intro k x hx
      cases k with
      | zero =>
        simp only [List.getElem?_cons_zero, Option.some.injEq] at hx
        subst hx
        refine ⟨G, hgrid, ?_⟩
        rw [h3 _ (fun k hk heq => ?_) (vtuFile_ne_pvd _ _ _), Dir.set, if_neg (vtuFile_ne_pvd _ _ _),
          Dir.set, if_pos rfl]
        exact absurd (vtuName_inj _ _ _ heq) (by omega)
      | succ k =>
        rw [List.getElem?_cons_succ] at hx
        obtain ⟨g, hg, hd'⟩ := h4 k x hx
        exact ⟨g, hg, by rw [show k + 1 = 1 + k by omega]; exact hd'⟩

/-- C100: an export of a later step into a directory without a collection raises, after the file of the step was written. -/
theorem C100_first_step (print : K → List Char) (vtu : Grid K → List Char) (h : Handler K S) (d : Dir) (step : Nat)
    (hs : 0 < step) (hd : d (pvdName h.visualizationFileName) = none) (time : K) (final : Bool) :
    ∃ d', h.exportVTU3D print vtu d step time final = .ok (d', .throw) ∧
      d' (pvdName h.visualizationFileName) = none ∧ ∃ g, h.grid final = .ok g ∧
      d' (vtuFile h.visualizationFileName step) = some (vtu g) := by
  have hold : ∀ g, (d.set (vtuFile h.visualizationFileName step) (vtu g)) (pvdName h.visualizationFileName) = none := by
    intro g
    rw [Dir.set, if_neg (vtuFile_ne_pvd _ _ _).symm, hd]
  refine ⟨d.set (vtuFile h.visualizationFileName step)
    (vtu ⟨h.particles.map (pointOf final), [], ["Radius", "Velocity"], []⟩), ?_, hold _, _, grid_spec h final, ?_⟩
  · simp only [Handler.exportVTU3D, grid_spec, Res.bind_ok', hold]
    rw [if_neg (by omega)]
  · rw [Dir.set, if_pos rfl]

/-! ### Concrete cases -/

/-- two spheres -/
def twoSpheres : Mat ℚ := ⟨2, 4, fun i j => (i : ℚ) * 10 + j + 1⟩

/-- a constant engine -/
def constantEngine : Unit → ℚ × Unit := fun s => (1 / 2, s)

example : UnitInterval constantEngine := fun _ => by unfold constantEngine; norm_num
example : 4 ≤ twoSpheres.cols ∧ (0 : ℚ) ≤ 1 ∧ (1 : Nat) < twoSpheres.rows := by decide
example : ∃ h, fromMatrix constantEngine twoSpheres 1 (1 / 10) 0 () = .ok h :=
  let ⟨h, e, _⟩ := C100_from_matrix constantEngine (fun _ => by unfold constantEngine; norm_num) twoSpheres 1 (1 / 10) 0 ()
    (by decide) (by norm_num)
  ⟨h, e⟩
example : (Mat.mk 3 2 fun _ j => (j : ℚ)).rows = 3 ∧ ∀ k < 3, (Mat.mk 3 2 fun _ j => (j : ℚ)).entry k 0 ≤
    (Mat.mk 3 2 fun _ j => (j : ℚ)).entry k 1 := ⟨rfl, fun k _ => by norm_num⟩
theorem decimalCodec_lawful : decimalCodec.Lawful fun _ _ => True := by
  have hd : ∀ n : Nat, '\n' ∉ Nat.toDigits 10 n := by
    intro n h
    have := Nat.isDigit_of_mem_toDigits (by decide) (by decide) h
    exact absurd this (by decide)
  have hp : ∀ n : Nat, Res.ok (Nat.ofDigitChars 10 (Nat.toDigits 10 n) 0) = .ok n := fun n => by
    rw [Nat.ofDigitChars_toDigits (by decide) (by decide)]
  exact ⟨fun _ v _ => ⟨hd v, hp v⟩, fun _ v _ => ⟨hd v, hp v⟩, fun t => by cases t <;> decide⟩

/-- an export of one particle meets the hypotheses of the theorems about files -/
example : ∃ (h : Handler ℚ Unit) (bits : ℚ → Nat) (value : Nat → ℚ), h.particles ≠ [] ∧ (∀ x, value (bits x) = x) ∧
    decimalCodec.Lawful (fun _ _ => True) :=
  ⟨⟨[Particle.make ![1, 2, 3] ![0, 0, 0] 4 0 100000], "spheres".toList, ()⟩, Encodable.encode,
    fun n => (Encodable.decode n).getD 0, by simp, by simp, decimalCodec_lawful⟩

end NuTo.Particles
