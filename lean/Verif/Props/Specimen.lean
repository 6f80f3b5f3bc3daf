/-
C89: specimens and their volumes.  C90: the memory of GeometryConcrete and its grading curves.
-/
import Verif.Model.Specimen
import Verif.Lemmas.MatrixAssembler
import Mathlib.MeasureTheory.Measure.Lebesgue.VolumeOfBalls

namespace NuTo.Specimens

open MeasureTheory

/-! ### C89 -/

/-- The points of a box. -/
def boxSet (b : Bounds) : Set (Fin 3 → ℝ) := {x | ∀ i : Fin 3, b.entry i 0 ≤ x i ∧ x i ≤ b.entry i 1}

/-- The points of an upright cylinder between the heights `z0` and `z1` around `c`. -/
def cylinderSet (c : EuclideanSpace ℝ (Fin 2)) (r z0 z1 : ℝ) : Set (EuclideanSpace ℝ (Fin 2) × ℝ) :=
  Metric.ball c r ×ˢ Set.Icc z0 z1

open Classical in
theorem make_eq {b : Bounds} (hr : b.rows = 3) (hc : b.cols = 2) (t : SpecimenType) :
    Specimen.make b t = if ∀ i < 3, b.entry i 0 < b.entry i 1 then
      .ok ⟨b, fun i => b.entry i 1 - b.entry i 0, t⟩ else .throw := by
  rw [Specimen.make, if_neg (by simp [hr]), calculateLength]
  have hall : (∀ i < 3, b.entry i 0 < b.entry i 1) ↔
      b.entry 0 0 < b.entry 0 1 ∧ b.entry 1 0 < b.entry 1 1 ∧ b.entry 2 0 < b.entry 2 1 := by
    constructor
    · intro h
      exact ⟨h 0 (by norm_num), h 1 (by norm_num), h 2 (by norm_num)⟩
    · rintro ⟨h0, h1, h2⟩ i hi
      interval_cases i <;> assumption
  simp only [hall, checkLengths, hr, hc, sub_nonpos]
  by_cases h0 : b.entry 0 0 < b.entry 0 1
  · by_cases h1 : b.entry 1 0 < b.entry 1 1
    · by_cases h2 : b.entry 2 0 < b.entry 2 1
      · simp [h0, h1, h2, not_le.2 h0, not_le.2 h1, not_le.2 h2]
      · simp [h0, h1, not_lt.1 h2, h2, not_le.2 h0, not_le.2 h1]
    · simp [h0, h1, not_lt.1 h1, not_le.2 h0]
  · simp [h0, not_lt.1 h0]

/-- C89: a 3x2 bounding box is accepted exactly if its extent is positive in all three directions; otherwise the
constructor throws.  The lengths are the extents, and a copy is the same specimen. -/
theorem C89_accepted (b : Bounds) (hr : b.rows = 3) (hc : b.cols = 2) (t : SpecimenType) :
    ((∀ i < 3, b.entry i 0 < b.entry i 1) → ∃ s, Specimen.make b t = .ok s ∧ s.boundingBox = b ∧ s.type = t ∧
      (∀ i < 3, s.length i = b.entry i 1 - b.entry i 0) ∧ s.copy = .ok s) ∧
    (¬ (∀ i < 3, b.entry i 0 < b.entry i 1) → Specimen.make b t = .throw) := by
  have h := make_eq hr hc t
  constructor
  · intro hp
    rw [if_pos hp] at h
    refine ⟨_, h, rfl, rfl, fun _ _ => rfl, ?_⟩
    rw [Specimen.make, if_neg (by simp [hr])] at h
    exact h
  · intro hp
    rwa [if_neg hp] at h

/-- C89: bounding boxes with a wrong number of rows and a wrong number of columns are refused. -/
theorem C89_refused_partial (b : Bounds) (hr : b.rows ≠ 3) (hc : b.cols ≠ 2) (t : SpecimenType) :
    Specimen.make b t = .throw := by
  rw [Specimen.make, if_pos ⟨hr, hc⟩]

/-- C89 is false in general: `&&` in `CheckBoundingBox` lets a 3x1 matrix and a 2x2 matrix of positive extent pass, and the
next lines read outside of them. -/
theorem C89_dimension_counterexample (t : SpecimenType) (entry : Nat → Nat → ℝ) :
    Specimen.make ⟨3, 1, entry⟩ t = .ub ∧
    ((∀ i < 2, entry i 0 < entry i 1) → Specimen.make ⟨2, 2, entry⟩ t = .ub) := by
  constructor
  · simp [Specimen.make, calculateLength, checkLengths]
  · intro h
    have h0 := h 0 (by norm_num)
    have h1 := h 1 (by norm_num)
    simp [Specimen.make, calculateLength, checkLengths, not_le.2 h0, not_le.2 h1]

theorem boxSet_eq (b : Bounds) : boxSet b = Set.Icc (fun i : Fin 3 => b.entry i 0) (fun i : Fin 3 => b.entry i 1) := by
  ext x
  simp only [boxSet, Set.mem_ofPred_eq, Set.mem_Icc, Pi.le_def]
  exact forall_and

/-- C89: the volume of a box specimen is the volume of the set of its points; it is refused below 1e-14. -/
theorem C89_box_volume (b : Bounds) (hr : b.rows = 3) (hc : b.cols = 2) (s : Specimen)
    (h : Specimen.make b .box = .ok s) :
    (1 / 10 ^ 14 ≤ (volume (boxSet b)).toReal → s.getVolume = .ok (volume (boxSet b)).toReal) ∧
    ((volume (boxSet b)).toReal < 1 / 10 ^ 14 → s.getVolume = .throw) := by
  rw [make_eq hr hc] at h
  split_ifs at h with hp
  obtain rfl := Res.ok.inj h
  have hv : (volume (boxSet b)).toReal = (b.entry 0 1 - b.entry 0 0) * (b.entry 1 1 - b.entry 1 0) *
      (b.entry 2 1 - b.entry 2 0) := by
    rw [boxSet_eq, Real.volume_Icc_pi_toReal, Fin.prod_univ_three]
    · rfl
    · intro i
      exact (hp i i.2).le
  rw [hv]
  constructor
  · intro hle
    simp only [Specimen.getVolume, Specimen.rawVolume, Res.bind_ok']
    rw [if_neg (by simp), if_neg (not_lt.2 hle)]
  · intro hlt
    simp only [Specimen.getVolume, Specimen.rawVolume, Res.bind_ok']
    rw [if_neg (by simp), if_pos hlt]

/-- C89: the volume of a cylinder specimen with round section of diameter at least 1e-10 is the volume of the set of its
points; it is refused below 1e-14. -/
theorem C89_cylinder_volume (b : Bounds) (hr : b.rows = 3) (hc : b.cols = 2) (s : Specimen)
    (h : Specimen.make b .cylinder = .ok s) (hround : b.entry 0 1 - b.entry 0 0 = b.entry 1 1 - b.entry 1 0)
    (hD : 1 / 10 ^ 10 ≤ b.entry 0 1 - b.entry 0 0) (c : EuclideanSpace ℝ (Fin 2)) (V : ℝ)
    (hV : V = (volume (cylinderSet c ((b.entry 0 1 - b.entry 0 0) / 2) (b.entry 2 0) (b.entry 2 1))).toReal) :
    (1 / 10 ^ 14 ≤ V → s.getVolume = .ok V) ∧ (V < 1 / 10 ^ 14 → s.getVolume = .throw) := by
  rw [make_eq hr hc] at h
  split_ifs at h with hp
  obtain rfl := Res.ok.inj h
  have hpos : 0 ≤ (b.entry 0 1 - b.entry 0 0) / 2 := by
    have := hp 0 (by norm_num)
    linarith
  have hz := hp 2 (by norm_num)
  have hv : V = Real.pi * (1 / 4) * (b.entry 0 1 - b.entry 0 0) * (b.entry 0 1 - b.entry 0 0) *
      (b.entry 2 1 - b.entry 2 0) := by
    rw [hV, cylinderSet, Measure.volume_eq_prod, Measure.prod_prod, EuclideanSpace.volume_ball_fin_two, Real.volume_Icc,
      ENNReal.toReal_mul, ENNReal.toReal_mul, ENNReal.toReal_pow, ENNReal.toReal_ofReal hpos,
      ENNReal.toReal_ofReal (by linarith : (0 : ℝ) ≤ b.entry 2 1 - b.entry 2 0)]
    have hpi : (ENNReal.ofReal Real.pi).toReal = Real.pi := ENNReal.toReal_ofReal Real.pi_pos.le
    rw [hpi]
    ring
  have hraw : (⟨b, fun i => b.entry i 1 - b.entry i 0, .cylinder⟩ : Specimen).rawVolume = .ok V := by
    simp only [Specimen.rawVolume]
    rw [if_neg (by rw [hround]; norm_num), if_neg (not_lt.2 hD), hv]
  constructor
  · intro hle
    rw [Specimen.getVolume, if_neg (by simp), hraw, Res.bind_ok', if_neg (not_lt.2 hle)]
  · intro hlt
    rw [Specimen.getVolume, if_neg (by simp), hraw, Res.bind_ok', if_pos hlt]

/-- C89: cylinders with a section that is not round (more than 1e-10) have no volume. -/
theorem C89_oval_cylinder (b : Bounds) (hr : b.rows = 3) (hc : b.cols = 2) (s : Specimen)
    (h : Specimen.make b .cylinder = .ok s)
    (hround : 1 / 10 ^ 10 < |(b.entry 0 1 - b.entry 0 0) - (b.entry 1 1 - b.entry 1 0)|) : s.getVolume = .throw := by
  rw [make_eq hr hc] at h
  split_ifs at h with hp
  obtain rfl := Res.ok.inj h
  rw [Specimen.getVolume, if_neg (by simp)]
  simp only [Specimen.rawVolume]
  rw [if_pos hround]
  rfl

/-- The bounding box `[0, a]³`. -/
def cube (a : ℝ) : Bounds := ⟨3, 2, fun _ j => if j = 0 then 0 else a⟩

/-- C89 is false in general: a small cube is accepted, but its volume is "negative". -/
theorem C89_small_counterexample : ∃ s, Specimen.make (cube (1 / 10 ^ 5)) .box = .ok s ∧
    0 < (volume (boxSet s.boundingBox)).toReal ∧ s.getVolume = .throw := by
  obtain ⟨s, h1, h2, -⟩ := (C89_accepted (cube (1 / 10 ^ 5)) rfl rfl .box).1 (by intro i _; norm_num [cube])
  have hv : (volume (boxSet (cube (1 / 10 ^ 5)))).toReal = 1 / 10 ^ 15 := by
    rw [boxSet_eq, Real.volume_Icc_pi_toReal, Fin.prod_univ_three]
    · norm_num [cube]
    · intro i
      norm_num [cube]
  refine ⟨s, h1, by rw [h2, hv]; norm_num, (C89_box_volume _ rfl rfl s h1).2 (by rw [hv]; norm_num)⟩

/-- C89 is false in general: a dog bone specimen is accepted, but its volume never is calculated. -/
theorem C89_dogbone_counterexample (b : Bounds) (s : Specimen) (h : Specimen.make b .dogbone = .ok s) :
    s.getVolume = .throw := by
  have ht : s.type = .dogbone := by
    rw [Specimen.make, calculateLength] at h
    split_ifs at h
    cases hc : checkLengths b 3 0 <;> rw [hc] at h <;> simp at h
    rw [← h]
  rw [Specimen.getVolume, ht]
  rfl

/-- A dog bone specimen that is accepted. -/
example : ∃ s, Specimen.make (cube 1) .dogbone = .ok s := by
  obtain ⟨s, h1, -⟩ := (C89_accepted (cube 1) rfl rfl .dogbone).1 (by intro i _; norm_num [cube])
  exact ⟨s, h1⟩

/-- Bounding boxes that meet the hypotheses of `C89_box_volume` and `C89_cylinder_volume`. -/
example : ∃ s, Specimen.make (cube 1) .cylinder = .ok s ∧
    (cube 1).entry 0 1 - (cube 1).entry 0 0 = (cube 1).entry 1 1 - (cube 1).entry 1 0 ∧
    1 / 10 ^ 10 ≤ (cube 1).entry 0 1 - (cube 1).entry 0 0 := by
  obtain ⟨s, h1, -⟩ := (C89_accepted (cube 1) rfl rfl .cylinder).1 (by intro i _; norm_num [cube])
  exact ⟨s, h1, rfl, by norm_num [cube]⟩

/-! ### C90 -/

/-- The volume fractions of a list of classes. -/
noncomputable def fraction (l : List TakePhase.GradingClass) : ℝ := (l.map fun c => c.volumeFrac).sum

/-- C90: the built-in grading curves.  One to six classes are returned, from large to small, without gaps between them,
and they are accepted by the creation of particles; other numbers throw. -/
theorem C90_grading (g : Grading) (n : ℤ) :
    ((n < 1 ∨ 6 < n) → setGradingCurve g n = .throw) ∧
    (1 ≤ n → n ≤ 6 → ∃ l, setGradingCurve g n = .ok l ∧ (l.length : ℤ) = n ∧ fraction l ≤ 1 ∧
      (∀ c ∈ l, 0 < c.dMin ∧ c.dMax = 2 * c.dMin ∧ 0 ≤ c.volumeFrac) ∧
      List.IsChain (fun c d => d.dMax = c.dMin) l ∧ (∃ c, l.head? = some c ∧ c.dMax = 16) ∧
      TakePhase.checkGradingCurve l = .ok ()) := by
  constructor
  · intro h
    rw [setGradingCurve, if_pos h]
  · intro h1 h6
    lift n to ℕ using by omega
    refine ⟨(fullGradingCurve g).take n, by rw [setGradingCurve, if_neg (by omega), Int.toNat_natCast], ?_⟩
    have h1 : 1 ≤ n := by omega
    have h6 : n ≤ 6 := by omega
    interval_cases n <;> cases g <;>
      norm_num [fullGradingCurve, TakePhase.checkGradingCurve, fraction]

/-- Positive extent in all directions. -/
def Extended (lower upper : Fin 3 → ℝ) : Prop := ∀ i, lower i < upper i

/-- Calls that set a specimen. -/
def Call.SetsSpecimen : Call → Prop
  | .setSpecimenBox l u => Extended l u
  | .setSpecimenCylinder l u => Extended l u
  | _ => False

theorem make_bounds (l u : Fin 3 → ℝ) (t : SpecimenType) :
    (Extended l u → ∃ s, Specimen.make (boundsOf l u) t = .ok s) ∧
    (¬ Extended l u → Specimen.make (boundsOf l u) t = .throw) := by
  have h := C89_accepted (boundsOf l u) rfl rfl t
  have he : (∀ i < 3, (boundsOf l u).entry i 0 < (boundsOf l u).entry i 1) ↔ Extended l u := by
    constructor
    · intro h i
      have := h i i.2
      simpa [boundsOf] using this
    · intro h i hi
      simpa [boundsOf, hi] using h ⟨i, hi⟩
  rw [he] at h
  exact ⟨fun hp => let ⟨s, hs, _⟩ := h.1 hp; ⟨s, hs⟩, h.2⟩

/-- Everything the object points to lives. -/
structure Alive (w : World) : Prop where
  specimen : ∀ p, w.geo.specimen = some p → p ∈ w.heap.specimens
  handler : ∀ p, w.geo.handler = some p → p ∈ w.heap.handlers
  old : ∀ p ∈ w.heap.handlers, p < w.heap.next

/-- The world after a specimen has been made. -/
def withSpecimen (w : World) : World :=
  ⟨{ w.geo with specimen := some w.heap.next },
    ⟨w.heap.next :: w.heap.specimens, w.heap.handlers, w.heap.next + 1⟩⟩

theorem newSpecimen_spec (w : World) (l u : Fin 3 → ℝ) (t : SpecimenType) :
    (Extended l u → w.newSpecimen l u t = .ok (withSpecimen w, false)) ∧
    (¬ Extended l u → w.newSpecimen l u t = .ok (w, true)) := by
  obtain ⟨h1, h2⟩ := make_bounds l u t
  constructor
  · intro h
    obtain ⟨s, hs⟩ := h1 h
    simp only [World.newSpecimen, hs]
    rfl
  · intro h
    simp only [World.newSpecimen, h2 h]

theorem newHandler_alive {w : World} (h : Alive w) : Alive w.newHandler := by
  refine ⟨h.specimen, ?_, ?_⟩
  · intro p hp
    simp only [World.newHandler, Option.some.injEq] at hp
    simp [World.newHandler, hp]
  · intro p hp
    simp only [World.newHandler, List.mem_cons] at hp ⊢
    rcases hp with rfl | hp
    · omega
    · have := h.old p hp
      omega

theorem replaceHandler_spec {w : World} (h : Alive w) (p : Nat) (hp : w.geo.handler = some p) :
    ∃ w', w.replaceHandler = .ok w' ∧ Alive w' ∧ w'.geo = { w.geo with handler := some w.heap.next } ∧
      w'.heap.specimens = w.heap.specimens ∧ w'.heap.handlers = (w.heap.next :: w.heap.handlers).erase p := by
  have hm := h.handler p hp
  have hlt := h.old p hm
  have hmem : p ∈ w.newHandler.heap.handlers := by simp [World.newHandler, hm]
  refine ⟨⟨w.newHandler.geo, ⟨w.heap.specimens, (w.heap.next :: w.heap.handlers).erase p, w.heap.next + 1⟩⟩, ?_, ?_,
    rfl, rfl, rfl⟩
  · rw [World.replaceHandler, hp, useHandler, if_pos hm, Res.bind_ok']
    simp only [World.deleteHandler]
    rw [if_pos hmem]
    rfl
  · refine ⟨h.specimen, ?_, ?_⟩
    · intro q hq
      have hq : w.heap.next = q := Option.some.inj hq
      subst hq
      have : w.heap.next ≠ p := by omega
      simp [this]
    · intro q hq
      have hq := List.mem_of_mem_erase hq
      simp only [List.mem_cons] at hq
      rcases hq with rfl | hq
      · exact Nat.lt_succ_self _
      · exact Nat.lt_succ_of_lt (h.old q hq)

theorem withSpecimen_alive {w : World} (h : Alive w) : Alive (withSpecimen w) := by
  refine ⟨?_, h.handler, fun p hp => Nat.lt_succ_of_lt (h.old p hp)⟩
  intro p hp
  have hp : w.heap.next = p := Option.some.inj hp
  simp [withSpecimen, hp]

/-- What a simulation leaves behind. -/
theorem maximize_spec {w : World} (h : Alive w) (rate : ℝ) (o : SimOutcome) (finish : World → Res World)
    (hf : ∀ v, Alive v → v.geo.handler ≠ none → ∃ v', finish v = .ok v' ∧ Alive v' ∧ v'.geo.specimen = v.geo.specimen ∧
      v'.geo.handler ≠ none) :
    ∃ r, w.maximize rate o finish = .ok r ∧ Alive r.1 ∧ r.1.geo.specimen = w.geo.specimen ∧
      (r.1.geo.handler ≠ none → w.geo.handler ≠ none ∨ w.geo.specimen ≠ none) := by
  rw [World.maximize]
  by_cases h1 : w.geo.specimen = none ∨ w.geo.curve = 0
  · exact ⟨(w, true), by rw [if_pos h1], h, rfl, Or.inl⟩
  rw [if_neg h1]
  by_cases h2 : rate ≤ 0
  · exact ⟨(w, true), by rw [if_pos h2], h, rfl, Or.inl⟩
  rw [if_neg h2]
  push Not at h1
  obtain ⟨p, hp⟩ := Option.ne_none_iff_exists'.1 h1.1
  have hm := h.specimen p hp
  have hs : w.geo.specimen ≠ none := h1.1
  rw [hp, useSpecimen, if_pos hm, Res.bind_ok']
  by_cases h3 : o = .placeThrows
  · exact ⟨(w, true), by rw [if_pos h3], h, hp, Or.inl⟩
  rw [if_neg h3]
  have hn := newHandler_alive h
  have hsp : w.newHandler.geo.specimen = some p := hp
  by_cases h4 : o = .boxesThrow
  · exact ⟨(w.newHandler, true), by rw [if_pos h4], hn, hp, fun _ => Or.inr (by simp)⟩
  simp only [if_neg h4]
  by_cases h5 : o = .simulateThrows ∧ ¬ w.newHandler.geo.continueOnException
  · exact ⟨(w.newHandler, true), by rw [if_pos h5], hn, hp, fun _ => Or.inr (by simp)⟩
  rw [if_neg h5, hsp, useSpecimen, if_pos (show p ∈ w.newHandler.heap.specimens from hm), Res.bind_ok']
  obtain ⟨v, hv1, hv2, hv3, -⟩ := hf w.newHandler hn (by simp [World.newHandler])
  refine ⟨(v, false), by rw [hv1]; rfl, hv2, hv3.trans hsp, fun _ => Or.inr (by simp)⟩

/-- A call keeps everything alive unless it is `SetSpecimenBox` without extent on an object that has a specimen, or an
export without specimen. -/
theorem call_spec {w : World} (h : Alive w) (c : Call)
    (hbox : ∀ l u, c = .setSpecimenBox l u → Extended l u ∨ w.geo.specimen = none)
    (hexp : c = .exportGmshGeo → w.geo.handler = none ∨ w.geo.specimen ≠ none) :
    ∃ r, w.call c = .ok r ∧ Alive r.1 ∧ (r.1.geo.handler ≠ none → w.geo.handler ≠ none ∨ w.geo.specimen ≠ none ∨
      c = .setParticles) ∧ (w.geo.specimen ≠ none ∨ c.SetsSpecimen → r.1.geo.specimen ≠ none) ∧
      (r.1.geo.specimen ≠ none → w.geo.specimen ≠ none ∨ c.SetsSpecimen) := by
  cases c with
  | setSpecimenBox l u =>
    rcases hsp : w.geo.specimen with _ | p
    · by_cases he : Extended l u
      · refine ⟨(withSpecimen w, false), ?_, withSpecimen_alive h, fun hh => Or.inl hh, fun _ => by simp [withSpecimen],
          fun _ => Or.inr he⟩
        simp only [World.call, hsp, (newSpecimen_spec w l u .box).1 he]
      · refine ⟨(w, true), ?_, h, fun hh => Or.inl hh, ?_, fun hh => absurd hsp hh⟩
        · simp only [World.call, hsp, (newSpecimen_spec w l u .box).2 he]
        · rintro (hh | hh)
          · exact absurd rfl hh
          · exact absurd hh he
    · have he : Extended l u := by
        rcases hbox l u rfl with he | hn
        · exact he
        · rw [hsp] at hn; cases hn
      have hm := h.specimen p hsp
      have hd : w.deleteSpecimen p = .ok ⟨w.geo, ⟨w.heap.specimens.erase p, w.heap.handlers, w.heap.next⟩⟩ := by
        rw [World.deleteSpecimen, if_pos hm]
      refine ⟨(withSpecimen ⟨w.geo, ⟨w.heap.specimens.erase p, w.heap.handlers, w.heap.next⟩⟩, false), ?_, ?_,
        fun hh => Or.inl hh, fun _ => by simp [withSpecimen], fun _ => Or.inl (by simp)⟩
      · simp only [World.call, hsp, hd, Res.bind_ok', (newSpecimen_spec _ l u .box).1 he]
      · refine ⟨?_, h.handler, fun q hq => Nat.lt_succ_of_lt (h.old q hq)⟩
        intro q hq
        have hq : w.heap.next = q := Option.some.inj hq
        simp [withSpecimen, hq]
  | setSpecimenCylinder l u =>
    by_cases he : Extended l u
    · refine ⟨(withSpecimen w, false), ?_, withSpecimen_alive h, fun hh => Or.inl hh, fun _ => by simp [withSpecimen],
          fun _ => Or.inr he⟩
      simp only [World.call, (newSpecimen_spec w l u .cylinder).1 he]
    · refine ⟨(w, true), ?_, h, fun hh => Or.inl hh, ?_, fun hh => Or.inl hh⟩
      · simp only [World.call, (newSpecimen_spec w l u .cylinder).2 he]
      · rintro (hh | hh)
        · exact hh
        · exact absurd hh he
  | setGradingCurve n =>
    exact ⟨_, rfl, ⟨h.specimen, h.handler, h.old⟩, fun hh => Or.inl hh, fun hh => hh.resolve_right id, fun hh => Or.inl hh⟩
  | setAbsoluteGrowthRate n =>
    exact ⟨_, rfl, ⟨h.specimen, h.handler, h.old⟩, fun hh => Or.inl hh, fun hh => hh.resolve_right id, fun hh => Or.inl hh⟩
  | setRelativeGrowthRate n =>
    exact ⟨_, rfl, ⟨h.specimen, h.handler, h.old⟩, fun hh => Or.inl hh, fun hh => hh.resolve_right id, fun hh => Or.inl hh⟩
  | setContinueOnException n =>
    exact ⟨_, rfl, ⟨h.specimen, h.handler, h.old⟩, fun hh => Or.inl hh, fun hh => hh.resolve_right id, fun hh => Or.inl hh⟩
  | setParticles =>
    exact ⟨_, rfl, newHandler_alive h, fun _ => Or.inr (Or.inr rfl), fun hh => hh.resolve_right id, fun hh => Or.inl hh⟩
  | getParticles =>
    rcases hh : w.geo.handler with _ | p
    · exact ⟨(w, true), by simp only [World.call, hh], h, fun h' => absurd hh h', fun hh => hh.resolve_right id, fun hh => Or.inl hh⟩
    · exact ⟨(w, false), by simp only [World.call, hh, useHandler, if_pos (h.handler p hh), Res.bind_ok'], h,
        fun h' => Or.inl (by simp), fun hh => hh.resolve_right id, fun hh => Or.inl hh⟩
  | maximizeParticleDistance o =>
    obtain ⟨r, h1, h2, h3, h4⟩ := maximize_spec h w.geo.absoluteGrowthRate o World.replaceHandler (by
      intro v hv hn
      obtain ⟨p, hp⟩ := Option.ne_none_iff_exists'.1 hn
      obtain ⟨v', a, b, c, -⟩ := replaceHandler_spec hv p hp
      exact ⟨v', a, b, by rw [c], by rw [c]; simp⟩)
    exact ⟨r, h1, h2, fun hh => (h4 hh).imp id Or.inl, fun hh => by rw [h3]; exact hh.resolve_right id,
      fun hh => Or.inl (by rw [← h3]; exact hh)⟩
  | maximizeParticleVolumeFraction o =>
    obtain ⟨r, h1, h2, h3, h4⟩ := maximize_spec h w.geo.relativeGrowthRate o .ok
      fun v hv hn => ⟨v, rfl, hv, rfl, hn⟩
    exact ⟨r, h1, h2, fun hh => (h4 hh).imp id Or.inl, fun hh => by rw [h3]; exact hh.resolve_right id,
      fun hh => Or.inl (by rw [← h3]; exact hh)⟩
  | exportGmshGeo =>
    rcases hh : w.geo.handler with _ | p
    · exact ⟨(w, true), by simp only [World.call, hh], h, fun h' => absurd hh h', fun hh => hh.resolve_right id, fun hh => Or.inl hh⟩
    · have hs : w.geo.specimen ≠ none := (hexp rfl).resolve_left (by rw [hh]; simp)
      obtain ⟨q, hq⟩ := Option.ne_none_iff_exists'.1 hs
      refine ⟨(w, false), ?_, h, fun h' => Or.inl (by simp), fun hh => hh.resolve_right id, fun hh => Or.inl hh⟩
      simp only [World.call, hh, hq, useHandler, useSpecimen, if_pos (h.handler p hh), if_pos (h.specimen q hq), Res.bind_ok']

theorem destroy_spec {w : World} (h : Alive w) :
    ∃ n, w.destroy = .ok ⟨(match w.geo.specimen with | some p => w.heap.specimens.erase p | none => w.heap.specimens),
      (match w.geo.handler with | some p => w.heap.handlers.erase p | none => w.heap.handlers), n⟩ := by
  rcases hs : w.geo.specimen with _ | p <;> rcases hh : w.geo.handler with _ | q
  · exact ⟨w.heap.next, by simp [World.destroy, hs, hh]⟩
  · have := h.handler q hh
    exact ⟨w.heap.next, by simp [World.destroy, World.deleteHandler, this, hs, hh]⟩
  · have := h.specimen p hs
    exact ⟨w.heap.next, by simp [World.destroy, World.deleteSpecimen, this, hs, hh]⟩
  · have h1 := h.specimen p hs
    have h2 := h.handler q hh
    exact ⟨w.heap.next, by simp [World.destroy, World.deleteSpecimen, World.deleteHandler, h1, h2, hs, hh]⟩

/-- C90: a new object, any sequence of calls (failing or not) and its destruction use living objects only, if every box
passed to `SetSpecimenBox` has positive extent and exports of particles that were set by `SetParticles` come after the
specimen was set. -/
theorem C90_safe_partial (cs : List Call) (hbox : ∀ l u, Call.setSpecimenBox l u ∈ cs → Extended l u)
    (hexp : ∀ cs1 cs2, cs = cs1 ++ Call.exportGmshGeo :: cs2 → Call.setParticles ∉ cs1 ∨ ∃ c ∈ cs1, c.SetsSpecimen) :
    ∃ h, session cs = .ok h := by
  have key : ∀ (cs2 cs1 : List Call) (w : World), cs = cs1 ++ cs2 → Alive w →
      (w.geo.handler ≠ none → w.geo.specimen ≠ none ∨ Call.setParticles ∈ cs1) →
      ((∃ c ∈ cs1, c.SetsSpecimen) → w.geo.specimen ≠ none) → ∃ w', World.calls cs2 w = .ok w' ∧ Alive w' := by
    intro cs2
    induction cs2 with
    | nil => intro cs1 w _ hw _ _; exact ⟨w, rfl, hw⟩
    | cons c cs2 ih =>
      intro cs1 w hcs hw h1 h2
      obtain ⟨r, e1, e2, e3, e4, e5⟩ := call_spec hw c
        (fun l u hc => Or.inl (hbox l u (by rw [hcs, ← hc]; simp)))
        (fun hc => by
          rcases hexp cs1 cs2 (by rw [hcs, hc]) with hx | hx
          · by_cases hn : w.geo.handler = none
            · exact Or.inl hn
            · exact Or.inr ((h1 hn).resolve_right hx)
          · exact Or.inr (h2 hx))
      obtain ⟨w', g1, g2⟩ := ih (cs1 ++ [c]) r.1 (by rw [hcs]; simp) e2
        (fun hn => by
          rcases e3 hn with q | q | q
          · rcases h1 q with q | q
            · exact Or.inl (e4 (Or.inl q))
            · exact Or.inr (by simp [q])
          · exact Or.inl (e4 (Or.inl q))
          · exact Or.inr (by simp [q]))
        (fun ⟨d, hd, hs⟩ => by
          rcases List.mem_append.1 hd with hd | hd
          · exact e4 (Or.inl (h2 ⟨d, hd, hs⟩))
          · obtain rfl := List.mem_singleton.1 hd
            exact e4 (Or.inr hs))
      exact ⟨w', by rw [World.calls, e1, Res.bind_ok', g1], g2⟩
  obtain ⟨w, h1, h2⟩ := key cs [] {} rfl ⟨by simp, by simp, by simp⟩ (by simp) (by simp)
  obtain ⟨n, hn⟩ := destroy_spec h2
  exact ⟨_, by rw [session, h1, Res.bind_ok', hn]⟩

/-- Calls that make a particle handler. -/
def Call.MakesHandler : Call → Prop
  | .setParticles => True
  | .maximizeParticleDistance _ => True
  | .maximizeParticleVolumeFraction _ => True
  | _ => False

/-- Only what the object points to lives. -/
structure Tidy (w : World) : Prop where
  specimens : w.heap.specimens = w.geo.specimen.toList
  handlers : w.heap.handlers = w.geo.handler.toList

theorem newHandler_tidy {w : World} (h : Tidy w) (hn : w.geo.handler = none) : Tidy w.newHandler := by
  refine ⟨h.specimens, ?_⟩
  have := h.handlers
  rw [hn] at this
  simp [World.newHandler, this]

theorem maximize_tidy {w : World} (hA : Alive w) (h : Tidy w) (hn : w.geo.handler = none) (rate : ℝ) (o : SimOutcome)
    (finish : World → Res World)
    (hf : ∀ v v', Alive v → Tidy v → v.geo.handler ≠ none → finish v = .ok v' → Tidy v') (r : World × Bool)
    (hr : w.maximize rate o finish = .ok r) : Tidy r.1 := by
  rw [World.maximize] at hr
  by_cases h1 : w.geo.specimen = none ∨ w.geo.curve = 0
  · rw [if_pos h1] at hr
    rw [← Res.ok.inj hr]; exact h
  rw [if_neg h1] at hr
  by_cases h2 : rate ≤ 0
  · rw [if_pos h2] at hr
    rw [← Res.ok.inj hr]; exact h
  rw [if_neg h2] at hr
  push Not at h1
  obtain ⟨p, hp⟩ := Option.ne_none_iff_exists'.1 h1.1
  rw [hp, useSpecimen, if_pos (hA.specimen p hp), Res.bind_ok'] at hr
  by_cases h3 : o = .placeThrows
  · rw [if_pos h3] at hr
    rw [← Res.ok.inj hr]; exact h
  have ht := newHandler_tidy h hn
  simp only [if_neg h3] at hr
  by_cases h4 : o = .boxesThrow
  · rw [if_pos h4] at hr
    rw [← Res.ok.inj hr]; exact ht
  rw [if_neg h4] at hr
  by_cases h5 : o = .simulateThrows ∧ ¬ w.newHandler.geo.continueOnException
  · rw [if_pos h5] at hr
    rw [← Res.ok.inj hr]; exact ht
  have hsp : w.newHandler.geo.specimen = some p := hp
  rw [if_neg h5, hsp, useSpecimen, if_pos (show p ∈ w.newHandler.heap.specimens from hA.specimen p hp), Res.bind_ok'] at hr
  rcases hv : finish w.newHandler with v | _ | _
  · rw [hv, Res.bind_ok'] at hr
    rw [← Res.ok.inj hr]
    exact hf _ v (newHandler_alive hA) ht (by simp [World.newHandler]) hv
  · rw [hv] at hr; cases hr
  · rw [hv] at hr; cases hr

theorem call_tidy {w : World} (hA : Alive w) (h : Tidy w) (c : Call)
    (hbox : ∀ l u, c = .setSpecimenBox l u → Extended l u)
    (hcyl : ∀ l u, c = .setSpecimenCylinder l u → w.geo.specimen = none)
    (hmk : c.MakesHandler → w.geo.handler = none) (r : World × Bool) (hr : w.call c = .ok r) : Tidy r.1 := by
  cases c with
  | setSpecimenBox l u =>
    rcases hsp : w.geo.specimen with _ | p
    · have hs := h.specimens
      rw [hsp] at hs
      simp only [World.call, hsp] at hr
      by_cases he : Extended l u
      · rw [(newSpecimen_spec w l u .box).1 he] at hr
        rw [← Res.ok.inj hr]
        exact ⟨by simp [withSpecimen, hs], h.handlers⟩
      · rw [(newSpecimen_spec w l u .box).2 he] at hr
        rw [← Res.ok.inj hr]
        exact h
    · have hs := h.specimens
      rw [hsp] at hs
      simp only [World.call, hsp, World.deleteSpecimen, if_pos (hA.specimen p hsp), Res.bind_ok'] at hr
      rw [(newSpecimen_spec _ l u .box).1 (hbox l u rfl)] at hr
      rw [← Res.ok.inj hr]
      exact ⟨by simp [withSpecimen, hs], h.handlers⟩
  | setSpecimenCylinder l u =>
    have hs := h.specimens
    rw [hcyl l u rfl] at hs
    simp only [World.call] at hr
    by_cases he : Extended l u
    · rw [(newSpecimen_spec w l u .cylinder).1 he] at hr
      rw [← Res.ok.inj hr]
      exact ⟨by simp [withSpecimen, hs], h.handlers⟩
    · rw [(newSpecimen_spec w l u .cylinder).2 he] at hr
      rw [← Res.ok.inj hr]
      exact h
  | setGradingCurve n => rw [← Res.ok.inj hr]; exact ⟨h.specimens, h.handlers⟩
  | setAbsoluteGrowthRate n => rw [← Res.ok.inj hr]; exact ⟨h.specimens, h.handlers⟩
  | setRelativeGrowthRate n => rw [← Res.ok.inj hr]; exact ⟨h.specimens, h.handlers⟩
  | setContinueOnException n => rw [← Res.ok.inj hr]; exact ⟨h.specimens, h.handlers⟩
  | setParticles => rw [← Res.ok.inj hr]; exact newHandler_tidy h (hmk trivial)
  | getParticles =>
    rcases hh : w.geo.handler with _ | p
    · simp only [World.call, hh] at hr
      rw [← Res.ok.inj hr]; exact h
    · simp only [World.call, hh, useHandler, if_pos (hA.handler p hh), Res.bind_ok'] at hr
      rw [← Res.ok.inj hr]; exact h
  | maximizeParticleDistance o =>
    refine maximize_tidy hA h (hmk trivial) _ o World.replaceHandler ?_ r hr
    intro v v' hv ht hn he
    obtain ⟨p, hp⟩ := Option.ne_none_iff_exists'.1 hn
    obtain ⟨v'', a, b, c, d, e⟩ := replaceHandler_spec hv p hp
    rw [he] at a
    obtain rfl := Res.ok.inj a
    refine ⟨by rw [d, c]; exact ht.specimens, ?_⟩
    rw [e, c, ht.handlers, hp]
    have : v.heap.next ≠ p := by
      have := hv.old p (hv.handler p hp)
      omega
    simp [this]
  | maximizeParticleVolumeFraction o =>
    refine maximize_tidy hA h (hmk trivial) _ o .ok ?_ r hr
    intro v v' hv ht hn he
    rw [← Res.ok.inj he]; exact ht
  | exportGmshGeo =>
    rcases hh : w.geo.handler with _ | p
    · simp only [World.call, hh] at hr
      rw [← Res.ok.inj hr]; exact h
    · simp only [World.call, hh] at hr
      rcases hs : w.geo.specimen with _ | q
      · rw [hs] at hr; cases hr
      · rw [hs] at hr
        simp only [useHandler, useSpecimen, if_pos (hA.handler p hh), if_pos (hA.specimen q hs), Res.bind_ok'] at hr
        rw [← Res.ok.inj hr]; exact h

theorem call_handler {w : World} (hA : Alive w) (c : Call) (hc : ¬ c.MakesHandler) (hn : w.geo.handler = none)
    (r : World × Bool) (hr : w.call c = .ok r) : r.1.geo.handler = none := by
  cases c with
  | setSpecimenBox l u =>
    have key : ∀ v : World, v.geo.handler = none → ∀ t r, v.newSpecimen l u t = .ok r → r.1.geo.handler = none := by
      intro v hv t r hr
      by_cases he : Extended l u
      · rw [(newSpecimen_spec v l u t).1 he] at hr
        rw [← Res.ok.inj hr]; exact hv
      · rw [(newSpecimen_spec v l u t).2 he] at hr
        rw [← Res.ok.inj hr]; exact hv
    rcases hsp : w.geo.specimen with _ | p
    · simp only [World.call, hsp] at hr
      exact key w hn _ _ hr
    · simp only [World.call, hsp, World.deleteSpecimen, if_pos (hA.specimen p hsp), Res.bind_ok'] at hr
      exact key _ (by exact hn) _ _ hr
  | setSpecimenCylinder l u =>
    simp only [World.call] at hr
    by_cases he : Extended l u
    · rw [(newSpecimen_spec w l u _).1 he] at hr
      rw [← Res.ok.inj hr]; exact hn
    · rw [(newSpecimen_spec w l u _).2 he] at hr
      rw [← Res.ok.inj hr]; exact hn
  | setGradingCurve n => rw [← Res.ok.inj hr]; exact hn
  | setAbsoluteGrowthRate n => rw [← Res.ok.inj hr]; exact hn
  | setRelativeGrowthRate n => rw [← Res.ok.inj hr]; exact hn
  | setContinueOnException n => rw [← Res.ok.inj hr]; exact hn
  | setParticles => exact absurd trivial hc
  | getParticles =>
    simp only [World.call, hn] at hr
    rw [← Res.ok.inj hr]; exact hn
  | maximizeParticleDistance o => exact absurd trivial hc
  | maximizeParticleVolumeFraction o => exact absurd trivial hc
  | exportGmshGeo =>
    simp only [World.call, hn] at hr
    rw [← Res.ok.inj hr]; exact hn

/-! ### Growth rates -/

/-- The call sets a growth rate. -/
def Call.SetsRate : Call → Prop
  | .setAbsoluteGrowthRate _ | .setRelativeGrowthRate _ => True
  | _ => False

theorem newSpecimen_rates {w : World} {l u : Fin 3 → ℝ} {t : SpecimenType} {r : World × Bool} (h : w.newSpecimen l u t = .ok r) :
    r.1.geo.absoluteGrowthRate = w.geo.absoluteGrowthRate ∧ r.1.geo.relativeGrowthRate = w.geo.relativeGrowthRate := by
  unfold World.newSpecimen at h
  split at h
  · cases h
  · rw [← Res.ok.inj h]; exact ⟨rfl, rfl⟩
  · rw [← Res.ok.inj h]; exact ⟨rfl, rfl⟩

theorem maximize_rates {w : World} {rate : ℝ} {o : SimOutcome} {finish : World → Res World}
    (hf : ∀ v v', finish v = .ok v' → v'.geo.absoluteGrowthRate = v.geo.absoluteGrowthRate ∧
      v'.geo.relativeGrowthRate = v.geo.relativeGrowthRate) {r : World × Bool} (h : w.maximize rate o finish = .ok r) :
    r.1.geo.absoluteGrowthRate = w.geo.absoluteGrowthRate ∧ r.1.geo.relativeGrowthRate = w.geo.relativeGrowthRate := by
  unfold World.maximize at h
  by_cases h1 : w.geo.specimen = none ∨ w.geo.curve = 0
  · rw [if_pos h1] at h
    rw [← Res.ok.inj h]; exact ⟨rfl, rfl⟩
  rw [if_neg h1] at h
  by_cases h2 : rate ≤ 0
  · rw [if_pos h2] at h
    rw [← Res.ok.inj h]; exact ⟨rfl, rfl⟩
  rw [if_neg h2] at h
  obtain ⟨_, _, h⟩ := Res.bind_eq_ok h
  by_cases h3 : o = .placeThrows
  · rw [if_pos h3] at h
    rw [← Res.ok.inj h]; exact ⟨rfl, rfl⟩
  rw [if_neg h3] at h
  simp only at h
  by_cases h4 : o = .boxesThrow
  · rw [if_pos h4] at h
    rw [← Res.ok.inj h]; exact ⟨rfl, rfl⟩
  rw [if_neg h4] at h
  by_cases h5 : o = .simulateThrows ∧ ¬ w.newHandler.geo.continueOnException
  · rw [if_pos h5] at h
    rw [← Res.ok.inj h]; exact ⟨rfl, rfl⟩
  rw [if_neg h5] at h
  obtain ⟨_, _, h⟩ := Res.bind_eq_ok h
  obtain ⟨v, hv, h⟩ := Res.bind_eq_ok h
  rw [← Res.ok.inj h]
  exact hf w.newHandler _ hv

theorem call_rates {w : World} {c : Call} (hc : ¬ c.SetsRate) {r : World × Bool} (h : w.call c = .ok r) :
    r.1.geo.absoluteGrowthRate = w.geo.absoluteGrowthRate ∧ r.1.geo.relativeGrowthRate = w.geo.relativeGrowthRate := by
  have hdel : ∀ (v : World) (p : Nat) (v' : World), v.deleteHandler p = .ok v' →
      v'.geo.absoluteGrowthRate = v.geo.absoluteGrowthRate ∧ v'.geo.relativeGrowthRate = v.geo.relativeGrowthRate := by
    intro v p v' hv
    unfold World.deleteHandler at hv
    split_ifs at hv
    rw [← Res.ok.inj hv]; exact ⟨rfl, rfl⟩
  cases c with
  | setSpecimenBox l u =>
    rcases hsp : w.geo.specimen with _ | p
    · simp only [World.call, hsp] at h
      exact newSpecimen_rates h
    · simp only [World.call, hsp] at h
      obtain ⟨v, hv, h⟩ := Res.bind_eq_ok h
      unfold World.deleteSpecimen at hv
      split_ifs at hv
      have := newSpecimen_rates h
      rw [← Res.ok.inj hv] at this
      exact this
  | setSpecimenCylinder l u => exact newSpecimen_rates h
  | setGradingCurve n => rw [← Res.ok.inj h]; exact ⟨rfl, rfl⟩
  | setAbsoluteGrowthRate n => exact absurd trivial hc
  | setRelativeGrowthRate n => exact absurd trivial hc
  | setContinueOnException n => rw [← Res.ok.inj h]; exact ⟨rfl, rfl⟩
  | setParticles => rw [← Res.ok.inj h]; exact ⟨rfl, rfl⟩
  | getParticles =>
    rcases hh : w.geo.handler with _ | p
    · simp only [World.call, hh] at h
      rw [← Res.ok.inj h]; exact ⟨rfl, rfl⟩
    · simp only [World.call, hh] at h
      obtain ⟨_, _, h⟩ := Res.bind_eq_ok h
      rw [← Res.ok.inj h]; exact ⟨rfl, rfl⟩
  | maximizeParticleDistance o =>
    refine maximize_rates (fun v v' hv => ?_) h
    unfold World.replaceHandler at hv
    obtain ⟨_, _, hv⟩ := Res.bind_eq_ok hv
    split at hv
    · exact hdel v.newHandler _ _ hv
    · cases hv
  | maximizeParticleVolumeFraction o =>
    exact maximize_rates (fun v v' hv => by rw [← Res.ok.inj hv]; exact ⟨rfl, rfl⟩) h
  | exportGmshGeo =>
    rcases hh : w.geo.handler with _ | p
    · simp only [World.call, hh] at h
      rw [← Res.ok.inj h]; exact ⟨rfl, rfl⟩
    · simp only [World.call, hh] at h
      obtain ⟨_, _, h⟩ := Res.bind_eq_ok h
      obtain ⟨_, _, h⟩ := Res.bind_eq_ok h
      rw [← Res.ok.inj h]; exact ⟨rfl, rfl⟩

theorem calls_append (a b : List Call) (w : World) : World.calls (a ++ b) w = (World.calls a w).bind (World.calls b) := by
  induction a generalizing w with
  | nil => rfl
  | cons c a ih =>
    simp only [List.cons_append, World.calls]
    rcases w.call c with r | _ | _
    · exact ih r.1
    · rfl
    · rfl

theorem calls_rates (cs : List Call) (hc : ∀ c ∈ cs, ¬ c.SetsRate) (w w' : World) (h : World.calls cs w = .ok w') :
    w'.geo.absoluteGrowthRate = w.geo.absoluteGrowthRate ∧ w'.geo.relativeGrowthRate = w.geo.relativeGrowthRate := by
  induction cs generalizing w with
  | nil => rw [← Res.ok.inj h]; exact ⟨rfl, rfl⟩
  | cons c cs ih =>
    obtain ⟨r, hr, h⟩ := Res.bind_eq_ok h
    have h1 := call_rates (hc c (by simp)) hr
    have h2 := ih (fun d hd => hc d (by simp [hd])) r.1 h
    exact ⟨h2.1.trans h1.1, h2.2.trans h1.2⟩

/-- C90: the growth rate set last is the only one that is not zero. -/
theorem C90_rates (pre post : List Call) (rate : ℝ) (hpost : ∀ c ∈ post, ¬ c.SetsRate) (w : World) :
    (World.calls (pre ++ .setAbsoluteGrowthRate rate :: post) {} = .ok w →
      w.geo.absoluteGrowthRate = rate ∧ w.geo.relativeGrowthRate = 0) ∧
    (World.calls (pre ++ .setRelativeGrowthRate rate :: post) {} = .ok w →
      w.geo.absoluteGrowthRate = 0 ∧ w.geo.relativeGrowthRate = rate) := by
  constructor
  · intro h
    rw [calls_append] at h
    obtain ⟨v, _, h⟩ := Res.bind_eq_ok h
    obtain ⟨r, hr, h⟩ := Res.bind_eq_ok h
    have := calls_rates post hpost r.1 w h
    rw [← Res.ok.inj hr] at this
    exact this
  · intro h
    rw [calls_append] at h
    obtain ⟨v, _, h⟩ := Res.bind_eq_ok h
    obtain ⟨r, hr, h⟩ := Res.bind_eq_ok h
    have := calls_rates post hpost r.1 w h
    rw [← Res.ok.inj hr] at this
    exact this

/-- C90: so after setting the absolute rate the particle volume fraction is not maximised (an exception, and nothing changes),
and after setting the relative rate the distance is not. -/
theorem C90_rate_mismatch (pre post : List Call) (rate : ℝ) (hpost : ∀ c ∈ post, ¬ c.SetsRate) (w : World) (o : SimOutcome) :
    (World.calls (pre ++ .setAbsoluteGrowthRate rate :: post) {} = .ok w →
      w.call (.maximizeParticleVolumeFraction o) = .ok (w, true)) ∧
    (World.calls (pre ++ .setRelativeGrowthRate rate :: post) {} = .ok w →
      w.call (.maximizeParticleDistance o) = .ok (w, true)) := by
  obtain ⟨h1, h2⟩ := C90_rates pre post rate hpost w
  constructor
  · intro h
    simp only [World.call, World.maximize, (h1 h).2, le_refl, if_true, ite_self]
  · intro h
    simp only [World.call, World.maximize, (h2 h).1, le_refl, if_true, ite_self]

example : ∃ w, World.calls ([.setRelativeGrowthRate 2] ++ .setAbsoluteGrowthRate 1 :: [.setGradingCurve 3]) {} = .ok w ∧
    ∀ c ∈ [Call.setGradingCurve 3], ¬ c.SetsRate :=
  ⟨_, rfl, by simp [Call.SetsRate]⟩

/-- C90: nothing is left on the heap, if in addition `SetSpecimenCylinder` is only called before any specimen was set, and
particles are set or simulated only once. -/
theorem C90_no_leak_partial (cs : List Call) (hbox : ∀ l u, Call.setSpecimenBox l u ∈ cs → Extended l u)
    (hexp : ∀ cs1 cs2, cs = cs1 ++ Call.exportGmshGeo :: cs2 → Call.setParticles ∉ cs1 ∨ ∃ c ∈ cs1, c.SetsSpecimen)
    (hcyl : ∀ cs1 cs2 l u, cs = cs1 ++ Call.setSpecimenCylinder l u :: cs2 → ∀ c ∈ cs1, ¬ c.SetsSpecimen)
    (hmk : ∀ cs1 c cs2, cs = cs1 ++ c :: cs2 → c.MakesHandler → ∀ d ∈ cs1, ¬ d.MakesHandler) :
    ∃ h, session cs = .ok h ∧ h.specimens = [] ∧ h.handlers = [] := by
  have key : ∀ (cs2 cs1 : List Call) (w : World), cs = cs1 ++ cs2 → Alive w → Tidy w →
      (w.geo.handler ≠ none → w.geo.specimen ≠ none ∨ Call.setParticles ∈ cs1) →
      (w.geo.handler ≠ none → ∃ d ∈ cs1, d.MakesHandler) →
      ((∃ c ∈ cs1, c.SetsSpecimen) ↔ w.geo.specimen ≠ none) → ∃ w', World.calls cs2 w = .ok w' ∧ Alive w' ∧ Tidy w' := by
    intro cs2
    induction cs2 with
    | nil => intro cs1 w _ hw ht _ _ _; exact ⟨w, rfl, hw, ht⟩
    | cons c cs2 ih =>
      intro cs1 w hcs hw ht h1 h3 h2
      have hb : ∀ l u, c = .setSpecimenBox l u → Extended l u := fun l u hc => hbox l u (by rw [hcs, ← hc]; simp)
      obtain ⟨r, e1, e2, e3, e4, e5⟩ := call_spec hw c
        (fun l u hc => Or.inl (hb l u hc))
        (fun hc => by
          rcases hexp cs1 cs2 (by rw [hcs, hc]) with hx | hx
          · by_cases hn : w.geo.handler = none
            · exact Or.inl hn
            · exact Or.inr ((h1 hn).resolve_right hx)
          · exact Or.inr (h2.1 hx))
      have et := call_tidy hw ht c hb
        (fun l u hc => by
          by_contra hn
          obtain ⟨d, hd, hs⟩ := h2.2 hn
          exact hcyl cs1 cs2 l u (by rw [hcs, hc]) d hd hs)
        (fun hc => by
          by_contra hn
          obtain ⟨d, hd, hs⟩ := h3 hn
          exact hmk cs1 c cs2 hcs hc d hd hs) r e1
      obtain ⟨w', g1, g2⟩ := ih (cs1 ++ [c]) r.1 (by rw [hcs]; simp) e2 et
        (fun hn => by
          rcases e3 hn with q | q | q
          · rcases h1 q with q | q
            · exact Or.inl (e4 (Or.inl q))
            · exact Or.inr (by simp [q])
          · exact Or.inl (e4 (Or.inl q))
          · exact Or.inr (by simp [q]))
        (fun hn => by
          by_cases hc : c.MakesHandler
          · exact ⟨c, by simp, hc⟩
          · by_cases hh : w.geo.handler = none
            · exact absurd (call_handler hw c hc hh r e1) hn
            · obtain ⟨d, hd, hs⟩ := h3 hh
              exact ⟨d, by simp [hd], hs⟩)
        ⟨fun ⟨d, hd, hs⟩ => by
          rcases List.mem_append.1 hd with hd | hd
          · exact e4 (Or.inl (h2.1 ⟨d, hd, hs⟩))
          · obtain rfl := List.mem_singleton.1 hd
            exact e4 (Or.inr hs), fun hn => by
          rcases e5 hn with q | q
          · obtain ⟨d, hd, hs⟩ := h2.2 q
            exact ⟨d, by simp [hd], hs⟩
          · exact ⟨c, by simp, q⟩⟩
      exact ⟨w', by rw [World.calls, e1, Res.bind_ok', g1], g2⟩
  obtain ⟨w, h1, h2, h3⟩ := key cs [] {} rfl ⟨by simp, by simp, by simp⟩ ⟨rfl, rfl⟩ (by simp) (by simp) (by simp)
  obtain ⟨n, hn⟩ := destroy_spec h2
  refine ⟨_, by rw [session, h1, Res.bind_ok', hn], ?_, ?_⟩
  · rcases hs : w.geo.specimen with _ | p <;> simp [h3.specimens, hs]
  · rcases hs : w.geo.handler with _ | p <;> simp [h3.handlers, hs]

/-- A session that meets the hypotheses of `C90_safe_partial` and `C90_no_leak_partial`. -/
example : ∃ h, session [.setSpecimenBox 0 1, .setSpecimenBox 0 2, .setGradingCurve 6, .setAbsoluteGrowthRate 1,
    .maximizeParticleDistance .returns, .exportGmshGeo] = .ok h ∧ h.specimens = [] ∧ h.handlers = [] := by
  refine C90_no_leak_partial _ ?_ ?_ ?_ ?_
  · intro l u h
    simp only [List.mem_cons, Call.setSpecimenBox.injEq, List.not_mem_nil, or_false, reduceCtorEq] at h
    rcases h with ⟨rfl, rfl⟩ | ⟨rfl, rfl⟩
    · intro i; simp
    · intro i; simp
  · intro cs1 cs2 h
    left
    intro hm
    have : Call.setParticles ∈ cs1 ++ Call.exportGmshGeo :: cs2 := List.mem_append_left _ hm
    rw [← h] at this
    simp at this
  · intro cs1 cs2 l u h
    exfalso
    have : Call.setSpecimenCylinder l u ∈ cs1 ++ Call.setSpecimenCylinder l u :: cs2 := by simp
    rw [← h] at this
    simp at this
  · intro cs1 c cs2 h hc d hd hm
    have e : ∀ l : List Call, (∀ x ∈ l, ¬ x.MakesHandler) → ∀ y : Call, y.MakesHandler → ∀ l' : List Call,
        (∀ x ∈ l', ¬ x.MakesHandler) → ∀ a b z, a ++ z :: b = l ++ y :: l' → z.MakesHandler → ∀ x ∈ a, ¬ x.MakesHandler := by
      intro l
      induction l with
      | nil =>
        intro _ y hy l' hl' a b z hab hz x hx
        rcases a with _ | ⟨a0, a⟩
        · cases hx
        · obtain ⟨rfl, h2⟩ := List.cons.inj hab
          exact absurd hz (hl' z (by rw [← h2]; simp))
      | cons l0 l ih =>
        intro hl y hy l' hl' a b z hab hz x hx
        rcases a with _ | ⟨a0, a⟩
        · cases hx
        · obtain ⟨rfl, h2⟩ := List.cons.inj hab
          rcases List.mem_cons.1 hx with rfl | hx
          · exact hl x (by simp)
          · exact ih (fun x hx => hl x (by simp [hx])) y hy l' hl' a b z h2 hz x hx
    exact e [.setSpecimenBox 0 1, .setSpecimenBox 0 2, .setGradingCurve 6, .setAbsoluteGrowthRate 1]
      (by simp [Call.MakesHandler]) (.maximizeParticleDistance .returns) trivial [.exportGmshGeo]
      (by simp [Call.MakesHandler]) cs1 cs2 c h.symm hc d hd hm

/-- C90 is false in general: if `SetSpecimenBox` throws, the object keeps pointing to the specimen it has deleted; its
destructor, and every further use, touches it again. -/
theorem C90_dangling_counterexample (l u l' u' : Fin 3 → ℝ) (h : Extended l u) (h' : ¬ Extended l' u') :
    session [.setSpecimenBox l u, .setSpecimenBox l' u'] = .ub := by
  have hd : (withSpecimen {}).deleteSpecimen 0 = .ok ⟨(withSpecimen {}).geo, ⟨[], [], 1⟩⟩ := rfl
  simp only [session, World.calls, World.call, (newSpecimen_spec _ l u .box).1 h, Res.bind_ok']
  have hs : (withSpecimen {}).geo.specimen = some 0 := rfl
  simp only [hs, hd, Res.bind_ok', (newSpecimen_spec _ l' u' .box).2 h']
  rfl

/-- C90 is false in general: exporting particles that were set without a specimen reads a null pointer. -/
theorem C90_null_counterexample : session [.setParticles, .exportGmshGeo] = .ub := rfl

/-- C90 is false in general: a cylinder in place of another specimen leaves the old one on the heap. -/
theorem C90_specimen_leak_counterexample (l u l' u' : Fin 3 → ℝ) (h : Extended l u) (h' : Extended l' u') :
    session [.setSpecimenBox l u, .setSpecimenCylinder l' u'] = .ok ⟨[0], [], 2⟩ := by
  simp only [session, World.calls, World.call, (newSpecimen_spec _ l u .box).1 h, (newSpecimen_spec _ l' u' _).1 h',
    Res.bind_ok']
  rfl

/-- C90 is false in general: setting particles twice leaves the first ones on the heap. -/
theorem C90_particles_leak_counterexample : session [.setParticles, .setParticles] = .ok ⟨[], [0], 2⟩ := rfl

/-- The boxes of the counterexamples. -/
example : Extended 0 1 ∧ ¬ Extended 1 0 := by
  refine ⟨fun i => by simp, fun h => ?_⟩
  have := h 0
  simp at this
  linarith

end NuTo.Specimens
