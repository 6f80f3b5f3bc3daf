/-
C104: the linear solvers with a name.
-/
import Verif.Model.EigenSolve
import Verif.Props.PatchSolve

namespace NuTo

open Assembly Finset Balance Solve Statics

namespace EigenSolve

/-! ### Specification -/

/-- The names in the documentation (`EigenSparseSolve.h:13-33`), and what they stand for. -/
def documented : List (String × LibSolver) :=
  [("EigenSparseLU", .sparseLU), ("EigenSparseQR", .sparseQR), ("EigenSimplicialLLT", .simplicialLLT),
   ("EigenSimplicialLDLT", .simplicialLDLT), ("EigenConjugateGradient", .conjugateGradient),
   ("EigenLeastSquaresConjugateGradient", .leastSquaresConjugateGradient), ("EigenBiCGSTAB", .biCGSTAB),
   ("SuiteSparseLU", .umfPackLU), ("SuiteSparseSupernodalLLT", .cholmodSupernodalLLT), ("MumpsLU", .mumpsLU),
   ("MumpsLDLT", .mumpsLDLT)]

/-- The library with this solver is part of the build. -/
def Build.has (b : Build) : LibSolver → Bool
  | .umfPackLU | .cholmodSupernodalLLT => b.suiteSparse
  | .mumpsLU | .mumpsLDLT => b.mumps
  | _ => true

/-- Solvers made for matrices that are not symmetric. -/
def LibSolver.general : LibSolver → Bool
  | .sparseLU | .sparseQR | .leastSquaresConjugateGradient | .umfPackLU | .mumpsLU => true
  | _ => false

/-- The iterative solvers. -/
def LibSolver.iterative : LibSolver → Bool
  | .conjugateGradient | .leastSquaresConjugateGradient | .biCGSTAB => true
  | _ => false

/-- What the libraries are trusted to do, in exact arithmetic: all of them solve systems whose matrix (the part that is read)
is symmetric positive definite; those for general matrices solve all systems that have exactly one solution; iterative solvers
always return a vector. -/
structure Library (lib : LibSolver → SpMat ℝ → List ℝ → Res (List ℝ)) : Prop where
  spd : ∀ s A b, Spd (s.reads A) → b.length = A.rows → ∃ x, lib s A b = .ok x ∧ (s.reads A).mulVec x = .ok b
  regular : ∀ s, s.general → ∀ A b, A.WF → A.rows = A.cols → (∃! x, (s.reads A).mulVec x = .ok b) →
    ∃ x, lib s A b = .ok x ∧ (s.reads A).mulVec x = .ok b
  returns : ∀ s, s.iterative → ∀ A b, A.rows = A.cols → b.length = A.rows → ∃ x, lib s A b = .ok x

/-! ### Proofs -/

/-- C104 (names): a documented name selects its solver if the library is there. -/
theorem C104_names (b : Build) (name : String) (s : LibSolver) (h : (name, s) ∈ documented) (hb : b.has s) :
    choose b name = .use s := by
  have : ∀ p ∈ documented, ∀ x y : Bool, (Build.mk x y).has p.2 → choose ⟨x, y⟩ p.1 = .use p.2 := by decide +kernel
  exact this _ h b.1 b.2 hb

/-- C104 (names): only documented names select a solver. -/
theorem C104_only (b : Build) (name : String) (s : LibSolver) (h : choose b name = .use s) :
    (name, s) ∈ documented ∧ b.has s := by
  have step : ∀ {p : Prop} [Decidable p] {t : LibSolver} {y : Choice}, (if p then .use t else y) = Choice.use s →
      p ∧ t = s ∨ y = .use s := by
    intro p _ t y h
    by_cases hp : p
    · rw [if_pos hp] at h
      exact Or.inl ⟨hp, Choice.use.inj h⟩
    · rw [if_neg hp] at h
      exact Or.inr h
  have stop : ∀ {p : Prop} [Decidable p] {y : Choice}, (if p then .notCompiled else y) = Choice.use s → y = .use s := by
    intro p _ y h
    by_cases hp : p
    · rw [if_pos hp] at h
      cases h
    · rwa [if_neg hp] at h
  unfold choose at h
  rcases step h with ⟨rfl, rfl⟩ | h
  · exact ⟨by simp [documented], rfl⟩
  rcases step h with ⟨rfl, rfl⟩ | h
  · exact ⟨by simp [documented], rfl⟩
  rcases step h with ⟨rfl, rfl⟩ | h
  · exact ⟨by simp [documented], rfl⟩
  rcases step h with ⟨rfl, rfl⟩ | h
  · exact ⟨by simp [documented], rfl⟩
  rcases step h with ⟨rfl, rfl⟩ | h
  · exact ⟨by simp [documented], rfl⟩
  rcases step h with ⟨rfl, rfl⟩ | h
  · exact ⟨by simp [documented], rfl⟩
  rcases step h with ⟨rfl, rfl⟩ | h
  · exact ⟨by simp [documented], rfl⟩
  rcases step h with ⟨⟨hb, rfl⟩, rfl⟩ | h
  · exact ⟨by simp [documented], hb⟩
  rcases step h with ⟨⟨hb, rfl⟩, rfl⟩ | h
  · exact ⟨by simp [documented], hb⟩
  replace h := stop h
  rcases step h with ⟨⟨hb, rfl⟩, rfl⟩ | h
  · exact ⟨by simp [documented], hb⟩
  rcases step h with ⟨⟨hb, rfl⟩, rfl⟩ | h
  · exact ⟨by simp [documented], hb⟩
  exact absurd (stop h) (by simp)

/-- C104 (names): a documented name of a library that is missing is reported as such, except `MumpsLDLT`. -/
theorem C104_missing_partial (b : Build) (name : String) (s : LibSolver) (h : (name, s) ∈ documented) (hb : b.has s = false)
    (hn : name ≠ "MumpsLDLT") : choose b name = .notCompiled := by
  have : ∀ p ∈ documented, ∀ x y : Bool, (Build.mk x y).has p.2 = false → p.1 ≠ "MumpsLDLT" → choose ⟨x, y⟩ p.1 = .notCompiled := by
    decide +kernel
  exact this _ h b.1 b.2 hb hn

/-- C104: without MUMPS the documented name `MumpsLDLT` is called unknown, and the name `MUMPSLDLT`, which no build knows, is
reported as missing. -/
theorem C104_spelling_counterexample :
    choose ⟨false, false⟩ "MumpsLDLT" = .unknown ∧ choose ⟨false, false⟩ "MUMPSLDLT" = .notCompiled ∧
      choose ⟨true, true⟩ "MUMPSLDLT" = .unknown := by
  simp [choose]

/-- C104 (names): every other name raises an exception. -/
theorem C104_other_names (lib : LibSolver → SpMat ℝ → List ℝ → Res (List ℝ)) (b : Build) (name : String)
    (h : ∀ s, (name, s) ∈ documented → b.has s = false) (A : SpMat ℝ) (rhs : List ℝ) : eigenSparseSolve lib b name A rhs = .throw := by
  rw [eigenSparseSolve]
  cases hc : choose b name with
  | use s =>
    obtain ⟨h1, h2⟩ := C104_only b name s hc
    rw [h s h1] at h2
    cases h2
  | notCompiled => rfl
  | unknown => rfl

/-- entries of a matrix made from the entries of another one -/
theorem entry_flatMap {α : Type} (l : List α) (f : α → List (Triplet ℝ)) (r c i j : Nat) :
    (SpMat.mk r c (l.flatMap f)).entry i j =
      (l.map fun t => ((f t).map fun u => if u.row = i ∧ u.col = j then u.val else 0).sum).sum := by
  unfold SpMat.entry
  induction l with
  | nil => rfl
  | cons a l ih => simp [List.flatMap_cons] at ih ⊢; rw [ih]

theorem lowerPart_entry (A : SpMat ℝ) (i j : Nat) :
    (lowerPart A).entry i j = if j ≤ i then A.entry i j else A.entry j i := by
  rw [lowerPart, entry_flatMap]
  split <;> rename_i h <;>
  · unfold SpMat.entry
    congr 1
    refine List.map_congr_left fun t _ => ?_
    by_cases h1 : t.col < t.row
    · simp only [if_pos h1, List.map_cons, List.map_nil, List.sum_cons, List.sum_nil, add_zero]
      split_ifs <;> first | (exfalso; omega) | simp
    · by_cases h2 : t.col = t.row
      · rw [if_neg h1, if_pos h2]
        simp only [List.map_cons, List.map_nil, List.sum_cons, List.sum_nil]
        first | (rw [add_zero]; done) | (rw [add_zero]; split_ifs <;> first | rfl | (exfalso; omega))
      · simp only [if_neg h1, if_neg h2, List.map_nil, List.sum_nil]
        refine (if_neg ?_).symm
        omega

theorem mumpsAll_entry (A : SpMat ℝ) (i j : Nat) : (mumpsMatrix A.rows false (mumpsAll A)).entry i j = A.entry i j := by
  rw [mumpsMatrix, entry_flatMap, mumpsAll, List.map_map]
  unfold SpMat.entry
  congr 1
  refine List.map_congr_left fun t _ => ?_
  simp

theorem mumpsUpper_entry (A : SpMat ℝ) (i j : Nat) :
    (mumpsMatrix A.rows true (mumpsUpper A)).entry i j = if i ≤ j then A.entry i j else A.entry j i := by
  rw [mumpsMatrix, entry_flatMap, mumpsUpper, List.map_map]
  have hfilter : ∀ (l : List (Triplet ℝ)) (f : Triplet ℝ → ℝ),
      ((l.filter fun t => t.col ≥ t.row).map f).sum = (l.map fun t => if t.col ≥ t.row then f t else 0).sum := by
    intro l f
    induction l with
    | nil => rfl
    | cons a l ih =>
      by_cases h : a.col ≥ a.row
      · simp [h] at ih ⊢; rw [ih]
      · simp [h] at ih ⊢; rw [ih]
  rw [hfilter]
  split <;> rename_i h <;>
  · unfold SpMat.entry
    congr 1
    refine List.map_congr_left fun t _ => ?_
    by_cases h1 : t.col ≥ t.row
    · by_cases h2 : t.row = t.col
      · simp only [if_pos h1, Function.comp, h2, ne_eq, not_true_eq_false, and_false, if_false, List.map_cons, List.map_nil,
          List.sum_cons, List.sum_nil, add_zero, Nat.add_sub_cancel]
        split_ifs <;> first | rfl | (exfalso; omega)
      · simp only [if_pos h1, Function.comp, ne_eq, Nat.add_right_cancel_iff, h2, not_false_iff, and_self, if_true,
          List.map_cons, List.map_nil, List.sum_cons, List.sum_nil, add_zero, Nat.add_sub_cancel]
        split_ifs <;> first | (exfalso; omega) | simp
    · rw [if_neg h1, if_neg]
      omega

theorem lowerPart_wf {A : SpMat ℝ} (h : A.WF) (hs : A.rows = A.cols) : (lowerPart A).WF := by
  intro t ht
  simp only [lowerPart, List.mem_flatMap] at ht ⊢
  obtain ⟨u, hu, ht⟩ := ht
  obtain ⟨h1, h2⟩ := h u hu
  split_ifs at ht
  · simp only [List.mem_cons, List.not_mem_nil, or_false] at ht
    rcases ht with rfl | rfl
    · exact ⟨h1, h2⟩
    · exact ⟨by simp only; omega, by simp only; omega⟩
  · rw [List.mem_singleton.1 ht]
    exact ⟨h1, h2⟩
  · cases ht

theorem mumpsMatrix_wf {n : Nat} {sym : Bool} {l : List (Coordinate ℝ)}
    (h : ∀ c ∈ l, c.row - 1 < n ∧ c.col - 1 < n) : (mumpsMatrix n sym l).WF := by
  intro t ht
  simp only [mumpsMatrix, List.mem_flatMap] at ht ⊢
  obtain ⟨u, hu, ht⟩ := ht
  obtain ⟨h1, h2⟩ := h u hu
  split_ifs at ht
  · simp only [List.mem_cons, List.not_mem_nil, or_false] at ht
    rcases ht with rfl | rfl
    · exact ⟨h1, h2⟩
    · exact ⟨h2, h1⟩
  · rw [List.mem_singleton.1 ht]
    exact ⟨h1, h2⟩

theorem reads_size (s : LibSolver) {A : SpMat ℝ} (hs : A.rows = A.cols) :
    (s.reads A).rows = A.rows ∧ (s.reads A).cols = A.cols := by
  cases s <;> simp [LibSolver.reads, lowerPart, mumpsMatrix, hs]

theorem reads_wf (s : LibSolver) {A : SpMat ℝ} (h : A.WF) (hs : A.rows = A.cols) : (s.reads A).WF := by
  have h1 : (mumpsMatrix A.rows false (mumpsAll A)).WF := by
    refine mumpsMatrix_wf fun c hc => ?_
    simp only [mumpsAll, List.mem_map] at hc
    obtain ⟨t, ht, rfl⟩ := hc
    have := h t ht
    simp only
    omega
  have h2 : (mumpsMatrix A.rows true (mumpsUpper A)).WF := by
    refine mumpsMatrix_wf fun c hc => ?_
    simp only [mumpsUpper, List.mem_map, List.mem_filter] at hc
    obtain ⟨t, ht, rfl⟩ := hc
    have := h t ht.1
    simp only
    omega
  cases s <;> first | exact h | exact lowerPart_wf h hs | exact h1 | exact h2

/-- symmetric matrices, and all matrices for general solvers, are read as they are -/
theorem reads_entry (s : LibSolver) {A : SpMat ℝ} (h : s.general ∨ s = .biCGSTAB ∨ ∀ i < A.rows, ∀ j < A.rows, A.entry i j = A.entry j i)
    (i j : Nat) (hi : i < A.rows) (hj : j < A.rows) : (s.reads A).entry i j = A.entry i j := by
  have hsym : (∀ i < A.rows, ∀ j < A.rows, A.entry i j = A.entry j i) →
      (lowerPart A).entry i j = A.entry i j ∧ (mumpsMatrix A.rows true (mumpsUpper A)).entry i j = A.entry i j := by
    intro h
    rw [lowerPart_entry, mumpsUpper_entry, h j hj i hi, ite_self, ite_self]
    exact ⟨rfl, rfl⟩
  cases s <;> simp only [LibSolver.general, reduceCtorEq, false_or, true_or, Bool.false_eq_true] at h <;>
    first | rfl | exact (hsym h).1 | exact (hsym h).2 | exact mumpsAll_entry A i j

theorem mulVec_reads (s : LibSolver) {A : SpMat ℝ} (hw : A.WF) (hs : A.rows = A.cols)
    (h : s.general ∨ s = .biCGSTAB ∨ ∀ i < A.rows, ∀ j < A.rows, A.entry i j = A.entry j i) (x : List ℝ) :
    (s.reads A).mulVec x = A.mulVec x := by
  obtain ⟨r1, r2⟩ := reads_size s hs
  by_cases hx : x.length = A.cols
  · obtain ⟨y, hy⟩ := SpMat.mulVec_ok A x hx
    obtain ⟨z, hz⟩ := SpMat.mulVec_ok (s.reads A) x (by rw [r2, hx])
    obtain ⟨_, a2, a3⟩ := SpMat.mulVec_eq_ok hw hy
    obtain ⟨_, b2, b3⟩ := SpMat.mulVec_eq_ok (reads_wf s hw hs) hz
    rw [hy, hz]
    congr 1
    refine List.ext_getElem (by rw [a2, b2, r1]) fun i g1 g2 => ?_
    rw [← List.getD_eq_getElem z 0 g1, ← List.getD_eq_getElem y 0 g2, a3 i (by omega), b3 i (by omega), r2]
    refine sum_congr rfl fun j hj => ?_
    rw [reads_entry s h i j (by omega) (by rw [hs]; exact mem_range.1 hj)]
  · unfold SpMat.mulVec Res.require
    rw [if_neg hx, if_neg (by rw [r2]; exact hx)]

theorem reads_spd (s : LibSolver) {A : SpMat ℝ} (h : Spd A) : Spd (s.reads A) := by
  obtain ⟨r1, r2⟩ := reads_size s h.square
  have he := fun i j hi hj => reads_entry s (Or.inr (Or.inr h.symmetric)) i j hi hj
  refine ⟨reads_wf s h.wf h.square, by rw [r1, r2, h.square], fun i hi j hj => ?_, fun x hx => ?_⟩
  · rw [r1] at hi hj
    rw [he i j hi hj, he j i hj hi, h.symmetric i hi j hj]
  · rw [r1] at hx ⊢
    refine lt_of_lt_of_eq (h.positive x hx) (sum_congr rfl fun i hi => sum_congr rfl fun j hj => ?_)
    rw [he i j (mem_range.1 hi) (mem_range.1 hj)]

/-- C104 (symmetric positive definite): every documented solver of the build solves all systems with symmetric positive
definite matrices. -/
theorem C104_spd {lib : LibSolver → SpMat ℝ → List ℝ → Res (List ℝ)} (hl : Library lib) (b : Build) (name : String)
    (s : LibSolver) (h : (name, s) ∈ documented) (hb : b.has s) : SolvesSpd (eigenSparseSolve lib b name) := by
  intro A rhs hA hr
  obtain ⟨x, h1, h2⟩ := hl.spd s A rhs (reads_spd s hA) hr
  refine ⟨x, ?_, ?_⟩
  · rw [eigenSparseSolve, C104_names b name s h hb]
    exact h1
  · rw [← mulVec_reads s hA.wf hA.square (Or.inr (Or.inr hA.symmetric)), h2]

/-- C104 (general matrices): the documented solvers for general matrices solve all systems that have exactly one solution. -/
theorem C104_general {lib : LibSolver → SpMat ℝ → List ℝ → Res (List ℝ)} (hl : Library lib) (b : Build) (name : String)
    (s : LibSolver) (h : (name, s) ∈ documented) (hb : b.has s) (hg : s.general) (A : SpMat ℝ) (hw : A.WF)
    (hs : A.rows = A.cols) (rhs : List ℝ) (hu : ∃! x, A.mulVec x = .ok rhs) :
    ∃ x, eigenSparseSolve lib b name A rhs = .ok x ∧ A.mulVec x = .ok rhs := by
  have he := mulVec_reads s hw hs (Or.inl hg)
  obtain ⟨x, h1, h2⟩ := hl.regular s hg A rhs hw hs (by simpa only [he] using hu)
  refine ⟨x, ?_, by rw [← he, h2]⟩
  rw [eigenSparseSolve, C104_names b name s h hb]
  exact h1

/-- C104 (elastic bodies): with every documented solver of the build, load steps of elastic bodies reproduce affine
displacements prescribed on the boundary (C103), and so on for the other theorems about `SolvesSpd`. -/
theorem C104_patch {dof dim n : Nat} {E nu : ℝ} {ps : PlaneState} {s : DofSizes} {threads : List (List (Cell × FemElement ℝ))}
    {st : NodeStore ℝ} {c : Constraints ℝ} {num : Term ℝ → Nat} {w : List ℝ}
    (hg : StepGives dof dim n E nu ps s threads st c num w)
    {lib : LibSolver → SpMat ℝ → List ℝ → Res (List ℝ)} (hl : Library lib) (b : Build) (name : String)
    (sv : LibSolver) (h : (name, sv) ∈ documented) (hb : b.has sv) :
    ∃ h m, assembleMatrix s dof (stiffness dof fun _ _ => .ok (elasticTangent dim E nu ps)) threads = .ok h ∧
      h.find? (toLex (dof, dof)) = some m ∧
      ∀ (toFloat : ℝ → ℝ) (t0 t1 : ℝ),
        (∀ e ∈ c.equations dof, toFloat (e.rhs t0) = e.rhs t0 ∧ toFloat (e.rhs t1) = e.rhs t1) →
        Satisfies c dof num (fun e => e.rhs t1) w →
        ∀ f R0 : List ℝ, f.length = n → R0.length = n →
        (∀ i < n, f.getD i 0 = ∑ j ∈ range n, m.entry i j * R0.getD j 0) →
        Satisfies c dof num (fun e => e.rhs t0) R0 →
        ∃ res d, Solve.solveTrialState (eigenSparseSolve lib b name) (c.bcs toFloat st) h [(dof, f)] t0 t1 [dof] = .ok res ∧
          res.find? dof = some d ∧ ∀ i < n, R0.getD i 0 - d.getD i 0 = w.getD i 0 := by
  obtain ⟨h', m, h1, h2, h3⟩ := hg
  exact ⟨h', m, h1, h2, h3 _ (C104_spd hl b name sv h hb)⟩

/-! ### Counterexamples -/

/-- a matrix that is not symmetric -/
noncomputable def upperExample : SpMat ℝ := ⟨2, 2, [⟨0, 0, 2⟩, ⟨0, 1, 1⟩, ⟨1, 1, 2⟩]⟩

theorem upperExample_mulVec (x y : ℝ) : upperExample.mulVec [x, y] = .ok [2 * x + y, 2 * y] := by
  simp [upperExample, SpMat.mulVec, Res.require, List.range_succ]

/-- C104: the solvers that read one triangle return wrong vectors without any message if the matrix is not symmetric, although
the system has exactly one solution. -/
theorem C104_unsymmetric_counterexample {lib : LibSolver → SpMat ℝ → List ℝ → Res (List ℝ)} (hl : Library lib) (b : Build)
    (name : String) (s : LibSolver) (h : (name, s) ∈ documented) (hb : b.has s)
    (hs : s = .simplicialLLT ∨ s = .simplicialLDLT ∨ s = .conjugateGradient ∨ s = .cholmodSupernodalLLT ∨ s = .mumpsLDLT) :
    (∃! x, upperExample.mulVec x = .ok [1, 1]) ∧
    ∃ x, eigenSparseSolve lib b name upperExample [1, 1] = .ok x ∧ upperExample.mulVec x ≠ .ok [1, 1] := by
  constructor
  · refine ⟨[1 / 4, 1 / 2], by simp only [upperExample_mulVec]; norm_num, fun x hx => ?_⟩
    have hl : x.length = 2 := by
      unfold SpMat.mulVec at hx
      exact (Res.require_eq_ok hx).1
    obtain ⟨p, q, rfl⟩ := List.length_eq_two.1 hl
    simp only [upperExample_mulVec, Res.ok.injEq, List.cons.injEq, and_true] at hx
    obtain ⟨h1, h2⟩ := hx
    have : q = 1 / 2 := by linarith
    have : p = 1 / 4 := by linarith
    simp [*]
  have spd2 : ∀ (A : SpMat ℝ) (o : ℝ), A.WF → A.rows = 2 → A.cols = 2 → A.entry 0 0 = 2 → A.entry 1 1 = 2 → A.entry 0 1 = o →
      A.entry 1 0 = o → o = 0 ∨ o = 1 → Spd A := by
    intro A o hw r c e00 e11 e01 e10 ho
    refine ⟨hw, by rw [r, c], fun i hi j hj => ?_, fun x hx => ?_⟩
    · rw [r] at hi hj
      interval_cases i <;> interval_cases j <;> simp [*]
    · rw [r] at hx ⊢
      obtain ⟨i, hi, hne⟩ := hx
      simp only [sum_range_succ, range_zero, sum_empty, zero_add, e00, e01, e10, e11]
      have h1 : 0 < x 0 ^ 2 + x 1 ^ 2 := by
        interval_cases i
        · have := pow_pos (abs_pos.2 hne) 2
          rw [sq_abs] at this
          nlinarith [sq_nonneg (x 1)]
        · have := pow_pos (abs_pos.2 hne) 2
          rw [sq_abs] at this
          nlinarith [sq_nonneg (x 0)]
      rcases ho with rfl | rfl
      · nlinarith
      · nlinarith [sq_nonneg (x 0 + x 1)]
  have hw : upperExample.WF := by
    intro t ht
    simp only [upperExample, List.mem_cons, List.not_mem_nil, or_false] at ht
    rcases ht with rfl | rfl | rfl <;> simp [upperExample]
  have hent : ∀ i j, upperExample.entry i j =
      (if 0 = i ∧ 0 = j then 2 else 0) + ((if 0 = i ∧ 1 = j then 1 else 0) + (if 1 = i ∧ 1 = j then 2 else 0)) := by
    intro i j
    simp [upperExample, SpMat.entry]
  have key : ∀ o : ℝ, (o = 0 ∨ o = 1) → (s.reads upperExample).entry 0 1 = o → (s.reads upperExample).entry 1 0 = o →
      (s.reads upperExample).entry 0 0 = 2 → (s.reads upperExample).entry 1 1 = 2 →
      ∃ x, eigenSparseSolve lib b name upperExample [1, 1] = .ok x ∧ upperExample.mulVec x ≠ .ok [1, 1] := by
    intro o ho e01 e10 e00 e11
    obtain ⟨r1, r2⟩ := reads_size s (A := upperExample) rfl
    have hwf := reads_wf s hw rfl
    obtain ⟨x, h1, h2⟩ := hl.spd s upperExample [1, 1] (spd2 _ o hwf r1 r2 e00 e11 e01 e10 ho) rfl
    refine ⟨x, by rw [eigenSparseSolve, C104_names b name s h hb]; exact h1, fun h3 => ?_⟩
    obtain ⟨l1, l2, l3⟩ := SpMat.mulVec_eq_ok hwf h2
    have hx2 : x.length = 2 := l1.trans r2
    obtain ⟨p, q, rfl⟩ := List.length_eq_two.1 hx2
    simp only [upperExample_mulVec, Res.ok.injEq, List.cons.injEq, and_true] at h3
    have a0 := l3 0 (by rw [r1]; exact Nat.zero_lt_two)
    have a1 := l3 1 (by rw [r1]; exact Nat.one_lt_two)
    rw [r2, show upperExample.cols = 2 from rfl] at a0 a1
    simp only [sum_range_succ, range_zero, sum_empty, zero_add, e00, e01, e10, e11, List.getD_cons_zero, List.getD_cons_succ] at a0 a1
    obtain ⟨b0, b1⟩ := h3
    rcases ho with rfl | rfl <;> linarith
  rcases hs with rfl | rfl | rfl | rfl | rfl
  all_goals
    first
      | (refine key 0 (Or.inl rfl) ?_ ?_ ?_ ?_ <;>
          (simp only [LibSolver.reads, lowerPart_entry, hent]; norm_num; done))
      | (refine key 1 (Or.inr rfl) ?_ ?_ ?_ ?_ <;>
          (simp only [LibSolver.reads, mumpsUpper_entry, hent]; norm_num; done))

/-- C104: a system without solution is not reported; the iterative solvers return some vector. -/
theorem C104_singular_counterexample {lib : LibSolver → SpMat ℝ → List ℝ → Res (List ℝ)} (hl : Library lib) (b : Build)
    (name : String) (s : LibSolver) (h : (name, s) ∈ documented) (hs : s.iterative) :
    ∃ x, eigenSparseSolve lib b name ⟨1, 1, []⟩ [1] = .ok x ∧ SpMat.mulVec (⟨1, 1, []⟩ : SpMat ℝ) x ≠ .ok [1] := by
  obtain ⟨x, hx⟩ := hl.returns s hs ⟨1, 1, []⟩ [1] rfl rfl
  refine ⟨x, ?_, ?_⟩
  · rw [eigenSparseSolve, C104_names b name s h (by cases s <;> simp_all [LibSolver.iterative, Build.has])]
    exact hx
  · unfold SpMat.mulVec Res.require
    split_ifs <;> simp

/-- There is a library that does what is trusted, and symmetric positive definite matrices exist. -/
example : (∃ lib, Library lib) ∧ Spd ⟨1, 1, [⟨0, 0, 2⟩]⟩ := by
  classical
  constructor
  · obtain ⟨lin, h1, h2⟩ := ideal_solver
    refine ⟨fun s A b => if ∃ x, (s.reads A).mulVec x = .ok b then lin (s.reads A) b else .ok [], ?_, ?_, ?_⟩
    · intro s A b hA hb
      have hr : (s.reads A).rows = A.rows := by cases s <;> rfl
      obtain ⟨x, hx, hx'⟩ := (h2.solvesSpd h1) (s.reads A) b hA (by rw [hr, hb])
      refine ⟨x, ?_, hx'⟩
      have hex : ∃ x, (s.reads A).mulVec x = .ok b := ⟨x, hx'⟩
      simp only [if_pos hex]
      exact hx
    · intro s _ A b _ _ hu
      obtain ⟨x, hx⟩ := h2 (s.reads A) b hu.exists
      exact ⟨x, by simp only [if_pos hu.exists]; exact hx, h1 _ _ _ hx⟩
    · intro s _ A b _ _
      by_cases h : ∃ x, (s.reads A).mulVec x = .ok b
      · obtain ⟨x, hx⟩ := h2 (s.reads A) b h
        exact ⟨x, by simp only [if_pos h]; exact hx⟩
      · exact ⟨[], by simp only [if_neg h]⟩
  · refine ⟨by simp [SpMat.WF], rfl, fun i hi j hj => ?_, fun x hx => ?_⟩
    · simp only [Nat.lt_one_iff] at hi hj
      rw [hi, hj]
    · obtain ⟨i, hi, hne⟩ := hx
      simp only [Nat.lt_one_iff] at hi
      rw [hi] at hne
      have := pow_pos (abs_pos.2 hne) 2
      rw [sq_abs] at this
      simp [SpMat.entry]
      nlinarith

end EigenSolve

end NuTo
