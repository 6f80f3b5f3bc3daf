import Verif.Model.SpMat

/-!
`nuto/math/EigenSparseSolve.cpp` and the coordinate formats of `external/EigenMumpsSupport/src/MUMPSSupport/MUMPSSupport.h`.

The factorisations themselves are libraries; `Props/EigenSolve.lean` states what they are trusted to do.
-/

namespace NuTo.EigenSolve

variable {K : Type _} [Field K]

/-- the class templates that `SolveWithSolver` is instantiated with, `EigenSparseSolve.cpp:34-67` -/
inductive LibSolver where
  | sparseLU
  | sparseQR
  | simplicialLLT
  | simplicialLDLT
  | conjugateGradient
  | leastSquaresConjugateGradient
  | biCGSTAB
  | umfPackLU
  | cholmodSupernodalLLT
  | mumpsLU
  | mumpsLDLT
deriving DecidableEq

/-- `HAVE_SUITESPARSE` and `HAVE_MUMPS` -/
structure Build where
  suiteSparse : Bool
  mumps : Bool

/-- what a name leads to: a solver or one of the two exceptions -/
inductive Choice where
  | use (s : LibSolver)
  | notCompiled
  | unknown
deriving DecidableEq

/-- the comparisons of `EigenSparseSolve`, `EigenSparseSolve.cpp:32-73` -/
def choose (b : Build) (name : String) : Choice :=
  if name = "EigenSparseLU" then .use .sparseLU
  else if name = "EigenSparseQR" then .use .sparseQR
  else if name = "EigenSimplicialLLT" then .use .simplicialLLT
  else if name = "EigenSimplicialLDLT" then .use .simplicialLDLT
  else if name = "EigenConjugateGradient" then .use .conjugateGradient
  else if name = "EigenLeastSquaresConjugateGradient" then .use .leastSquaresConjugateGradient
  else if name = "EigenBiCGSTAB" then .use .biCGSTAB
  else if b.suiteSparse ∧ name = "SuiteSparseLU" then .use .umfPackLU
  else if b.suiteSparse ∧ name = "SuiteSparseSupernodalLLT" then .use .cholmodSupernodalLLT
  else if ¬ b.suiteSparse ∧ (name = "SuiteSparseLU" ∨ name = "SuiteSparseSupernodalLLT") then .notCompiled
  else if b.mumps ∧ name = "MumpsLU" then .use .mumpsLU
  else if b.mumps ∧ name = "MumpsLDLT" then .use .mumpsLDLT
  else if ¬ b.mumps ∧ (name = "MumpsLU" ∨ name = "MUMPSLDLT") then .notCompiled
  else .unknown

/-- one-based row, one-based column and value -/
structure Coordinate (K : Type _) where
  row : Nat
  col : Nat
  val : K

/-- `MUMPSLU::allocate_coordinate_format`, `MUMPSSupport.h:435-457`: all stored entries -/
def mumpsAll (A : SpMat K) : List (Coordinate K) := A.entries.map fun t => ⟨t.row + 1, t.col + 1, t.val⟩

/-- `MUMPSLDLT::allocate_coordinate_format`, `MUMPSSupport.h:525-562`: the entries on and above the diagonal -/
def mumpsUpper (A : SpMat K) : List (Coordinate K) :=
  (A.entries.filter fun t => t.col ≥ t.row).map fun t => ⟨t.row + 1, t.col + 1, t.val⟩

/-- the matrix that MUMPS understands (its documentation): for `sym = 0` (`MUMPSLU`, `MUMPSSupport.h:392`) the entries as they
are, for `sym = 1` (`MUMPSLDLT`, `MUMPSSupport.h:492`) every entry off the diagonal stands for both positions -/
def mumpsMatrix (n : Nat) (sym : Bool) (l : List (Coordinate K)) : SpMat K :=
  ⟨n, n, l.flatMap fun c => if sym ∧ c.row ≠ c.col then [⟨c.row - 1, c.col - 1, c.val⟩, ⟨c.col - 1, c.row - 1, c.val⟩]
    else [⟨c.row - 1, c.col - 1, c.val⟩]⟩

/-- the selfadjoint matrix with the lower triangle of `A`: what `SimplicialLLT`, `SimplicialLDLT`, `ConjugateGradient` and
`CholmodSupernodalLLT` with their default template argument `Lower` read (Eigen's documentation) -/
def lowerPart (A : SpMat K) : SpMat K :=
  ⟨A.rows, A.cols, A.entries.flatMap fun t => if t.col < t.row then [t, ⟨t.col, t.row, t.val⟩]
    else if t.col = t.row then [t] else []⟩

/-- the matrix of the system that a solver solves, `EigenSparseSolve.cpp:34-67` -/
def LibSolver.reads (s : LibSolver) (A : SpMat K) : SpMat K :=
  match s with
  | .simplicialLLT | .simplicialLDLT | .conjugateGradient | .cholmodSupernodalLLT => lowerPart A
  | .mumpsLU => mumpsMatrix A.rows false (mumpsAll A)
  | .mumpsLDLT => mumpsMatrix A.rows true (mumpsUpper A)
  | _ => A

/-- `EigenSparseSolve`, `EigenSparseSolve.cpp:22-73`; `lib s A b` is `SolveWithSolver<s>(A, b)`, which does not look at
`solver.info()`. -/
def eigenSparseSolve (lib : LibSolver → SpMat K → List K → Res (List K)) (b : Build) (name : String) (A : SpMat K)
    (rhs : List K) : Res (List K) :=
  match choose b name with
  | .use s => lib s A rhs
  | .notCompiled => .throw
  | .unknown => .throw

end NuTo.EigenSolve
