import Verif.Model.SpMat

/-!
Assembly of global vectors and matrices: `SimpleAssembler` (OpenMP parallel) and `Assembler`/`VectorAssembler`/
`MatrixAssembler`.

Dof numbers are `int`; sizes of dof types are natural numbers.  Exceptions inside `Integrate` are not modelled.
-/
namespace NuTo

/-- dense `Eigen::MatrixXd` -/
structure DMat (K : Type _) where
  rows : Nat
  cols : Nat
  coef : Nat → Nat → K

/-- `DofMatrix<double>` -/
abbrev DofDMat (K : Type _) := OMap (Nat ×ₗ Nat) (DMat K)

/-- `AddUnique`, DofMatrixContainer.h 96-107 -/
def addUnique (l : List Nat) (d : Nat) : List Nat := if d ∈ l then l else l ++ [d]

/-- one iteration of `DofTypes`, DofMatrixContainer.h 87-91 -/
def dofTypesStep (l : List Nat) (k : Nat ×ₗ Nat) : List Nat := addUnique (addUnique l (ofLex k).1) (ofLex k).2

/-- `DofMatrixContainer::DofTypes`, DofMatrixContainer.h 84-93 -/
def dofTypes2 {α : Type _} (m : OMap (Nat ×ₗ Nat) α) : List Nat := m.keys.foldl dofTypesStep []

/-- `DofMatrixContainer::operator()(d0, d1) const`, DofMatrixContainer.h 21-24 (`at`: throws) -/
def at2 {α : Type _} (m : OMap (Nat ×ₗ Nat) α) (d0 d1 : Nat) : Res α := OMap.at' m (toLex (d0, d1))

namespace Assembly
variable {K : Type _} [Field K]

/-- what a cell delivers for a vector function: `Integrate(f)` and `DofNumbering(dof)` -/
structure VecCell (K : Type _) where
  grad : DofVec K
  numbering : Nat → List Int

/-- what a cell delivers for a matrix function -/
structure MatCell (K : Type _) where
  hess : DofDMat K
  numbering : Nat → List Int

/-- `DofIntersection`, SimpleAssembler.cpp 25-36.  The `continue` only continues the inner loop: a dof type listed twice in
`two` appears twice in the result. -/
def dofIntersection (one two : List Nat) : List Nat :=
  one.flatMap fun d1 => (two.filter fun d2 => d1 = d2).map fun _ => d1

/-- `target(numbers[k]) += vals[k]`, SimpleAssembler.cpp 57 and 91, Assembler.cpp 27-28: unchecked indices -/
def accStep (numbers : List Int) (vals : List K) (target : List K) (k : Nat) : Res (List K) :=
  match numbers[k]?, vals[k]? with
  | some g, some y =>
    Res.require (0 ≤ g ∧ g.toNat < target.length) (.ok (target.set g.toNat (target.getD g.toNat 0 + y)))
  | _, _ => .ub

/-- the loop over the local dofs, SimpleAssembler.cpp 56-57 -/
def accumulate (numbers : List Int) (vals : List K) (target : List K) : Res (List K) :=
  Res.foldlM (accStep numbers vals) target (List.range numbers.length)

/-- SimpleAssembler.cpp 52-58: one dof type of one cell -/
def vecDofStep (c : VecCell K) (v : DofVec K) (d : Nat) : Res (DofVec K) :=
  (c.grad.at' d).bind fun vals =>
    (accumulate (c.numbering d) vals ((v.find? d).getD [])).bind fun x => .ok (v.set d x)

/-- SimpleAssembler.cpp 48-60: one cell -/
def vecCellStep (dofTypes : List Nat) (v : DofVec K) (c : VecCell K) : Res (DofVec K) :=
  Res.foldlM (vecDofStep c) v (dofIntersection c.grad.dofTypes dofTypes)

/-- `DofInfo`, DofInfo.h: number of independent and dependent dofs per dof type -/
structure DofSizes where
  indep : OMap Nat Nat
  dep : OMap Nat Nat

/-- SimpleAssembler.cpp 163: reading both const containers throws if the dof type is missing -/
def DofSizes.size (s : DofSizes) (d : Nat) : Res Nat :=
  (s.indep.at' d).bind fun a => (s.dep.at' d).bind fun b => .ok (a + b)

def resizeStep (s : DofSizes) (v : DofVec K) (d : Nat) : Res (DofVec K) :=
  (s.size d).bind fun n => .ok (v.set d (List.replicate n 0))

/-- `ProperlyResizedVector`, SimpleAssembler.cpp 158-166 -/
def resizedVector (s : DofSizes) (dofTypes : List Nat) : Res (DofVec K) := Res.foldlM (resizeStep s) [] dofTypes

/-- `ThrowOnZeroDofNumbering`, SimpleAssembler.cpp 16-23 -/
def throwOnZero {α : Type _} (s : DofSizes) (dofTypes : List Nat) (r : Res α) : Res α :=
  if ∀ d ∈ dofTypes, (s.indep.find? d).isSome then r else .throw

/-- what one thread computes and merges in the critical section, SimpleAssembler.cpp 45-62 -/
def vecThread (s : DofSizes) (dofTypes : List Nat) (gradient : DofVec K) (cells : List (VecCell K)) : Res (DofVec K) :=
  (resizedVector s dofTypes).bind fun v0 =>
    (Res.foldlM (vecCellStep dofTypes) v0 cells).bind fun loc => gradient.addAssign loc

/-- `BuildVector`, SimpleAssembler.cpp 38-65.  `threads`: for every thread, in the order in which the threads enter the
critical section, the cells it was given, in the order in which it processes them. -/
def buildVector (s : DofSizes) (dofTypes : List Nat) (threads : List (List (VecCell K))) : Res (DofVec K) :=
  throwOnZero s dofTypes <| (resizedVector s dofTypes).bind fun g => Res.foldlM (vecThread s dofTypes) g threads

/-! ### lumped matrix -/

/-- SimpleAssembler.cpp 82-85: scaled diagonal of a block.  Division by a zero diagonal sum gives inf/nan in the code; here
it is the undefined outcome.  `num` is `dof.GetNum()`. -/
def lumpedDiagonal (num : K) [DecidableEq K] (m : DMat K) : Res (List K) :=
  let diag := (List.range (min m.rows m.cols)).map fun i => m.coef i i
  let full := ((List.range m.rows).map fun i => ((List.range m.cols).map fun j => m.coef i j).sum).sum
  Res.require (diag.sum ≠ 0) (.ok (diag.map fun x => x * (full / diag.sum / num)))

/-- SimpleAssembler.cpp 80-92 -/
def lumpDofStep [DecidableEq K] (num : Nat → K) (c : MatCell K) (v : DofVec K) (d : Nat) : Res (DofVec K) :=
  (at2 c.hess d d).bind fun m => (lumpedDiagonal (num d) m).bind fun vals =>
    (accumulate (c.numbering d) vals ((v.find? d).getD [])).bind fun x => .ok (v.set d x)

def lumpCellStep [DecidableEq K] (num : Nat → K) (dofTypes : List Nat) (v : DofVec K) (c : MatCell K) : Res (DofVec K) :=
  Res.foldlM (lumpDofStep num c) v (dofIntersection (dofTypes2 c.hess) dofTypes)

def lumpThread [DecidableEq K] (num : Nat → K) (s : DofSizes) (dofTypes : List Nat) (g : DofVec K)
    (cells : List (MatCell K)) : Res (DofVec K) :=
  (resizedVector s dofTypes).bind fun v0 =>
    (Res.foldlM (lumpCellStep num dofTypes) v0 cells).bind fun loc => g.addAssign loc

/-- `BuildDiagonallyLumpedMatrix`, SimpleAssembler.cpp 67-98 -/
def buildLumped [DecidableEq K] (num : Nat → K) (s : DofSizes) (dofTypes : List Nat) (threads : List (List (MatCell K))) :
    Res (DofVec K) :=
  (resizedVector s dofTypes).bind fun g => Res.foldlM (lumpThread num s dofTypes) g threads

/-! ### matrix -/

/-- triplet lists per pair of dof types (`DofMatrixContainer<TripletList>`) -/
abbrev TripMap (K : Type _) := OMap (Nat ×ₗ Nat) (List (Triplet K))

/-- SimpleAssembler.cpp 124-134 / Assembler.cpp 48-57: the triplets of one block.  Reading outside the block and negative
numbers are undefined (a negative triplet index is undefined at the latest in `setFromTriplets`). -/
def blockTriplets (rowNums colNums : List Int) (m : DMat K) : Res (List (Triplet K)) :=
  Res.require ((∀ g ∈ rowNums, 0 ≤ g) ∧ (∀ g ∈ colNums, 0 ≤ g) ∧ rowNums.length ≤ m.rows ∧ colNums.length ≤ m.cols)
    (.ok ((List.range rowNums.length).flatMap fun i => (List.range colNums.length).map fun j =>
      ⟨(rowNums.getD i 0).toNat, (colNums.getD j 0).toNat, m.coef i j⟩))

/-- non-const `operator()(d0, d1)` then append -/
def appendTriplets (t : TripMap K) (d0 d1 : Nat) (l : List (Triplet K)) : TripMap K :=
  t.set (toLex (d0, d1)) ((t.find? (toLex (d0, d1))).getD [] ++ l)

/-- SimpleAssembler.cpp 119-135 -/
def matPairStep (c : MatCell K) (dI : Nat) (t : TripMap K) (dJ : Nat) : Res (TripMap K) :=
  (at2 c.hess dI dJ).bind fun m => (blockTriplets (c.numbering dI) (c.numbering dJ) m).bind fun l =>
    .ok (appendTriplets t dI dJ l)

def matRowStep (c : MatCell K) (dofs : List Nat) (t : TripMap K) (dI : Nat) : Res (TripMap K) :=
  Res.foldlM (matPairStep c dI) t dofs

/-- SimpleAssembler.cpp 112-138: one cell -/
def matCellStep (dofTypes : List Nat) (t : TripMap K) (c : MatCell K) : Res (TripMap K) :=
  Res.foldlM (matRowStep c (dofIntersection (dofTypes2 c.hess) dofTypes)) t (dofIntersection (dofTypes2 c.hess) dofTypes)

/-- all ordered pairs in loop order -/
def pairs (dofTypes : List Nat) : List (Nat × Nat) := dofTypes.flatMap fun i => dofTypes.map fun j => (i, j)

/-- `splice`, SimpleAssembler.cpp 144: moves the list, the source becomes empty -/
def spliceStep (s : TripMap K × TripMap K) (p : Nat × Nat) : TripMap K × TripMap K :=
  (appendTriplets s.1 p.1 p.2 ((s.2.find? (toLex p)).getD []), s.2.set (toLex p) [])

/-- one thread, SimpleAssembler.cpp 107-147 -/
def matThread (dofTypes : List Nat) (t : TripMap K) (cells : List (MatCell K)) : Res (TripMap K) :=
  (Res.foldlM (matCellStep dofTypes) [] cells).bind fun loc => .ok ((pairs dofTypes).foldl spliceStep (t, loc)).1

/-- SimpleAssembler.cpp 149-154 with `ProperlyResizedMatrix` 168-179 -/
def hessianStep (s : DofSizes) (t : TripMap K) (h : DofSpMat K) (p : Nat × Nat) : Res (DofSpMat K) :=
  (s.size p.1).bind fun nr => (s.size p.2).bind fun nc =>
    (SpMat.setFromTriplets nr nc ((t.find? (toLex p)).getD [])).bind fun m => .ok (h.set (toLex p) m)

/-- `BuildMatrix`, SimpleAssembler.cpp 100-156 -/
def buildMatrix (s : DofSizes) (dofTypes : List Nat) (threads : List (List (MatCell K))) : Res (DofSpMat K) :=
  throwOnZero s dofTypes <| (Res.foldlM (matThread dofTypes) [] threads).bind fun t =>
    Res.foldlM (hessianStep s t) [] (pairs dofTypes)

end Assembly

/-! ### VectorAssembler, MatrixAssembler -/
namespace MatrixAssembler
variable {K : Type _} [Field K]
open Assembly

/-- `AvailableDofTypes`, Assembler.cpp 4-18 -/
def availableDofTypes (n : OMap Nat (List Int)) (dofTypes : List Nat) : List Nat :=
  if dofTypes = [] then n.keys else dofIntersection n.keys dofTypes

/-- state of a `MatrixAssembler`, Assembler.h -/
structure State (K : Type _) where
  triplets : TripMap K
  matrix : DofSpMat K
  finished : Bool

def init : State K := ⟨[], [], false⟩

/-- Assembler.cpp 43-57 -/
def addPairTriplets (m : DofDMat K) (n : OMap Nat (List Int)) (t : TripMap K) (p : Nat × Nat) : Res (TripMap K) :=
  (at2 m p.1 p.2).bind fun b => (n.at' p.1).bind fun r => (n.at' p.2).bind fun c =>
    (blockTriplets r c b).bind fun l => .ok (appendTriplets t p.1 p.2 l)

/-- Assembler.cpp 70-85: `coeffRef(r, c) += value`.  The non-const block access creates an empty 0x0 matrix if absent; a
position outside the matrix is undefined.  Adding to a coefficient is appending an entry. -/
def addPairMatrix (m : DofDMat K) (n : OMap Nat (List Int)) (h : DofSpMat K) (p : Nat × Nat) : Res (DofSpMat K) :=
  (at2 m p.1 p.2).bind fun b => (n.at' p.1).bind fun r => (n.at' p.2).bind fun c =>
    (blockTriplets r c b).bind fun l =>
      let old := (h.find? (toLex p)).getD ⟨0, 0, []⟩
      Res.require (∀ t ∈ l, t.row < old.rows ∧ t.col < old.cols) (.ok (h.set (toLex p) ⟨old.rows, old.cols, old.entries ++ l⟩))

inductive Call (K : Type _) where
  | resize (sizes : OMap Nat Nat)
  | add (m : DofDMat K) (numbering : OMap Nat (List Int)) (dofTypes : List Nat)
  | setZero
  | finish

def resizeStep (sizes : OMap Nat Nat) (h : DofSpMat K) (p : Nat × Nat) : Res (DofSpMat K) :=
  (sizes.at' p.1).bind fun r => (sizes.at' p.2).bind fun c => .ok (h.set (toLex p) ⟨r, c, []⟩)

/-- `setZero()` on every pair of dof types; the non-const access creates missing blocks as 0x0 -/
def setZeroStep (h : DofSpMat K) (p : Nat × Nat) : DofSpMat K :=
  let old := (h.find? (toLex p)).getD ⟨0, 0, []⟩
  h.set (toLex p) ⟨old.rows, old.cols, []⟩

/-- Assembler.cpp 158-167: state = (triplets, matrix) -/
def finishStep (s : TripMap K × DofSpMat K) (p : Nat × Nat) : Res (TripMap K × DofSpMat K) :=
  let l := (s.1.find? (toLex p)).getD []
  let old := (s.2.find? (toLex p)).getD ⟨0, 0, []⟩
  (SpMat.setFromTriplets old.rows old.cols l).bind fun m => .ok (s.1.set (toLex p) [], s.2.set (toLex p) m)

/-- one call: `Resize` Assembler.cpp 121-130, `Add` 133-141, `SetZero` 144-149, `Finish` 151-169 -/
def call (s : State K) : Call K → Res (State K)
  | .resize sizes =>
    if s.finished then .throw
    else (Res.foldlM (resizeStep sizes) s.matrix (pairs sizes.keys)).bind fun h => .ok { s with matrix := h }
  | .add m n dofTypes =>
    if s.finished then
      (Res.foldlM (addPairMatrix m n) s.matrix (pairs (availableDofTypes n dofTypes))).bind fun h => .ok { s with matrix := h }
    else
      (Res.foldlM (addPairTriplets m n) s.triplets (pairs (availableDofTypes n dofTypes))).bind fun t =>
        .ok { s with triplets := t }
  | .setZero => .ok { s with matrix := (pairs (dofTypes2 s.matrix)).foldl setZeroStep s.matrix }
  | .finish =>
    if s.finished then .ok s
    else (Res.foldlM finishStep (s.triplets, s.matrix) (pairs (dofTypes2 s.matrix))).bind fun r => .ok ⟨r.1, r.2, true⟩

/-- `Get`, Assembler.cpp 171-176 -/
def get (s : State K) : Res (DofSpMat K) := if s.finished then .ok s.matrix else .throw

/-- a history of calls -/
def run (cs : List (Call K)) : Res (State K) := Res.foldlM call init cs

end MatrixAssembler

namespace VectorAssembler
variable {K : Type _} [Field K]
open Assembly MatrixAssembler

inductive Call (K : Type _) where
  | resize (sizes : OMap Nat Nat)
  | add (v : DofVec K) (numbering : OMap Nat (List Int)) (dofTypes : List Nat)
  | setZero

def resizeStep (s : DofVec K) (e : Nat × Nat) : DofVec K := s.set e.1 (List.replicate e.2 0)

/-- Assembler.cpp 23-29: `rVector[dofType][g] += v[dofType][l]`.  A missing block of `v` is reported by `at` only if there is
a local dof. -/
def addStep (v : DofVec K) (n : OMap Nat (List Int)) (s : DofVec K) (d : Nat) : Res (DofVec K) :=
  (n.at' d).bind fun nums => if nums = [] then .ok s else
    (v.at' d).bind fun vals => (accumulate nums vals ((s.find? d).getD [])).bind fun x => .ok (s.set d x)

/-- `Resize` Assembler.cpp 93-97, `Add` 99-103, `SetZero` 105-109 -/
def call (s : DofVec K) : Call K → Res (DofVec K)
  | .resize sizes => .ok (sizes.foldl resizeStep s)
  | .add v n dofTypes => Res.foldlM (addStep v n) s (availableDofTypes n dofTypes)
  | .setZero => .ok s.setZero

def run (cs : List (Call K)) : Res (DofVec K) := Res.foldlM call [] cs

end VectorAssembler
end NuTo
