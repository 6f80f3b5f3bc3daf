import Verif.Model.Basic
import Mathlib.Algebra.Field.Defs

/-!
Model of `DofContainer`, `DofVector` and the conversion to flat vectors.
Dof types are represented by their id (`CompareDofType`, /repo/nuto/mechanics/dofs/DofType.h 38-44).
-/
namespace NuTo

/-- The loop shared by `operator+=`, `operator-=`, `AddScaled` of `DofVector` and `DofMatrixContainer`
(DofVector.h 35-45, 48-58, 126-135; DofMatrixContainer.h 27-37, 61-70):
for each entry of `rhs`: if the key exists combine in place (`F`, defined only if the sizes fit: `P`), else store `g entry`. -/
def OMap.mergeStep {κ α : Type _} [LinearOrder κ] (P : α → α → Prop) [∀ x y, Decidable (P x y)]
    (F : α → α → α) (g : α → α) (m : OMap κ α) (e : κ × α) : Res (OMap κ α) :=
  match m.find? e.1 with
  | some x => Res.require (P x e.2) (.ok (m.set e.1 (F x e.2)))
  | none => .ok (m.set e.1 (g e.2))

/-- the complete loop over the entries of `rhs` -/
def OMap.mergeWith {κ α : Type _} [LinearOrder κ] (P : α → α → Prop) [∀ x y, Decidable (P x y)]
    (F : α → α → α) (g : α → α) (m rhs : OMap κ α) : Res (OMap κ α) :=
  Res.foldlM (OMap.mergeStep P F g) m rhs

/-- `DofVector<T>`, DofVector.h 12-149: a `std::map` from dof id to a dynamic vector -/
abbrev DofVec (K : Type _) := OMap Nat (List K)

namespace DofVec
variable {K : Type _} [Field K]

def SameSize (x y : List K) : Prop := x.length = y.length
instance (x y : List K) : Decidable (SameSize x y) := inferInstanceAs (Decidable (_ = _))

/-- `operator+=`, DofVector.h 35-45 (Eigen's vector `+=` needs equal sizes) -/
def addAssign (a b : DofVec K) : Res (DofVec K) :=
  OMap.mergeWith SameSize (List.zipWith (· + ·)) id a b

/-- `operator-=`, DofVector.h 48-58 -/
def subAssign (a b : DofVec K) : Res (DofVec K) :=
  OMap.mergeWith SameSize (List.zipWith (· - ·)) (List.map (- ·)) a b

/-- `operator*=`, DofVector.h 60-65 -/
def mulAssign (a : DofVec K) (s : K) : DofVec K := a.map fun e => (e.1, e.2.map (· * s))

/-- `AddScaled`, DofVector.h 126-135 -/
def addScaled (a b : DofVec K) (s : K) : Res (DofVec K) :=
  OMap.mergeWith SameSize (List.zipWith (fun x y => x + y * s)) (List.map (· * s)) a b

/-- `SetZero`, DofVector.h 96-102 -/
def setZero (a : DofVec K) : DofVec K := a.map fun e => (e.1, e.2.map fun _ => 0)

/-- `operator()(dof, globalDofNumbers)`, DofVector.h 104-111 (and 91-94): throws for an unknown dof type, reads out of
bounds for a number outside the block (negative or too large). -/
def get (a : DofVec K) (d : Nat) (numbers : List Int) : Res (List K) :=
  numbers.foldr (fun (n : Int) (acc : Res (List K)) => (a.at' d).bind fun x =>
      if n < 0 then .ub else match x[n.toNat]? with
        | some y => acc.bind fun ys => .ok (y :: ys)
        | none => .ub) (.ok [])

/-- `DofTypes`, DofVector.h 137-143 -/
def dofTypes (a : DofVec K) : List Nat := a.keys

/-- `TotalRows`, DofVectorConvertEigen.h 8-14 -/
def totalRows (v : DofVec K) (dofs : List Nat) : Res Nat :=
  Res.foldlM (fun n d => (v.at' d).bind fun x => .ok (n + x.length)) 0 dofs

/-- writing `x` to `combined.segment(start, x.rows())`; out of range segments are undefined -/
def writeSegment (combined : List K) (start : Nat) (x : List K) : Res (List K) :=
  Res.require (start + x.length ≤ combined.length)
    (.ok (combined.take start ++ x ++ combined.drop (start + x.length)))

/-- `ToEigen`, DofVectorConvertEigen.h 22-34: allocate `TotalRows` entries (content unspecified, here 0), then write the
blocks one after the other at a running start row. -/
def toEigen (v : DofVec K) (dofs : List Nat) : Res (List K) :=
  (v.totalRows dofs).bind fun n =>
    (Res.foldlM (fun (s : List K × Nat) d => (v.at' d).bind fun x =>
      (writeSegment s.1 s.2 x).bind fun c => .ok (c, s.2 + x.length)) (List.replicate n (0 : K), 0) dofs).bind
    fun s => .ok s.1

/-- `FromEigen`, DofVectorConvertEigen.h 41-53.  The `assert` of the total number of rows (which calls `at` for every dof
type) is a precondition: if it does not hold the outcome is undefined. -/
def fromEigen (source : List K) (dofs : List Nat) (dest : DofVec K) : Res (DofVec K) :=
  match dest.totalRows dofs with
  | .ok n =>
    Res.require (n = source.length) <|
    (Res.foldlM (fun (s : DofVec K × Nat) d =>
      let rows := ((s.1.find? d).getD []).length        -- non-const `operator[]`: default constructs an empty vector
      Res.require (s.2 + rows ≤ source.length)
        (.ok (s.1.set d ((source.drop s.2).take rows), s.2 + rows))) (dest, 0) dofs).bind
    fun s => .ok s.1
  | _ => .ub

end DofVec

/-- Operations on a `DofContainer<T>` -/
inductive DofContainerOp (α : Type _) where
  | insert (d : Nat) (a : α)      -- Insert
  | write (d : Nat) (a : α)       -- container[d] = a
  | touch (d : Nat)               -- reading through the non-const operator[]
  | writeAt (d : Nat) (a : α)     -- container.At(d) = a
  | read (d : Nat)                -- const operator[]
  | has (d : Nat)                 -- Has
deriving Repr

/-- what the caller observes -/
inductive DofContainerOut (α : Type _) where
  | done
  | threw
  | value (a : α)
  | bool (b : Bool)
deriving DecidableEq, Repr

/-- One call, DofContainer.h: `operator[]` 21-24, `At` 31-34, const `operator[]` 39-42, `Insert` 47-53, `Has` 55-58.
`dflt` is the default constructed value. -/
def DofContainer.step {α : Type _} (dflt : α) (m : OMap Nat α) : DofContainerOp α → OMap Nat α × DofContainerOut α
  | .insert d a => match m.find? d with
      | some _ => (m, .threw)                           -- emplace does not overwrite
      | none => (m.set d a, .done)
  | .write d a => (m.set d a, .done)
  | .touch d => match m.find? d with
      | some a => (m, .value a)
      | none => (m.set d dflt, .value dflt)
  | .writeAt d a => match m.find? d with
      | some _ => (m.set d a, .done)
      | none => (m, .threw)
  | .read d => match m.find? d with
      | some a => (m, .value a)
      | none => (m, .threw)
  | .has d => (m, .bool (m.find? d).isSome)

/-- run a history of calls, collecting the observations -/
def DofContainer.run {α : Type _} (dflt : α) : OMap Nat α → List (DofContainerOp α) → OMap Nat α × List (DofContainerOut α)
  | m, [] => (m, [])
  | m, op :: ops =>
    let r := DofContainer.step dflt m op
    let rs := DofContainer.run dflt r.1 ops
    (rs.1, r.2 :: rs.2)

/-- `DofType` objects: id, name, number of components.  DofType.h 8-34, UniqueId.h 10-25 -/
structure DofType where
  id : Nat
  name : String
  num : Int
deriving DecidableEq, Repr

/-- events that create dof type objects -/
inductive DofTypeEvent where
  | construct (name : String) (num : Int)   -- DofType(name, num)
  | copy (i : Nat)                          -- copy of the i-th live object (copies keep the id)
deriving Repr

/-- state: the static `mIdCounter` (UniqueId.h 22-27) and the objects created so far.
Simplification: the counter is unbounded (an `int` in the code). -/
structure DofTypeWorld where
  counter : Nat
  objects : List DofType
deriving DecidableEq, Repr

/-- DofType.h 11-19: the base class constructor runs first (`mId(mIdCounter++)`, UniqueId.h 13-16), then the checks throw.
The flag reports an exception. -/
def DofTypeWorld.step (w : DofTypeWorld) : DofTypeEvent → DofTypeWorld × Bool
  | .construct name num =>
    if name.isEmpty ∨ num ≤ 0 then (⟨w.counter + 1, w.objects⟩, true)
    else (⟨w.counter + 1, w.objects ++ [⟨w.counter, name, num⟩]⟩, false)
  | .copy i => match w.objects[i]? with
    | some o => (⟨w.counter, w.objects ++ [o]⟩, false)
    | none => (w, false)        -- no such object: not a call

def DofTypeWorld.run (w : DofTypeWorld) (es : List DofTypeEvent) : DofTypeWorld :=
  es.foldl (fun w e => (w.step e).1) w

end NuTo
