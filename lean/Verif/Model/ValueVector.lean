import Verif.Model.Basic
import Mathlib.Logic.Function.Basic

/-!
Model of `ValueVector` (/repo/nuto/base/ValueVector.h), the container of the nodes and elements of a mesh.

A program has any number of containers and a heap of values.  A container is the `std::vector<std::unique_ptr<T>>` in it: a list of addresses
in a buffer with some capacity.  A reference `T&` is the address of the value; using one whose value is gone is undefined.  The growth of the
capacity is a parameter, as the standard does not fix it.  A moved-from vector is empty, and a vector that is moved to itself as well (as in
libstdc++, bits/stl_vector.h `_M_move_assign`).
-/
namespace NuTo
namespace ValueVector

/-- `mData`: the pointers, the number of the buffer they are in and its capacity -/
structure Vec where
  data : List Nat
  buffer : Nat
  capacity : Nat

/-- The state of a program: the values on the heap, the first unused address and buffer number, and the containers -/
structure State (T : Type) where
  value : Nat → Option T
  nextAddress : Nat
  nextBuffer : Nat
  vec : Nat → Option Vec

variable {T : Type}

/-- using a reference -/
def read (s : State T) (a : Nat) : Res T :=
  match s.value a with
  | some t => .ok t
  | none => .ub

/-- assigning to a reference -/
def write (s : State T) (a : Nat) (t : T) : Res (State T) :=
  match s.value a with
  | some _ => .ok { s with value := Function.update s.value a (some t) }
  | none => .ub

/-- `delete` in the destructor of `std::unique_ptr`; a second `delete` is undefined -/
def delete (value : Nat → Option T) (a : Nat) : Res (Nat → Option T) :=
  match value a with
  | some _ => .ok (Function.update value a none)
  | none => .ub

/-- the destructors of a list of pointers -/
def deleteAll (value : Nat → Option T) (as : List Nat) : Res (Nat → Option T) := Res.foldlM delete value as

/-- Access to a container; it has to exist -/
def get (s : State T) (v : Nat) : Res Vec :=
  match s.vec v with
  | some d => .ok d
  | none => .ub

/-- the constructor -/
def construct (s : State T) (v : Nat) : Res (State T) :=
  match s.vec v with
  | some _ => .ub
  | none => .ok { s with vec := Function.update s.vec v (some ⟨[], s.nextBuffer, 0⟩), nextBuffer := s.nextBuffer + 1 }

/-- `Add`, ValueVector.h 24-35: a new value on the heap, and its address at the end of the vector.  If the capacity is used up the pointers
move to a new buffer.  Returns the reference `*mData.back()`. -/
def add (growth : Nat → Nat) (s : State T) (v : Nat) (t : T) : Res (State T × Nat) :=
  (get s v).bind fun d =>
    let a := s.nextAddress
    let d' := if d.data.length < d.capacity then { d with data := d.data ++ [a] } else ⟨d.data ++ [a], s.nextBuffer, growth d.capacity⟩
    .ok (⟨Function.update s.value a (some t), a + 1, s.nextBuffer + 1, Function.update s.vec v (some d')⟩, a)

/-- `operator[]`, ValueVector.h 62-69: no check of the range -/
def at_ (s : State T) (v : Nat) (i : Int) : Res Nat :=
  (get s v).bind fun d => if i < 0 then .ub else match d.data[i.toNat]? with
    | some a => .ok a
    | none => .ub

/-- `Size`, ValueVector.h 57-60 -/
def size (s : State T) (v : Nat) : Res Nat := (get s v).bind fun d => .ok d.data.length

/-- `std::move(last, end, first)` inside of `vector::erase` and the destruction of the rest: every pointer of the tail is moved over the
first pointer of the gap; the value there dies if the slot still owned one (slots behind the gap have been moved from and are empty).
Returns the heap and the new tail. -/
def moveDown (value : Nat → Option T) : (gap tail : List Nat) → Res ((Nat → Option T) × List Nat)
  | gap, [] => (deleteAll value gap).bind fun h => .ok (h, [])
  | [], y :: tail => (moveDown value [] tail).bind fun r => .ok (r.1, y :: r.2)
  | g :: gap, y :: tail => (delete value g).bind fun h => (moveDown h gap tail).bind fun r => .ok (r.1, y :: r.2)

/-- An iterator: buffer and position -/
structure Iter where
  buffer : Nat
  pos : Nat
deriving DecidableEq

/-- `begin` and `end`, ValueVector.h 37-55 -/
def begin_ (s : State T) (v : Nat) : Res Iter := (get s v).bind fun d => .ok ⟨d.buffer, 0⟩
@[inherit_doc begin_] def end_ (s : State T) (v : Nat) : Res Iter := (get s v).bind fun d => .ok ⟨d.buffer, d.data.length⟩

/-- `*it` of the indirect iterator: the reference; undefined if the buffer is no longer the one of the container or at the end -/
def deref (s : State T) (v : Nat) (it : Iter) : Res Nat :=
  (get s v).bind fun d => if it.buffer = d.buffer then
    match d.data[it.pos]? with
    | some a => .ok a
    | none => .ub
    else .ub

/-- `Erase(from, to)`, ValueVector.h 76-79 -/
def eraseRange (s : State T) (v : Nat) (first last : Iter) : Res (State T × Iter) :=
  (get s v).bind fun d =>
    if first.buffer = d.buffer ∧ last.buffer = d.buffer ∧ first.pos ≤ last.pos ∧ last.pos ≤ d.data.length then
      if first.pos = last.pos then .ok (s, first) else
      (moveDown s.value ((d.data.take last.pos).drop first.pos) (d.data.drop last.pos)).bind fun r =>
        .ok ({ s with value := r.1, vec := Function.update s.vec v (some { d with data := d.data.take first.pos ++ r.2 }) }, first)
    else .ub

/-- `Erase(it)`, ValueVector.h 71-74; the iterator must not be the end -/
def erase (s : State T) (v : Nat) (it : Iter) : Res (State T × Iter) :=
  (get s v).bind fun d =>
    if it.buffer = d.buffer ∧ it.pos < d.data.length then
      (moveDown s.value ((d.data.drop it.pos).take 1) (d.data.drop (it.pos + 1))).bind fun r =>
        .ok ({ s with value := r.1, vec := Function.update s.vec v (some { d with data := d.data.take it.pos ++ r.2 }) }, it)
    else .ub

/-- the destructor -/
def destroy (s : State T) (v : Nat) : Res (State T) :=
  (get s v).bind fun d => (deleteAll s.value d.data).bind fun h => .ok { s with value := h, vec := Function.update s.vec v none }

/-- the move constructor (`MeshFem(MeshFem&&) = default`, /repo/nuto/mechanics/mesh/MeshFem.h 24): takes the buffer -/
def moveConstruct (s : State T) (target source : Nat) : Res (State T) :=
  (get s source).bind fun d =>
    match s.vec target with
    | some _ => .ub
    | none => .ok { s with
        vec := Function.update (Function.update s.vec source (some ⟨[], s.nextBuffer, 0⟩)) target (some d), nextBuffer := s.nextBuffer + 1 }

/-- the move assignment (`operator=(MeshFem&&) = default`, MeshFem.h 25): takes the buffer, the old values of the target die -/
def moveAssign (s : State T) (target source : Nat) : Res (State T) :=
  (get s source).bind fun d => (get s target).bind fun old => (deleteAll s.value old.data).bind fun h =>
    .ok { s with value := h, nextBuffer := s.nextBuffer + 1,
                 vec := Function.update (Function.update s.vec target (some d)) source (some ⟨[], s.nextBuffer, 0⟩) }

/-- What a program can do -/
inductive Op (T : Type) where
  | construct (v : Nat)
  | add (v : Nat) (t : T)
  | write (a : Nat) (t : T)
  | erase (v : Nat) (it : Iter)
  | eraseRange (v : Nat) (first last : Iter)
  | destroy (v : Nat)
  | moveConstruct (target source : Nat)
  | moveAssign (target source : Nat)

/-- one operation -/
def step (growth : Nat → Nat) (s : State T) : Op T → Res (State T)
  | .construct v => construct s v
  | .add v t => (add growth s v t).bind fun r => .ok r.1
  | .write a t => write s a t
  | .erase v it => (erase s v it).bind fun r => .ok r.1
  | .eraseRange v first last => (eraseRange s v first last).bind fun r => .ok r.1
  | .destroy v => destroy s v
  | .moveConstruct t u => moveConstruct s t u
  | .moveAssign t u => moveAssign s t u

/-- a program -/
def run (growth : Nat → Nat) (s : State T) (ops : List (Op T)) : Res (State T) := Res.foldlM (step growth) s ops

/-- the start of the program -/
def start : State T := ⟨fun _ => none, 0, 0, fun _ => none⟩

end ValueVector
end NuTo
