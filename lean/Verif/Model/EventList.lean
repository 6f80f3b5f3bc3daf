import Verif.Model.Basic
import Mathlib.Order.Defs.LinearOrder
import Mathlib.Algebra.Order.Ring.Defs

/-!
The event queue of the collision simulation: `nuto/geometryConcrete/collision/Event.cpp` and
`nuto/geometryConcrete/collision/handler/EventListHandler.cpp`.
Times are elements of a linear order (no NaN).  `A` is the type of the addresses of collidables, with the order of the
built-in `<` on pointers.
-/
namespace NuTo.Collision

/-- `nuto/geometryConcrete/collision/Event.h`: members `mFirst`, `mSecond`, `mTime`, `mType` -/
structure Event (K A : Type) where
  time : K
  first : A
  second : A
  type : Nat
deriving DecidableEq

section order
variable {K A : Type} [LinearOrder K] [LinearOrder A]

/-- `Event::operator<`, `nuto/geometryConcrete/collision/Event.cpp:73-95` -/
def Event.lt (a b : Event K A) : Bool :=
  if a.time ≠ b.time then decide (a.time < b.time)
  else
    let smaller1 := if a.first < a.second then a.first else a.second
    let smaller2 := if b.first < b.second then b.first else b.second
    if smaller1 ≠ smaller2 then decide (smaller1 > smaller2)
    else
      let bigger1 := if a.first < a.second then a.second else a.first
      let bigger2 := if b.first < b.second then b.second else b.first
      decide (bigger1 > bigger2)

/-- `Event::operator==`, `nuto/geometryConcrete/collision/Event.cpp:97-111` -/
def Event.eq (a b : Event K A) : Bool :=
  if a.time ≠ b.time then false
  else if a.first = b.first ∧ a.second = b.second then true
  else if a.first = b.second ∧ a.second = b.first then true
  else false

/-- `std::set<Event>::insert` on the in-order sequence of the elements, each with the address of its node; `none` if an
equivalent element is present.  (For a comparison that is a strict weak order the descent in the search tree finds the
same place as this linear search.) -/
def insertSet (id : Nat) (e : Event K A) : List (Nat × Event K A) → Option (List (Nat × Event K A))
  | [] => some [(id, e)]
  | x :: xs =>
    if e.lt x.2 then some ((id, e) :: x :: xs)
    else if x.2.lt e then (insertSet id e xs).map (x :: ·)
    else none

/-- The elements `std::set<Event>::erase(key)` removes: those equivalent to the key. -/
def equiv (a b : Event K A) : Bool := !a.lt b && !b.lt a

end order

/-- The queue `mEvents` and the local lists `CollidableBase::mLocalEvents` (vectors of pointers).  `next` stands for the
allocator: every node gets an address that was not used before, so a pointer that is not in the queue is dangling.
(In a real run an address may be reused; a dangling pointer may then point to another event.) -/
structure EventList (K A : Type) where
  queue : List (Nat × Event K A)
  loc : A → List Nat
  next : Nat
  barrier : K

section ops
variable {K A : Type} [LinearOrder K] [LinearOrder A]

/-- `Event::~Event`, `nuto/geometryConcrete/collision/Event.cpp:25-35` for the event at address `id`.
The destructor also runs for the temporary in `AddEvent` and for `nextEventCopy`; their addresses are in no local
list. -/
def destroy (loc : A → List Nat) (x : Nat × Event K A) : A → List Nat := fun c =>
  if c = x.2.first ∨ c = x.2.second then (loc c).filter (· ≠ x.1) else loc c

/-- `Event::AddLocalEvent`, `nuto/geometryConcrete/collision/Event.cpp:118-122` -/
def addLocal (loc : A → List Nat) (id : Nat) (e : Event K A) : A → List Nat :=
  let loc1 : A → List Nat := fun c => if c = e.first then loc c ++ [id] else loc c
  fun c => if c = e.second then loc1 c ++ [id] else loc1 c

/-- Arguments of `AddEvent`. -/
structure Request (K A : Type) where
  time : K
  collidable1 : A
  collidable2 : A
  type : Nat
deriving DecidableEq

/-- `EventListHandler::AddEvent`, `EventListHandler.cpp:52-66`; the partners are swapped there -/
def addEvent [Zero K] (s : EventList K A) (r : Request K A) : EventList K A :=
  if r.time < 0 ∨ r.time > s.barrier then s
  else
    let e : Event K A := ⟨r.time, r.collidable2, r.collidable1, r.type⟩
    match insertSet s.next e s.queue with
    | none => s
    | some q => { s with queue := q, next := s.next + 1, loc := addLocal s.loc s.next e }

/-- One step of `EventListHandler::DeleteOldEvents`, `EventListHandler.cpp:70-71`: `*oldEvent` needs a live event -/
def deleteOne (s : EventList K A) (id : Nat) : Res (EventList K A) :=
  match s.queue.find? (fun x => x.1 = id) with
  | none => .ub
  | some x => .ok { s with
      queue := s.queue.filter fun y => !equiv y.2 x.2
      loc := (s.queue.filter fun y => equiv y.2 x.2).foldl destroy s.loc }

/-- `EventListHandler::DeleteOldEvents`, `EventListHandler.cpp:68-72` -/
def deleteOldEvents (s : EventList K A) (old : List Nat) : Res (EventList K A) := Res.foldlM deleteOne s old

/-- `GetLocalEventsToDelete`: `CollidableParticleSphere.cpp:216-222` for spheres, `CollidableWallBase.h:83-85` for
walls -/
def localEventsToDelete (isSphere : A → Bool) (s : EventList K A) (c : A) : List Nat :=
  if isSphere c then s.loc c else []

/-- `Event::EraseOldEvents`, `nuto/geometryConcrete/collision/Event.cpp:58-71` -/
def eraseOldEvents (isSphere : A → Bool) (s : EventList K A) (e : Event K A) : Res (EventList K A) :=
  deleteOldEvents s (localEventsToDelete isSphere s e.first ++ localEventsToDelete isSphere s e.second)

/-- `EventListHandler::PerformNextEvent`, `EventListHandler.cpp:111-142`.  The collision itself changes velocities only;
the events `AddNewEvents` finds depend on positions and velocities and are an arbitrary list here.  Dereferencing
`begin()` of an empty set is undefined. -/
def performNextEvent [Zero K] (isSphere : A → Bool) (s : EventList K A) (new : List (Request K A)) :
    Res (EventList K A) :=
  match s.queue with
  | [] => .ub
  | x :: _ => (eraseOldEvents isSphere s x.2).bind fun s' => .ok (new.foldl addEvent s')

/-- `EventListHandler::Clear`, `EventListHandler.cpp:47-50` -/
def clear (s : EventList K A) : EventList K A :=
  { s with queue := [], loc := s.queue.foldl destroy s.loc }

/-- `EventListHandler::SetTimeBarrier`, `EventListHandler.cpp:144-178` with the requests the boxes make -/
def setTimeBarrier [Zero K] (s : EventList K A) (barrier : K) (new : List (Request K A)) : EventList K A :=
  new.foldl addEvent { clear s with barrier := barrier }

/-- `EventListHandler::GetNextEventTime`, `EventListHandler.cpp:74-80` -/
def nextEventTime [Zero K] [One K] [Neg K] (s : EventList K A) : K :=
  match s.queue with
  | [] => -1
  | x :: _ => x.2.time

/-- `EventListHandler::EventListHandler`, `EventListHandler.cpp:19-30` -/
def EventList.initial [Zero K] : EventList K A := ⟨[], fun _ => [], 0, 0⟩

/-- The calls a user of the list makes. -/
inductive Op (K A : Type) where
  | add (r : Request K A)
  | perform (new : List (Request K A))
  | setBarrier (barrier : K) (new : List (Request K A))
  | clear

def step [Zero K] (isSphere : A → Bool) (s : EventList K A) : Op K A → Res (EventList K A)
  | .add r => .ok (addEvent s r)
  | .perform new => performNextEvent isSphere s new
  | .setBarrier b new => .ok (setTimeBarrier s b new)
  | .clear => .ok (clear s)

end ops

end NuTo.Collision
