/-!
Model of `NuTo::Group` (/repo/nuto/base/Group.h).
Items are identified by their address, a natural number (the container stores and compares pointers only).
-/
namespace NuTo

/-- `std::lower_bound` on a random access range, as the usual bisection: `first` and the remaining length `len`.
Used by Group.h 26 and 37.  `getD` is only evaluated at indices `< first + len ≤ size`. -/
def lowerBoundAux (a : List Nat) (x : Nat) (first len : Nat) : Nat :=
  if h : len = 0 then first
  else
    let half := len / 2
    if a.getD (first + half) 0 < x then lowerBoundAux a x (first + half + 1) (len - half - 1)
    else lowerBoundAux a x first half
termination_by len
decreasing_by all_goals omega

/-- `std::lower_bound(mData.begin(), mData.end(), &element)`; Group.h 26, 37. -/
def lowerBound (a : List Nat) (x : Nat) : Nat := lowerBoundAux a x 0 a.length

/-- `SortedUniqueVector::Add`, Group.h 24-33: the new vector and whether the element was added. -/
def sortedAdd (a : List Nat) (x : Nat) : List Nat × Bool :=
  let it := lowerBound a x
  if a[it]? = some x then (a, false)          -- `it != end` and `*it == &element`
  else (a.insertIdx it x, true)

/-- `SortedUniqueVector::Contains`, Group.h 35-41. -/
def sortedContains (a : List Nat) (x : Nat) : Bool :=
  a[lowerBound a x]? == some x

/-- `Group<T>`, Group.h 135-139: items in chronological order, and the sorted index. -/
structure Group where
  data : List Nat
  index : List Nat
deriving DecidableEq, Repr

namespace Group

/-- default constructor, Group.h 55 -/
def empty : Group := ⟨[], []⟩

/-- `Add`, Group.h 85-89 -/
def add (g : Group) (x : Nat) : Group :=
  let r := sortedAdd g.index x
  if r.2 then ⟨g.data ++ [x], r.1⟩ else ⟨g.data, r.1⟩

/-- constructor from an initializer list, Group.h 67-71 (one element: Group.h 59-62) -/
def ofList (xs : List Nat) : Group := xs.foldl add empty

/-- `Contains`, Group.h 93-96 -/
def contains (g : Group) (x : Nat) : Bool := sortedContains g.index x

/-- `Size`, Group.h 105-108 -/
def size (g : Group) : Nat := g.data.length

/-- `Unite` of two groups, Group.h 144-150 -/
def unite (one two : Group) : Group := two.data.foldl add one

/-- variadic `Unite`, Group.h 154-157: right fold over at least two groups (`one`, then `args`).
With a single remaining argument the overload resolution ends at the two argument version. -/
def uniteMany (one : Group) : List Group → Group
  | [] => one
  | two :: rest => unite one (uniteMany two rest)

/-- `Difference`, Group.h 161-168 -/
def difference (one two : Group) : Group :=
  one.data.foldl (fun g t => if two.contains t then g else g.add t) empty

/-- `Intersection`, Group.h 172-179 -/
def intersection (one two : Group) : Group :=
  one.data.foldl (fun g t => if two.contains t then g.add t else g) empty

/-- `SymmetricDifference`, Group.h 184-187 -/
def symmetricDifference (one two : Group) : Group :=
  difference (unite one two) (intersection one two)

end Group
end NuTo
