import Mathlib.Order.Defs.LinearOrder
import Mathlib.Data.Nat.Basic

/-!
Shared modelling vocabulary: outcomes of C++ calls and `std::map`.
-/
namespace NuTo

/-- Outcome of a C++ call: a value, a `NuTo::Exception` (or `std::out_of_range`), or a state the code does not define
(failed `assert`, out of bounds access, mismatched Eigen sizes, use after free).  In a release build an `assert` is not
evaluated and the following access is undefined, so both are one outcome. -/
inductive Res (α : Type _) where
  | ok (a : α)
  | throw
  | ub
deriving DecidableEq, Repr

namespace Res

def bind {α β : Type _} : Res α → (α → Res β) → Res β
  | ok a, f => f a
  | throw, _ => throw
  | ub, _ => ub

instance : Monad Res where
  pure := ok
  bind := bind

variable {α β : Type _}

@[simp] theorem bind_ok (a : α) (f : α → Res β) : (Res.ok a >>= f) = f a := rfl
@[simp] theorem bind_throw (f : α → Res β) : (Res.throw >>= f) = Res.throw := rfl
@[simp] theorem bind_ub (f : α → Res β) : (Res.ub >>= f) = Res.ub := rfl
@[simp] theorem pure_eq (a : α) : (pure a : Res α) = Res.ok a := rfl

/-- run a loop body over a list, stopping at the first exception / undefined step -/
def foldlM (f : β → α → Res β) : β → List α → Res β
  | b, [] => ok b
  | b, a :: as => (f b a).bind fun b' => foldlM f b' as

@[simp] theorem foldlM_nil (f : β → α → Res β) (b : β) : foldlM f b [] = ok b := rfl
@[simp] theorem foldlM_cons (f : β → α → Res β) (b : β) (a : α) (as : List α) :
    foldlM f b (a :: as) = (f b a).bind fun b' => foldlM f b' as := rfl
@[simp] theorem bind_ok' (a : α) (f : α → Res β) : (Res.ok a).bind f = f a := rfl
@[simp] theorem bind_throw' (f : α → Res β) : (Res.throw).bind f = Res.throw := rfl
@[simp] theorem bind_ub' (f : α → Res β) : (Res.ub).bind f = Res.ub := rfl

/-- `assert(c)` and size checks of Eigen -/
def require (c : Prop) [Decidable c] (r : Res α) : Res α := if c then r else ub

end Res

/-- `std::map<κ, α>` as its in-order sequence of entries (strictly increasing keys). -/
abbrev OMap (κ α : Type _) := List (κ × α)

namespace OMap
variable {κ α : Type _} [LinearOrder κ]

/-- `find` / `at` -/
def find? : OMap κ α → κ → Option α
  | [], _ => none
  | (k', v) :: t, k => if k = k' then some v else find? t k

/-- `mData[k] = v`, insert or assign keeping the order of keys -/
def set : OMap κ α → κ → α → OMap κ α
  | [], k, v => [(k, v)]
  | (k', v') :: t, k, v =>
    if k < k' then (k, v) :: (k', v') :: t
    else if k = k' then (k, v) :: t
    else (k', v') :: set t k v

def keys (m : OMap κ α) : List κ := m.map Prod.fst

/-- the invariant a `std::map` maintains -/
def Sorted (m : OMap κ α) : Prop := m.Pairwise (fun a b => a.1 < b.1)

/-- `at(k)`: throws `std::out_of_range` if absent -/
def at' (m : OMap κ α) (k : κ) : Res α :=
  match m.find? k with
  | some a => .ok a
  | none => .throw

end OMap
end NuTo
