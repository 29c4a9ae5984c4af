/-!
# Shared definitions

Outcome of a C++ function, sentinels.
-/
namespace Verif

/-- Outcome of a C++ call: a value, a thrown exception, or undefined behaviour
(for instance an out-of-range `std::vector` access). -/
inductive Res (α : Type) where
  | ok (a : α)
  | throw
  | ub
  deriving DecidableEq, Repr

namespace Res

def bind {α β : Type} (r : Res α) (f : α → Res β) : Res β :=
  match r with
  | ok a => f a
  | throw => throw
  | ub => ub

instance : Monad Res where
  pure := ok
  bind := bind

@[simp] theorem pure_eq {α : Type} (a : α) : (pure a : Res α) = ok a := rfl
@[simp] theorem ok_bind {α β : Type} (a : α) (f : α → Res β) : (ok a >>= f) = f a := rfl
@[simp] theorem throw_bind {α β : Type} (f : α → Res β) : ((throw : Res α) >>= f) = throw := rfl
@[simp] theorem ub_bind {α β : Type} (f : α → Res β) : ((ub : Res α) >>= f) = ub := rfl

theorem bind_eq_ok {α β : Type} {r : Res α} {f : α → Res β} {b : β} :
    (r >>= f) = ok b ↔ ∃ a, r = ok a ∧ f a = ok b := by
  cases r <;> simp

end Res

/-- `constants::missing::uintValue` (`Constants.hpp`): the largest 32 bit unsigned number. -/
def missing : Nat := 4294967295

/-- Reading a `std::vector` element: undefined behaviour when out of range. -/
def vget {α : Type} (l : List α) (i : Nat) : Res α :=
  match l[i]? with
  | some a => .ok a
  | none => .ub

/-- Writing a `std::vector` element: undefined behaviour when out of range. -/
def vset {α : Type} (l : List α) (i : Nat) (a : α) : Res (List α) :=
  if i < l.length then .ok (l.set i a) else .ub

theorem vget_ok {α : Type} {l : List α} {i : Nat} (h : i < l.length) : vget l i = .ok l[i] := by
  simp [vget, h]

theorem vset_ok {α : Type} {l : List α} {i : Nat} (a : α) (h : i < l.length) :
    vset l i a = .ok (l.set i a) := by
  simp [vset, h]

theorem vget_eq_ok {α : Type} {l : List α} {i : Nat} {a : α} :
    vget l i = .ok a ↔ l[i]? = some a := by
  unfold vget; split <;> simp_all

theorem vset_eq_ok {α : Type} {l l' : List α} {i : Nat} {a : α} :
    vset l i a = .ok l' ↔ i < l.length ∧ l' = l.set i a := by
  unfold vset
  split
  · simp_all [eq_comm]
  · rename_i h
    simp [h]

end Verif
