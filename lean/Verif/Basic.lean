/-!
# Outcomes of C++ code

A modelled C++ call has one of three outcomes: it returns a value, it raises a C++ exception,
or it has undefined behaviour (out-of-bounds access, dereference of an end iterator, ...).
Undefined behaviour is a separate outcome, so a safety theorem has to rule it out explicitly.
-/

namespace Fimex

/-- Outcome of a modelled C++ call. -/
inductive Res (α : Type) where
  | ok (a : α)
  | throws
  | ub
deriving DecidableEq, Repr

namespace Res

/-- Sequencing: an exception or undefined behaviour ends the call. -/
@[inline] def bind {α β : Type} (x : Res α) (f : α → Res β) : Res β :=
  match x with
  | ok a => f a
  | throws => throws
  | ub => ub

instance : Monad Res where
  pure := Res.ok
  bind := Res.bind

@[simp] theorem pure_eq {α : Type} (a : α) : (pure a : Res α) = ok a := rfl
@[simp] theorem ok_bind {α β : Type} (a : α) (f : α → Res β) : (ok a >>= f) = f a := rfl
@[simp] theorem throws_bind {α β : Type} (f : α → Res β) : ((throws : Res α) >>= f) = throws := rfl
@[simp] theorem ub_bind {α β : Type} (f : α → Res β) : ((ub : Res α) >>= f) = ub := rfl

theorem bind_eq_ok {α β : Type} {x : Res α} {f : α → Res β} {b : β} :
    (x >>= f) = ok b ↔ ∃ a, x = ok a ∧ f a = ok b := by
  cases x <;> simp

instance : LawfulMonad Res := LawfulMonad.mk'
  (id_map := by intro α x; cases x <;> rfl)
  (pure_bind := by intros; rfl)
  (bind_assoc := by intro α β γ x f g; cases x <;> rfl)

end Res

/-- `std::vector`-like and raw array read: outside the array the behaviour is undefined. -/
def readAt {α : Type} (a : List α) (i : Nat) : Res α :=
  match a[i]? with
  | some v => .ok v
  | none => .ub

/-- `std::copy`/`memcpy` source: reading `n` values from position `p`. -/
def readRange {α : Type} (a : List α) (p n : Nat) : Res (List α) :=
  if p + n ≤ a.length then .ok ((a.drop p).take n) else .ub

/-- Pointer arithmetic on a pointer into (or one past the end of) an array of `a.length`
elements; leaving that range is undefined behaviour. -/
def advance {α : Type} (a : List α) (p k : Nat) : Res Nat :=
  if p + k ≤ a.length then .ok (p + k) else .ub

/-- 64-bit unsigned range (`size_t` on the supported platforms). -/
def two64 : Nat := 2 ^ 64

/-- `size_t` addition. -/
def wadd (a b : Nat) : Nat := (a + b) % two64

/-- `size_t` subtraction. -/
def wsub (a b : Nat) : Nat := (a + (two64 - b % two64)) % two64

theorem wadd_eq {a b : Nat} (h : a + b < two64) : wadd a b = a + b := Nat.mod_eq_of_lt h

theorem wsub_eq {a b : Nat} (h : b ≤ a) (ha : a < two64) : wsub a b = a - b := by
  have hb : b < two64 := by omega
  unfold wsub
  rw [Nat.mod_eq_of_lt hb]
  have : a + (two64 - b) = (a - b) + two64 := by omega
  rw [this, Nat.add_mod_right, Nat.mod_eq_of_lt (by omega)]

end Fimex
