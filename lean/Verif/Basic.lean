/-
Common vocabulary of the model: the ways a C function can end.
-/
namespace Dh

/-- Outcome of a modelled C function.
* `ok a`  : it returns `a`;
* `exit`  : the code calls `exit()`;
* `ub`    : the code runs into undefined behaviour (out-of-bounds access,
            shift by at least the width, division by zero, ...);
* `loop`  : the fuel given to a modelled `while` loop was used up. -/
inductive Res (α : Type u) where
  | ok (a : α)
  | exit
  | ub
  | loop
  deriving DecidableEq, Repr

namespace Res

@[inline] def bind {α : Type u} {β : Type v} (x : Res α) (f : α → Res β) : Res β :=
  match x with
  | ok a => f a
  | exit => exit
  | ub => ub
  | loop => loop

instance : Monad Res where
  pure := ok
  bind := bind

@[simp] theorem bind_ok {α β : Type u} (a : α) (f : α → Res β) : (ok a >>= f) = f a := rfl
@[simp] theorem bind_exit {α β : Type u} (f : α → Res β) : (exit >>= f) = exit := rfl
@[simp] theorem bind_ub {α β : Type u} (f : α → Res β) : (ub >>= f) = ub := rfl
@[simp] theorem bind_loop {α β : Type u} (f : α → Res β) : (loop >>= f) = loop := rfl
@[simp] theorem pure_eq {α : Type u} (a : α) : (pure a : Res α) = ok a := rfl
@[simp] theorem map_ok {α β : Type u} (a : α) (f : α → β) : (f <$> ok a : Res β) = ok (f a) := rfl
@[simp] theorem map_exit {α β : Type u} (f : α → β) : (f <$> exit : Res β) = exit := rfl
@[simp] theorem map_ub {α β : Type u} (f : α → β) : (f <$> ub : Res β) = ub := rfl
@[simp] theorem map_loop {α β : Type u} (f : α → β) : (f <$> loop : Res β) = loop := rfl

/-- Apply a function to the returned value. -/
def map {α : Type u} {β : Type v} (f : α → β) : Res α → Res β
  | ok a => ok (f a)
  | exit => exit
  | ub => ub
  | loop => loop

theorem bind_eq_ok {α β : Type u} {x : Res α} {f : α → Res β} {b : β} :
    (x >>= f) = ok b ↔ ∃ a, x = ok a ∧ f a = ok b := by
  cases x <;> simp

end Res

/-- A C `unsigned int` (32 bits). -/
abbrev UInt := BitVec 32

/-- Reading element `i` of an array: undefined behaviour when out of bounds. -/
def rd {α : Type u} (a : List α) (i : Nat) : Res α :=
  match a[i]? with
  | some x => .ok x
  | none => .ub

/-- Writing element `i` of an array: undefined behaviour when out of bounds. -/
def wr {α : Type u} (a : List α) (i : Nat) (x : α) : Res (List α) :=
  if i < a.length then .ok (a.set i x) else .ub

/-- `x << n` on `unsigned int`: undefined behaviour for `n >= 32`. -/
def shl (x : UInt) (n : Nat) : Res UInt := if n < 32 then .ok (x <<< n) else .ub

/-- `x >> n` on `unsigned int`: undefined behaviour for `n >= 32`. -/
def shr (x : UInt) (n : Nat) : Res UInt := if n < 32 then .ok (x >>> n) else .ub

theorem rd_ok {α : Type u} {a : List α} {i : Nat} (h : i < a.length) : rd a i = .ok a[i] := by
  simp [rd, h]

theorem rd_ub {α : Type u} {a : List α} {i : Nat} (h : a.length ≤ i) : rd a i = .ub := by
  simp [rd, h]

end Dh
