import Verif.Basic
import Mathlib.Algebra.Order.Field.Rat
/-
diehard_parking_lot.c.  Doubles are rational numbers: rounding is not modelled.
-/
namespace Dh

/-- `Cars`, diehard_parking_lot.c:70-73. -/
structure Car where
  x : ℚ
  y : ℚ
deriving DecidableEq

/-- The loop over the parked cars, diehard_parking_lot.c:123-134: the value of `crashed`. -/
def parkScan (parked : List Car) (c : Car) : (todo i : Nat) → Res Bool
  | 0, _ => .ok false
  | todo + 1, i => do
    let p ← rd parked i
    if |p.x - c.x| ≤ 1 ∧ |p.y - c.y| ≤ 1 then .ok true
    else parkScan parked c todo (i + 1)

/-- The loop over the attempts, diehard_parking_lot.c:119-144.  `car n` is the place `(xtry, ytry)` of attempt `n`. -/
def parkLoop (car : Nat → Car) : (todo n : Nat) → (parked : List Car) → (k : Nat) → Res (List Car × Nat)
  | 0, _, parked, k => .ok (parked, k)
  | todo + 1, n, parked, k => do
    let crashed ← parkScan parked (car n) k 0
    if crashed then parkLoop car todo (n + 1) parked k else do
    let parked ← wr parked k (car n)
    parkLoop car todo (n + 1) parked (k + 1)

/-- `diehard_parking_lot`, diehard_parking_lot.c:75-144: the array `parked` and the number `k` of parked cars. -/
def parkingLot (car : Nat → Car) : Res (List Car × Nat) := do
  let parked := List.replicate 12000 ⟨0, 0⟩
  let parked ← wr parked 0 (car 0)
  parkLoop car 11999 1 parked 1

end Dh
