import Mathlib.Data.Rat.Defs
import Mathlib.Algebra.Order.Field.Rat
import Verif.Model.Tally
/-
diehard_craps.c: the game of craps.
-/
namespace Dh

/-- The `while(1)` loop of a game, diehard_craps.c:129-144.  `d` are the values of `roll()`; the result is the class
`tries` that is counted, whether the game was won, and the place in `d`. -/
def crapsPoint (d : Nat → Nat) (point : Nat) : (fuel tries pos : Nat) → Res (Nat × Bool × Nat)
  | 0, _, _ => .loop
  | fuel + 1, tries, pos =>
    let tries := if tries < 20 then tries + 1 else tries
    let throw := d pos + d (pos + 1)
    if throw = 7 then .ok (tries, false, pos + 2)
    else if throw = point then .ok (tries, true, pos + 2)
    else crapsPoint d point fuel tries (pos + 2)

/-- One game, diehard_craps.c:108-145. -/
def crapsGame (d : Nat → Nat) (fuel pos : Nat) : Res (Nat × Bool × Nat) :=
  let point := d pos + d (pos + 1)
  if point = 7 ∨ point = 11 then .ok (0, true, pos + 2)
  else if point = 2 ∨ point = 3 ∨ point = 12 then .ok (0, false, pos + 2)
  else crapsPoint d point fuel 0 (pos + 2)

/-- The loop over the games, diehard_craps.c:102-146, with the counters `wins` and `vtest.x`. -/
def crapsLoop (d : Nat → Nat) (fuel : Nat) : (todo pos wins : Nat) → List Nat → Res (Nat × List Nat)
  | 0, _, wins, x => .ok (wins, x)
  | todo + 1, pos, wins, x => do
    let (tries, won, pos) ← crapsGame d fuel pos
    let x ← bump x tries
    crapsLoop d fuel todo pos (if won then wins + 1 else wins) x

/-- The number of wins `ptest.x` and the counts `vtest.x`, diehard_craps.c:96-148. -/
def craps (d : Nat → Nat) (fuel tsamples : Nat) : Res (Nat × List Nat) :=
  crapsLoop d fuel tsamples 0 0 (List.replicate 21 0)

/-- The probability of winning, diehard_craps.c:65. -/
def crapsP : ℚ := 244 / 495

/-- `vtest.y[i]` for `i < 20` before the multiplication by the number of games, diehard_craps.c:75-81; doubles are
rational numbers here. -/
def crapsYLow (i : Nat) : ℚ :=
  if i = 0 then 1 / 3 else (27 * (27 / 36) ^ (i - 1) + 40 * (13 / 18) ^ (i - 1) + 55 * (25 / 36) ^ (i - 1)) / 648

/-- The variable `sum` after `n` terms, diehard_craps.c:75-81. -/
def crapsSum : Nat → ℚ
  | 0 => 0
  | n + 1 => crapsSum n + crapsYLow n

/-- `vtest.y[i]` before the multiplication by the number of games, diehard_craps.c:73-82. -/
def crapsY (i : Nat) : ℚ := if i < 20 then crapsYLow i else 1 - crapsSum 20

end Dh
