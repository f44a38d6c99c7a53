import Verif.Model.UintRand
import Verif.Model.Tally
/-
diehard_birthdays.c and dab_birthdays1.c: repeated birthday spacings.
-/
namespace Dh

/-- `gsl_sort_uint`: the values in nondecreasing order. -/
def sortUint (l : List UInt) : List UInt := l.mergeSort (fun a b => decide (a.toNat ≤ b.toNat))

/-- The intervals of a sorted list, diehard_birthdays.c:167-170, dab_birthdays1.c:152-155. -/
def spacings : (prev : UInt) → List UInt → List UInt
  | _, [] => []
  | prev, x :: l => (x - prev) :: spacings x l

/-- The loop `while(intervals[m] == intervals[mnext])`, diehard_birthdays.c:188-199; returns the final `mnext`. -/
def birthWhile (iv : List UInt) (m : Nat) : (fuel mnext : Nat) → Res Nat
  | 0, _ => .loop
  | fuel + 1, mnext => do
    let a ← rd iv m
    let b ← rd iv mnext
    if a = b then birthWhile iv m fuel (mnext + 1) else .ok mnext

/-- The loop over `m`, diehard_birthdays.c:186-204, dab_birthdays1.c:171-189; returns the final `k`.  (`k` is incremented
in the first pass of the inner loop, so exactly if `mnext` moves.) -/
def birthLoop (iv : List UInt) (nms : Nat) : (fuel m k : Nat) → Res Nat
  | 0, _, _ => .loop
  | fuel + 1, m, k =>
    if m < nms - 1 then do
      let mnext ← birthWhile iv m (nms + 1) (m + 1)
      let k := if mnext ≠ m + 1 then k + 1 else k
      let m := if mnext ≠ m + 1 then mnext else m
      birthLoop iv nms fuel (m + 1) k
    else .ok k

/-- The number of repeated intervals of one sample, diehard_birthdays.c:156-204, dab_birthdays1.c:140-189.  `nms >= 1`. -/
def birthSample (rands : List UInt) : Res Nat :=
  birthLoop (sortUint (spacings 0 (sortUint rands))) rands.length (rands.length + 1) 0 0

/-- The loop over the samples, diehard_birthdays.c:120-224, dab_birthdays1.c:125-209.  `src` are the values of
`get_rand_bits` or `gsl_rng_get`, `js` has `kmax` entries. -/
def birthdays (src : Src) (nms : Nat) : (todo pos : Nat) → List Nat → Res (List Nat)
  | 0, _, js => .ok js
  | todo + 1, pos, js => do
    let k ← birthSample ((List.range nms).map fun i => src (pos + i))
    let js ← (if k < js.length then bump js k else .ok js : Res (List Nat))
    birthdays src nms todo (pos + nms) js

end Dh
