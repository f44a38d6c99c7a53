import Verif.Model.UintRand
import Verif.Model.Tally
/-
dab_filltree.c and dab_filltree2.c: filling binary trees.
-/
namespace Dh

/-- `i + d` on `unsigned int`. -/
def wadd (i d : Nat) : Nat := (i + d) % 2 ^ 32

/-- `i - d` on `unsigned int`. -/
def wsub (i d : Nat) : Nat := (i + 2 ^ 32 - d) % 2 ^ 32

/-! ### dab_filltree.c -/

/-- The loop of `insert`, dab_filltree.c:111-123.  The result is the returned value (`none` for -1) and the array.  The
array holds doubles `x = (double) RotL(v, rotAmount) / rmax_mask`; here the values are the integers `RotL(v, rotAmount)`,
which are in the same order and 0 for the same draws.  `d` is halved in every pass, so that `d < 2 ^ fuel` is enough. -/
def ftInsert (x : Nat) : (fuel : Nat) → (array : List Nat) → (i d : Nat) → Res (Option Nat × List Nat)
  | 0, array, i, d => if d = 0 then .ok (some i, array) else .loop
  | fuel + 1, array, i, d =>
    if d = 0 then .ok (some i, array) else do
    let a ← rd array i
    if a = 0 then do
      let array ← wr array i x
      .ok (none, array)
    else ftInsert x fuel array (if a < x then wadd i d else wsub i d) (d / 2)

/-- `insert`, dab_filltree.c:108-124, with `startVal = size/2 - 1` (42), for `size >= 2`. -/
def ftInsertTop (x : Nat) (array : List Nat) (size : Nat) : Res (Option Nat × List Nat) :=
  ftInsert x 32 array (size / 2 - 1) ((size / 2 - 1 + 1) / 2)

/-- The loop `do ... while (ret == -1)`, dab_filltree.c:76-86.  `key` are the rotated draws.  The result is `none` if the
function gives up (81-84), otherwise `ret`, the final `i` and the place in `key`. -/
def ftTree (key : Nat → Nat) (size : Nat) : (fuel pos i : Nat) → (array : List Nat) → Res (Option (Nat × Nat × Nat))
  | 0, _, _, _ => .loop
  | fuel + 1, pos, i, array =>
    if i + 1 > size * 2 then .ok none else do
    let (ret, array) ← ftInsertTop (key pos) array size
    match ret with
    | none => ftTree key size fuel (pos + 1) (i + 1) array
    | some r => .ok (some (r, i + 1, pos + 1))

/-- The loop over `j`, dab_filltree.c:72-91; `none` if the function gave up. -/
def ftLoop (key : Nat → Nat) (size : Nat) : (todo pos : Nat) → (counts position : List Nat) →
    Res (Option (List Nat × List Nat))
  | 0, _, counts, position => .ok (some (counts, position))
  | todo + 1, pos, counts, position => do
    match ← ftTree key size (2 * size + 1) pos 0 (List.replicate size 0) with
    | none => .ok none
    | some (r, i, pos) => do
      let position ← bump position (r / 2)
      let counts ← bump counts (i - 1)
      ftLoop key size todo pos counts position

/-- `dab_filltree`, dab_filltree.c:39-95, for `size >= 2`: the tables `counts` and `positionCounts`, or `none` if the function
gave up.  `targetData` has 20 entries (33-35), hence `counts` and `expected`; the last step is the loop of line 95. -/
def fillTree (key : Nat → Nat) (ntuple tsamples : Nat) : Res (Option (List Nat × List Nat)) := do
  let size := if ntuple = 0 then 32 else ntuple
  match ← ftLoop key size tsamples 0 (List.replicate 20 0) (List.replicate (size / 2) 0) with
  | none => .ok none
  | some r => if size / 2 ≤ 20 then .ok (some r) else .ub

/-! ### dab_filltree2.c -/

/-- `insertBit`, dab_filltree2.c:184-198.  The result is the returned value, the array, `*i` and `*d`. -/
def insertBit (bit : Bool) (array : List Nat) (i d : Nat) : Res (Int × List Nat × Nat × Nat) := do
  let i := if bit then wadd i d else wsub i d
  let d := d / 2
  let a ← rd array i
  if a = 0 then do
    let array ← wr array i 1
    .ok (-1, array, i, d)
  else if d = 0 then .ok (i, array, i, d)
  else .ok (-2, array, i, d)

/-- The bits of the words of a generator of `r` bits: `x`, `bitCount` and the place, dab_filltree2.c:131-132 and 145-150. -/
structure BitSrc where
  x : UInt
  bitCount : Nat
  pos : Nat

/-- `x & 0x01`, `x >>= 1`, and a new word if all bits are used, dab_filltree2.c:145-150. -/
def BitSrc.next (r : Nat) (src : Src) (b : BitSrc) : Bool × BitSrc :=
  (decide (b.x &&& 1 ≠ 0),
    if b.bitCount - 1 = 0 then ⟨src b.pos, r, b.pos + 1⟩ else ⟨b.x >>> 1, b.bitCount - 1, b.pos⟩)

/-- The inner loop `do ... while (ret == -2)`, dab_filltree2.c:144-151. -/
def ft2Path (r : Nat) (src : Src) : (fuel : Nat) → BitSrc → (array : List Nat) → (i d : Nat) → Res (Int × List Nat × BitSrc)
  | 0, _, _, _, _ => .loop
  | fuel + 1, b, array, i, d => do
    let (bit, b) := b.next r src
    let (ret, array, i, d) ← insertBit bit array i d
    if ret = -2 then ft2Path r src fuel b array i d else .ok (ret, array, b)

/-- The outer loop `do ... while (ret == -1)`, dab_filltree2.c:137-154. -/
def ft2Tree (r : Nat) (src : Src) (size : Nat) : (fuel : Nat) → BitSrc → (i : Nat) → (array : List Nat) →
    Res (Option (Int × Nat × BitSrc))
  | 0, _, _, _ => .loop
  | fuel + 1, b, i, array =>
    if i > size * 2 then .ok none else do
    let (ret, array, b) ← ft2Path r src 32 b array (size / 2 - 1) ((size / 2 - 1 + 1) / 2)
    if ret = -1 then ft2Tree r src size fuel b (i + 1) array else .ok (some (ret, i + 1, b))

/-- The loop over `j`, dab_filltree2.c:133-158. -/
def ft2Loop (r : Nat) (src : Src) (size : Nat) : (todo : Nat) → BitSrc → (counts position : List Nat) →
    Res (Option (List Nat × List Nat))
  | 0, _, counts, position => .ok (some (counts, position))
  | todo + 1, b, counts, position => do
    match ← ft2Tree r src size (2 * size + 2) b 0 (List.replicate size 0) with
    | none => .ok none
    | some (ret, i, b) => do
      let position ← bump position (ret.toNat / 2)
      let counts ← bump counts (i - 1)
      ft2Loop r src size todo b counts position

/-- `dab_filltree2`, dab_filltree2.c:97-164, for `size >= 2`.  `targetData` has 128 entries; the last step is the loop of
line 164. -/
def fillTree2 (r : Nat) (src : Src) (ntuple tsamples : Nat) : Res (Option (List Nat × List Nat)) := do
  let size := if ntuple = 0 then 128 else ntuple
  match ← ft2Loop r src size tsamples ⟨src 0, r, 1⟩ (List.replicate 128 0) (List.replicate (size / 2) 0) with
  | none => .ok none
  | some t => if size / 2 ≤ 128 then .ok (some t) else .ub

end Dh
