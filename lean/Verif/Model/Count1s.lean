import Mathlib.Data.Rat.Defs
import Mathlib.Algebra.Field.Rat
import Verif.Model.Tally
import Verif.Model.Bits
import Verif.Model.UintRand
/-
Models of libdieharder/diehard_count_1s_stream.c and diehard_count_1s_byte.c.  The random words are the
values returned by `get_rand_bits_uint(32, 0xFFFFFFFF, rng)` (for which see C07); the debug output is left
out, and so is the final difference of two chi-squares (for which see C16).
-/
namespace Dh

/-- The table `b5s`, diehard_count_1s_stream.c:111-127. -/
def b5s : List Nat :=
  [0, 0, 0, 0, 0, 0, 0, 1, 0, 0, 0, 1, 0, 1, 1, 2,
   0, 0, 0, 1, 0, 1, 1, 2, 0, 1, 1, 2, 1, 2, 2, 3,
   0, 0, 0, 1, 0, 1, 1, 2, 0, 1, 1, 2, 1, 2, 2, 3,
   0, 1, 1, 2, 1, 2, 2, 3, 1, 2, 2, 3, 2, 3, 3, 4,
   0, 0, 0, 1, 0, 1, 1, 2, 0, 1, 1, 2, 1, 2, 2, 3,
   0, 1, 1, 2, 1, 2, 2, 3, 1, 2, 2, 3, 2, 3, 3, 4,
   0, 1, 1, 2, 1, 2, 2, 3, 1, 2, 2, 3, 2, 3, 3, 4,
   1, 2, 2, 3, 2, 3, 3, 4, 2, 3, 3, 4, 3, 4, 4, 4,
   0, 0, 0, 1, 0, 1, 1, 2, 0, 1, 1, 2, 1, 2, 2, 3,
   0, 1, 1, 2, 1, 2, 2, 3, 1, 2, 2, 3, 2, 3, 3, 4,
   0, 1, 1, 2, 1, 2, 2, 3, 1, 2, 2, 3, 2, 3, 3, 4,
   1, 2, 2, 3, 2, 3, 3, 4, 2, 3, 3, 4, 3, 4, 4, 4,
   0, 1, 1, 2, 1, 2, 2, 3, 1, 2, 2, 3, 2, 3, 3, 4,
   1, 2, 2, 3, 2, 3, 3, 4, 2, 3, 3, 4, 3, 4, 4, 4,
   1, 2, 2, 3, 2, 3, 3, 4, 2, 3, 3, 4, 3, 4, 4, 4,
   2, 3, 3, 4, 3, 4, 4, 4, 3, 4, 4, 4, 4, 4, 4, 4]

/-- The table `b5b`, diehard_count_1s_byte.c:119-135. -/
def b5b : List Nat :=
  [0, 0, 0, 0, 0, 0, 0, 1, 0, 0, 0, 1, 0, 1, 1, 2,
   0, 0, 0, 1, 0, 1, 1, 2, 0, 1, 1, 2, 1, 2, 2, 3,
   0, 0, 0, 1, 0, 1, 1, 2, 0, 1, 1, 2, 1, 2, 2, 3,
   0, 1, 1, 2, 1, 2, 2, 3, 1, 2, 2, 3, 2, 3, 3, 4,
   0, 0, 0, 1, 0, 1, 1, 2, 0, 1, 1, 2, 1, 2, 2, 3,
   0, 1, 1, 2, 1, 2, 2, 3, 1, 2, 2, 3, 2, 3, 3, 4,
   0, 1, 1, 2, 1, 2, 2, 3, 1, 2, 2, 3, 2, 3, 3, 4,
   1, 2, 2, 3, 2, 3, 3, 4, 2, 3, 3, 4, 3, 4, 4, 4,
   0, 0, 0, 1, 0, 1, 1, 2, 0, 1, 1, 2, 1, 2, 2, 3,
   0, 1, 1, 2, 1, 2, 2, 3, 1, 2, 2, 3, 2, 3, 3, 4,
   0, 1, 1, 2, 1, 2, 2, 3, 1, 2, 2, 3, 2, 3, 3, 4,
   1, 2, 2, 3, 2, 3, 3, 4, 2, 3, 3, 4, 3, 4, 4, 4,
   0, 1, 1, 2, 1, 2, 2, 3, 1, 2, 2, 3, 2, 3, 3, 4,
   1, 2, 2, 3, 2, 3, 3, 4, 2, 3, 3, 4, 3, 4, 4, 4,
   1, 2, 2, 3, 2, 3, 3, 4, 2, 3, 3, 4, 3, 4, 4, 4,
   2, 3, 3, 4, 3, 4, 4, 4, 3, 4, 4, 4, 4, 4, 4, 4]

/-- The letter probabilities `ps`, diehard_count_1s_stream.c:139-144 (`pb`, diehard_count_1s_byte.c:143-148,
has the same five literals); the decimal literals are exact in binary. -/
def c1sProb : List ℚ := [144531250 / 1000000000, 218750000 / 1000000000, 273437500 / 1000000000,
  218750000 / 1000000000, 144531250 / 1000000000]

/-- The loop over the digits of `j`, diehard_count_1s_stream.c:214-228 and 241-254, and
diehard_count_1s_byte.c:214-228 and 241-254.  The products are taken as exact. -/
def c1sExpLoop : (todo j : Nat) → (y : ℚ) → Res ℚ
  | 0, _, y => .ok y
  | todo + 1, j, y => do
    let p ← rd c1sProb (j % 5)
    c1sExpLoop todo (j / 5) (y * p)

/-- `vtest4.y[i]` (`digits = 4`) and `vtest5.y[i]` (`digits = 5`), diehard_count_1s_stream.c:206-255. -/
def c1sExpected (digits tsamples i : Nat) : Res ℚ := c1sExpLoop digits i tsamples

/-- `LSHIFT5`, diehard_count_1s_stream.c:146 and diehard_count_1s_byte.c:156, in `unsigned int`. -/
def lshift5 (old new : Nat) : Nat := (old * 5 + new) % 2 ^ 32

/-- The two tables of counts. -/
structure C1sTab where
  x4 : List Nat
  x5 : List Nat
  deriving DecidableEq, Repr

/-- `vtest4.x[index4]++; vtest5.x[index5]++`, diehard_count_1s_stream.c:386-388 and
diehard_count_1s_byte.c:293-295. -/
def c1sCount (index5 : Nat) (f : C1sTab) : Res C1sTab := do
  let x4 ← bump f.x4 (index5 % 625)
  let x5 ← bump f.x5 index5
  pure ⟨x4, x5⟩

/-- `j = get_bit_ntuple_from_whole_uint(i,8,0x000000FF,boffset); index5 = LSHIFT5(index5,b5[j])`. -/
def c1sLetter (table : List Nat) (i : UInt) (boffset index5 : Nat) : Res Nat := do
  let j ← getBitNtupleFromWholeUint i 8 0x000000FF#32 boffset
  let l ← rd table j.toNat
  pure (lshift5 index5 l)

/-- The loop over `t` with `overlap = 1`, diehard_count_1s_stream.c:306-389; `pos` counts the words drawn. -/
def c1sStreamLoop (w : Src) : (todo pos : Nat) → (i : UInt) → (boffset index5 : Nat) → C1sTab → Res C1sTab
  | 0, _, _, _, _, f => .ok f
  | todo + 1, pos, i, boffset, index5, f => do
    let (i, pos, boffset) := if boffset % 32 = 0 then (w pos, pos + 1, 0) else (i, pos, boffset)
    let index5 ← c1sLetter b5s i boffset index5
    let index5 := index5 % 3125
    let boffset := boffset + 8
    let index5 := index5 % 3125
    let f ← c1sCount index5 f
    c1sStreamLoop w todo pos i boffset index5 f

/-- `diehard_count_1s_stream`, diehard_count_1s_stream.c:204-389 (`x` starts at zero, 209 and 237); the
first letter (274) is stored without `LSHIFT5`. -/
def c1sStream (w : Src) (tsamples : Nat) : Res C1sTab := do
  let i := w 0
  let j ← getBitNtupleFromWholeUint i 8 0x000000FF#32 0
  let index5 ← rd b5s j.toNat
  let index5 ← c1sLetter b5s i 8 index5
  let index5 ← c1sLetter b5s i 16 index5
  let index5 ← c1sLetter b5s i 24 index5
  c1sStreamLoop w tsamples 1 i 0 index5 ⟨List.replicate 625 0, List.replicate 3125 0⟩

/-- The loop over `k`, diehard_count_1s_byte.c:268-284. -/
def c1sByteWord (w : Src) (boffset : Nat) : (todo pos index5 : Nat) → Res Nat
  | 0, _, index5 => .ok index5
  | todo + 1, pos, index5 => do
    let index5 ← c1sLetter b5b (w pos) boffset index5
    c1sByteWord w boffset todo (pos + 1) index5

/-- The loop over `t`, diehard_count_1s_byte.c:261-296. -/
def c1sByteLoop (w : Src) : (todo t pos index5 : Nat) → C1sTab → Res C1sTab
  | 0, _, _, _, f => .ok f
  | todo + 1, t, pos, index5, f => do
    let boffset := t % 32
    let index5 ← c1sByteWord w boffset 5 pos index5
    let index5 := index5 % 3125
    let f ← c1sCount index5 f
    c1sByteLoop w todo (t + 1) (pos + 5) index5 f

/-- `diehard_count_1s_byte`, diehard_count_1s_byte.c:204-296; `index5` starts at 0 (161). -/
def c1sByte (w : Src) (tsamples : Nat) : Res C1sTab :=
  c1sByteLoop w tsamples 0 0 0 ⟨List.replicate 625 0, List.replicate 3125 0⟩

end Dh
