import Verif.Model.SmallTests
import Verif.Model.Vtest
/-
The chi-square test at the end of libdieharder/diehard_squeeze.c.  Doubles are rationals.
-/
namespace Dh

/-- The table `sdata`, diehard_squeeze.c:42-52, multiplied by 10^8. -/
def squeezeTable : List Nat :=
  [2103, 5779, 17554, 46732, 110783,
   236784, 460944, 824116, 1362781, 2096849,
   3017612, 4080197, 5204203, 6283828, 7205637,
   7869451, 8206755, 8191935, 7844008, 7219412,
   6398679, 5470931, 4519852, 3613661, 2800028,
   2105567, 1538652, 1094020, 757796, 511956,
   337726, 217787, 137439, 84970, 51518,
   30666, 17939, 10324, 5851, 3269,
   1803, 982, 1121]

/-- The loop over `i`, diehard_squeeze.c:81-83. -/
def squeezeExpected (tsamples : Nat) : (todo i : Nat) → List ℚ → Res (List ℚ)
  | 0, _, y => .ok y
  | todo + 1, i, y => do
    let s ← rd squeezeTable i
    let y ← wr y i ((tsamples : ℚ) * ((s : ℚ) / 100000000))
    squeezeExpected tsamples todo (i + 1) y

/-- `diehard_squeeze`, diehard_squeeze.c:54-128, up to the p-value (`squeeze` is the loop over the samples). -/
def squeezeTest (prod : Int → Nat → ℚ) (tsamples : Nat) : Res Vtest := do
  let y ← squeezeExpected tsamples 43 0 (vtestCreate 43).y
  let (x, _) ← squeeze prod tsamples
  vtestEval { vtestCreate 43 with
    cutoff := 5
    x := x.map (Nat.cast : Nat → ℚ)
    y := y }

end Dh
