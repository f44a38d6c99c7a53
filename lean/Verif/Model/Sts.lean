import Verif.Model.Tally
import Verif.Model.UintRand
/-
Models of the counting parts of libdieharder/sts_monobit.c, sts_runs.c and sts_serial.c.
-/
namespace Dh

/-- The bit trick, sts_monobit.c:104-112 (the branch `if(0)` is dead). -/
def monobitCount (n : UInt) : UInt :=
  let n := n - ((n >>> 1) &&& 0x55555555#32)
  let n := (n &&& 0x33333333#32) + ((n >>> 2) &&& 0x33333333#32)
  let n := (n + (n >>> 4)) &&& 0x0f0f0f0f#32
  let n := n + (n >>> 8)
  (n + (n >>> 16)) &&& 0x3f#32

/-- The sum of the counts, sts_monobit.c:78-116; `ptest.x` is a double holding a natural number. -/
def monobitSum (src : Src) : (todo i : Nat) → (x : Nat) → Nat
  | 0, _, x => x
  | todo + 1, i, x => monobitSum src todo (i + 1) (x + (monobitCount (src i)).toNat)

/-- `ptest.x = 2*ptest.x - nbits`, sts_monobit.c:118; `nbits` is an `unsigned int` (65). -/
def stsMonobit (r : Nat) (src : Src) (tsamples : Nat) : Int :=
  2 * (monobitSum src tsamples 0 0 : Int) - ((r * tsamples % 2 ^ 32 : Nat) : Int)

/-- The counters of sts_runs.c. -/
structure RunsC where
  x : Nat
  pones : Nat
  c00 : Nat
  c01 : Nat
  c10 : Nat
  c11 : Nat
  deriving DecidableEq, Repr

/-- The loop over positions, sts_runs.c:66-93. -/
def runsLoop (r : Nat) (ws : List UInt) : (todo b : Nat) → RunsC → Res RunsC
  | 0, _, c => .ok c
  | todo + 1, b, c => do
    let value ← getBitNtuple r ws ws.length 2 b
    let c := match value.toNat with
      | 0 => { c with c00 := c.c00 + 1 }
      | 1 => { c with c01 := c.c01 + 1, x := c.x + 1 }
      | 2 => { c with c10 := c.c10 + 1, x := c.x + 1, pones := c.pones + 1 }
      | 3 => { c with c11 := c.c11 + 1, pones := c.pones + 1 }
      | _ => c
    runsLoop r ws todo (b + 1) c

/-- `sts_runs`, sts_runs.c:43-93, for the sampled words `ws`; `bits = rmax_bits*tsamples` is taken as
a natural number (`b` is an `int`, so that larger samples than 2^31 bits are not covered). -/
def stsRuns (r : Nat) (ws : List UInt) : Res RunsC := runsLoop r ws (r * ws.length) 0 ⟨0, 0, 0, 0, 0, 0⟩

/-- The loop over `t`, sts_serial.c:228-258; `buf` has one word more than there are samples. -/
def serialLoop (m : Nat) (mask : UInt) (buf : List UInt) :
    (todo t j : Nat) → (window : UInt) → List Nat → Res (List Nat)
  | 0, _, _, _, freq => .ok freq
  | todo + 1, t, j, window, freq => do
    let (window, j) ← (if t % 32 = 0 then do
        let w ← rd buf j
        pure (w, j + 1)
      else pure (window, j) : Res (UInt × Nat))
    let bi := t % 16
    let value ← shr window (32 - m - bi)
    let freq ← bump freq (value &&& mask).toNat
    let window ← (if bi = 15 then do
        let w ← rd buf j
        pure ((window <<< 16) + (w >>> 16))
      else pure window : Res UInt)
    serialLoop m mask buf todo (t + 1) j window freq

/-- The frequency table `freq[m]` of sts_serial.c:209-272 for the sampled words `ws`; `uintbuf` is `ws`
with its first word repeated at the end (198).  `bsize = 32*tsamples` is taken as a natural
number. -/
def stsSerial (ws : List UInt) (m : Nat) : Res (List Nat) := do
  let w0 ← rd ws 0
  let one ← shl 1 m
  serialLoop m (one - 1) (ws ++ [w0]) (32 * ws.length) 0 0 0 (List.replicate (2 ^ m) 0)

end Dh
