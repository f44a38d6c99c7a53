import Mathlib.Data.Real.Basic
import Verif.Model.Tally
/-
Model of libdieharder/countx.c (the test program of Bob Jenkins, which nothing calls).  `u4` is `unsigned long`, 64 bits on the platforms considered
(LP64).  The printing and `main_countx` are left out.
-/
namespace Dh

/-- `ranctx`, countx.c:27. -/
structure RanCtx where
  a : BitVec 64
  b : BitVec 64
  c : BitVec 64
  d : BitVec 64
  deriving DecidableEq

/-- `rot`, countx.c:29. -/
def rotCx (x : BitVec 64) (k : Nat) : BitVec 64 := (x <<< k) ||| (x >>> (32 - k))

/-- `ranval`, countx.c:33-41: the number returned and the new state. -/
def ranval (x : RanCtx) : BitVec 64 × RanCtx :=
  let e := x.a
  let a := x.b
  let b := rotCx x.c 19 + x.d
  let c := x.d ^^^ a
  let d := e + b
  (c, ⟨a, b, c, d⟩)

/-- `raninit`, countx.c:43-50. -/
def raninit (seed : BitVec 64) : RanCtx := (fun x => (ranval x).2)^[20] ⟨0xf1ea5eed, seed, seed, seed⟩

/-- One line of `count`, countx.c:59-63: sums of neighbouring fields of `s` bits. -/
def foldCx (m : BitVec 64) (s : Nat) (c : BitVec 64) : BitVec 64 := (c &&& m) + ((c >>> s) &&& m)

/-- `count`, countx.c:53-65, with `GRAY_CODE` 1. -/
def countCx (x : BitVec 64) : BitVec 64 :=
  let c := x ^^^ (x <<< 1)
  foldCx 0x0000ffff 16 (foldCx 0x00ff00ff 8 (foldCx 0x0f0f0f0f 4 (foldCx 0x33333333 2 (foldCx 0x55555555 1 c))))

/-- `ftab`, countx.c:68-74. -/
def ftabCx : List Nat :=
  [0, 0, 0, 0, 0, 0, 0, 0,
   0, 0, 0, 0, 0, 0, 0, 1,
   1,
   1, 2, 2, 2, 2, 2, 2, 2,
   2, 2, 2, 2, 2, 2, 2, 2]

/-- `1<<(LOGBUCKETS*terms)`, a shift of an `int` by a 64-bit number. -/
def cellsCx (terms : Nat) : Res Nat := if 2 * terms < 31 then .ok (2 ^ (2 * terms)) else .ub

/-- `val = ((val<<LOGBUCKETS)&mask) + ftab[count(ranval(r))]`, countx.c:105 and 107. -/
def pushCx (mask : BitVec 64) (val : BitVec 64) (r : RanCtx) : Res (BitVec 64 × RanCtx) := do
  let (x, r) := ranval r
  let f ← rd ftabCx (countCx x).toNat
  .ok (((val <<< 2) &&& mask) + BitVec.ofNat 64 f, r)

/-- The first loop of `gather`, countx.c:104-105. -/
def skipCx (mask : BitVec 64) : (todo : Nat) → BitVec 64 → RanCtx → Res (BitVec 64 × RanCtx)
  | 0, val, r => .ok (val, r)
  | todo + 1, val, r => do
    let (val, r) ← pushCx mask val r
    skipCx mask todo val r

/-- The second loop of `gather`, countx.c:106-109 (the counters do not wrap, as `len` is below 2^64). -/
def tallyCx (mask : BitVec 64) : (todo : Nat) → BitVec 64 → RanCtx → List Nat → Res (List Nat × RanCtx)
  | 0, _, r, data => .ok (data, r)
  | todo + 1, val, r, data => do
    let (val, r) ← pushCx mask val r
    let data ← bump data val.toNat
    tallyCx mask todo val r data

/-- `datainit` and `gather`, countx.c:91-110; `BUCKETS` is 4. -/
def gatherCx (r : RanCtx) (len terms : Nat) : Res (List Nat × RanCtx) := do
  let cells ← cellsCx terms
  let mask := BitVec.ofNat 64 (cells - 1)
  let (val, r) ← skipCx mask 4 0 r
  tallyCx mask len val r (List.replicate cells 0)

/-- The loop over `j` of `probinit`, countx.c:121-123. -/
def binCx (maxbits : Nat) : (i : Nat) → Nat
  | 0 => 1
  | j + 1 => binCx maxbits j * (maxbits + 1 - (j + 1)) / (j + 1)

/-- The loop over `i` of `probinit`, countx.c:119-125. -/
noncomputable def probLoop (maxbits : Nat) : (todo i : Nat) → List ℝ → Res (List ℝ)
  | 0, _, pc => .ok pc
  | todo + 1, i, pc => do
    let f ← rd ftabCx i
    let p ← rd pc f
    let pc ← wr pc f (p + binCx maxbits i / 2 ^ 32)
    probLoop maxbits todo (i + 1) pc

/-- `probinit`, countx.c:113-126. -/
noncomputable def probinit (maxbits : Nat) : Res (List ℝ) := probLoop maxbits (maxbits + 1) 0 (List.replicate (maxbits + 1) 0)

/-- `expect` of cell `i`, countx.c:145-151. -/
noncomputable def expectCx (pc : List ℝ) : (terms : Nat) → (k : Nat) → ℝ → Res ℝ
  | 0, _, e => .ok e
  | j + 1, k, e => do
    let p ← rd pc (k % 4)
    expectCx pc j (k / 4) (e * p)

end Dh
