import Verif.Model.Tally
import Verif.Model.Bits
import Verif.Model.UintRand
/-
Models of the missing-words tests, up to the number of missing words: libdieharder/diehard_opso.c,
diehard_oqso.c, diehard_dna.c, dab_opso2.c and diehard_bitstream.c.  Multi-dimensional arrays are stored
row by row in one list; each index is checked against its own dimension.
-/
namespace Dh

/-! ### diehard_opso.c -/

/-- `w[j][k] = 1` for `char w[1024][1024]`, diehard_opso.c:121. -/
def opsoMark (w : List Nat) (j k : Nat) : Res (List Nat) :=
  if j < 1024 ∧ k < 1024 then wr w (1024 * j + k) 1 else .ub

/-- The loop over `t`, diehard_opso.c:99-122; `src` is the sequence of `gsl_rng_get` values. -/
def opsoLoop (src : Src) : (todo t pos : Nat) → (j0 k0 : UInt) → List Nat → Res (List Nat)
  | 0, _, _, _, _, w => .ok w
  | todo + 1, t, pos, j0, k0, w =>
    if t % 2 = 0 then do
      let j0 := src pos
      let k0 := src (pos + 1)
      let j := j0 &&& 0x03ff#32
      let k := k0 &&& 0x03ff#32
      let w ← opsoMark w j.toNat k.toNat
      opsoLoop src todo (t + 1) (pos + 2) j0 k0 w
    else do
      let j := (j0 >>> 10) &&& 0x03ff#32
      let k := (k0 >>> 10) &&& 0x03ff#32
      let w ← opsoMark w j.toNat k.toNat
      opsoLoop src todo (t + 1) pos j0 k0 w

/-- `diehard_opso`, diehard_opso.c:96-135: `ptest.x`.  The two nested counting loops are one pass. -/
def opso (src : Src) (tsamples : Nat) : Res Nat := do
  let w ← opsoLoop src tsamples 0 0 0 0 (List.replicate (1024 * 1024) 0)
  pure (w.countP (· = 0))

/-! ### diehard_oqso.c -/

/-- `w[i][j][k][l] = 1` for `char w[32][32][32][32]`, diehard_oqso.c:100. -/
def oqsoMark (w : List Nat) (i j k l : Nat) : Res (List Nat) :=
  if i < 32 ∧ j < 32 ∧ k < 32 ∧ l < 32 then wr w (((i * 32 + j) * 32 + k) * 32 + l) 1 else .ub

/-- The four current words and the bit offset of diehard_oqso.c. -/
structure OqsoSt where
  i0 : UInt
  j0 : UInt
  k0 : UInt
  l0 : UInt
  boffset : Nat

/-- The loop over `t`, diehard_oqso.c:84-103. -/
def oqsoLoop (src : Src) : (todo t pos : Nat) → OqsoSt → List Nat → Res (List Nat)
  | 0, _, _, _, w => .ok w
  | todo + 1, t, pos, s, w => do
    let s' : OqsoSt := if t % 6 = 0 then ⟨src pos, src (pos + 1), src (pos + 2), src (pos + 3), 0⟩ else s
    let pos := if t % 6 = 0 then pos + 4 else pos
    let i ← shr s'.i0 s'.boffset
    let j ← shr s'.j0 s'.boffset
    let k ← shr s'.k0 s'.boffset
    let l ← shr s'.l0 s'.boffset
    let w ← oqsoMark w (i &&& 0x01f#32).toNat (j &&& 0x01f#32).toNat (k &&& 0x01f#32).toNat (l &&& 0x01f#32).toNat
    oqsoLoop src todo (t + 1) pos { s' with boffset := s'.boffset + 5 } w

/-- `diehard_oqso`, diehard_oqso.c:76-121: `ptest.x`. -/
def oqso (src : Src) (tsamples : Nat) : Res Nat := do
  let w ← oqsoLoop src tsamples 0 0 ⟨0, 0, 0, 0, 0⟩ (List.replicate (32 * 32 * 32 * 32) 0)
  pure (w.countP (· = 0))

/-! ### diehard_dna.c -/

/-- `w[i]++` on `char`: the counters wrap around at 256 (a `signed char` passes through -128 and comes
back to 0 all the same). -/
def bump8 (w : List Nat) (i : Nat) : Res (List Nat) := do
  let x ← rd w i
  wr w i ((x + 1) % 256)

/-- The ten letters, diehard_dna.c:158-167, and the position `w[i][j]...[r]` they select (169); each of the
ten dimensions is 4. -/
def dnaIndex (rmaxBits boffset : Nat) : List UInt → (acc : Nat) → Res Nat
  | [], acc => .ok acc
  | x :: xs, acc => do
    let l ← getBitNtupleFromUint rmaxBits x 2 0x3#32 boffset
    if l.toNat < 4 then dnaIndex rmaxBits boffset xs (4 * acc + l.toNat) else .ub

/-- The loop over `t`, diehard_dna.c:133-171; `ws` are the ten current words `i0, ..., r0`. -/
def dnaLoop (rmaxBits : Nat) (src : Src) : (todo t pos : Nat) → (ws : List UInt) → (boffset : Nat) →
    List Nat → Res (List Nat)
  | 0, _, _, _, _, w => .ok w
  | todo + 1, t, pos, ws, boffset, w => do
    let ws' := if t % 32 = 0 then (List.range 10).map fun c => src (pos + c) else ws
    let pos := if t % 32 = 0 then pos + 10 else pos
    let boffset := if t % 32 = 0 then 0 else boffset
    let i ← dnaIndex rmaxBits boffset ws' 0
    let w ← bump8 w i
    dnaLoop rmaxBits src todo (t + 1) pos ws' (boffset + 1) w

/-- `diehard_dna`, diehard_dna.c:62-200: `ptest.x`.  Ten words (62-71) and one more (130) are drawn
before the loop and not used. -/
def dna (rmaxBits : Nat) (src : Src) (tsamples : Nat) : Res Nat := do
  let w ← dnaLoop rmaxBits src tsamples 0 11 ((List.range 10).map src) 0 (List.replicate (4 ^ 10) 0)
  pure (w.countP (· = 0))

/-! ### dab_opso2.c -/

/-- `w[i] |= mask[b]` for `unsigned int w[524288]` and `mask[b] = 1<<b` (55; for `b = 31` this relies on the
usual wrap of a signed shift). -/
def orBit (w : List UInt) (i b : Nat) : Res (List UInt) := do
  let x ← rd w i
  if b < 32 then wr w i (x ||| ((1 : UInt) <<< b)) else .ub

/-- The loop over `t`, dab_opso2.c:94-109. -/
def opso2Loop (src : Src) : (todo t pos : Nat) → (j0 k0 : UInt) → (w1 w2 : List UInt) →
    Res (List UInt × List UInt)
  | 0, _, _, _, _, w1, w2 => .ok (w1, w2)
  | todo + 1, t, pos, j0, k0, w1, w2 =>
    if t % 2 = 0 then do
      let j0 := src pos
      let k0 := src (pos + 1)
      let w1 ← orBit w1 ((j0 >>> 5).toNat % 524288) (j0.toNat % 32)
      let j := j0 &&& 0x0fff#32
      let k := (j <<< 12) ||| (k0 &&& 0x0fff#32)
      let w2 ← orBit w2 (k >>> 5).toNat (k.toNat % 32)
      opso2Loop src todo (t + 1) (pos + 2) j0 k0 w1 w2
    else do
      let w1 ← orBit w1 ((k0 >>> 5).toNat % 524288) (k0.toNat % 32)
      let j := (j0 >>> 12) &&& 0x0fff#32
      let k := (j <<< 12) ||| ((k0 >>> 12) &&& 0x0fff#32)
      let w2 ← orBit w2 (k >>> 5).toNat (k.toNat % 32)
      opso2Loop src todo (t + 1) pos j0 k0 w1 w2

/-- The counting loops, dab_opso2.c:118-123, for one of the two tables. -/
def countClear (w : List UInt) : Nat :=
  ((List.range 32).map fun i => w.countP (fun x => x &&& ((1 : UInt) <<< i) = 0)).sum

/-- `dab_opso2`, dab_opso2.c:55-126, with `tsamples` samples (the code sets `tsamples = 1<<26`, 78): `none`
when the generator has fewer than 24 bits (61-68), otherwise `ptest1.x` and `ptest2.x`. -/
def opso2 (rmaxBits : Nat) (src : Src) (tsamples : Nat) : Res (Option (Nat × Nat)) :=
  if rmaxBits < 24 then .ok none
  else do
    let (w1, w2) ← opso2Loop src tsamples 0 0 0 0 (List.replicate 524288 0) (List.replicate 524288 0)
    pure (some (countClear w1, countClear w2))

/-! ### diehard_bitstream.c -/

/-- `BS_OVERLAP`, diehard_bitstream.c:78. -/
def bsOverlap : Nat := 262146

/-- The loop over `t` with `overlap = 1`, diehard_bitstream.c:122-241. -/
def bitstreamLoop (bs : List UInt) : (todo t : Nat) → (wscratch : UInt) → List Nat → Res (List Nat)
  | 0, _, _, w => .ok w
  | todo + 1, t, wscratch, w => do
    let coffset := (t % 32) / 8
    let boffset := t % 8
    let i := t / 32 + 1
    let wscratch ← (if boffset = 0 then do
        let wscratch ← shl wscratch 8
        let x ← rd bs i
        let newbyte ← shl x (8 * coffset)
        let newbyte ← shr newbyte 24
        pure (wscratch + newbyte)
      else pure wscratch : Res UInt)
    let a ← shl wscratch boffset
    let w20 ← shr a 12
    let w ← bump8 w w20.toNat
    bitstreamLoop bs todo (t + 1) wscratch w

/-- `diehard_bitstream`, diehard_bitstream.c:78-252 (`overlap = 1`, 52; the other branches are dead): `ptest.x`.
`words` is the sequence of values of `get_rand_bits_uint(32,0xffffffff,rng)`; `M` is 2^20
(include/dieharder/libdieharder.h:78). -/
def bitstream (words : Src) (tsamples : Nat) : Res Nat := do
  let bs := (List.range bsOverlap).map words
  let wscratch ← rd bs 0
  let w ← bitstreamLoop bs tsamples 0 wscratch (List.replicate (2 ^ 20) 0)
  pure (w.countP (· = 0))

end Dh
