import Verif.Basic
/-
The block cipher of libdieharder/skein_block64.c (unrolled version, `SKEIN_UNROLL_512` = 0), that
of skein_block_ref.c, and the generator Threefish_OFB, rng_threefish.c.
-/
namespace Dh

abbrev U64 := BitVec 64

/-- Eight words: the locals `X0..X7`, a key, or a block. -/
structure T8 where
  x0 : U64
  x1 : U64
  x2 : U64
  x3 : U64
  x4 : U64
  x5 : U64
  x6 : U64
  x7 : U64
  deriving DecidableEq, Repr

/-- `RotL_64`, skein_port.h:25; all rotation counts are between 1 and 63. -/
def rotL64 (x : U64) (n : Nat) : U64 := (x <<< n) ||| (x >>> (64 - n))

/-- `X##a += X##b; X##b = RotL_64(X##b,r); X##b ^= X##a`, skein_block64.c:107: the new values. -/
def tfMix (a b : U64) (r : Nat) : U64 × U64 := (a + b, rotL64 b r ^^^ (a + b))

/-- `R512(0,1,2,3,4,5,6,7,...)`, skein_block64.c:106-115, 149 and 154. -/
def tfA (r0 r1 r2 r3 : Nat) (X : T8) : T8 :=
  let (x0, x1) := tfMix X.x0 X.x1 r0
  let (x2, x3) := tfMix X.x2 X.x3 r1
  let (x4, x5) := tfMix X.x4 X.x5 r2
  let (x6, x7) := tfMix X.x6 X.x7 r3
  ⟨x0, x1, x2, x3, x4, x5, x6, x7⟩

/-- `R512(2,1,4,7,6,5,0,3,...)`, skein_block64.c:150 and 155. -/
def tfB (r0 r1 r2 r3 : Nat) (X : T8) : T8 :=
  let (x2, x1) := tfMix X.x2 X.x1 r0
  let (x4, x7) := tfMix X.x4 X.x7 r1
  let (x6, x5) := tfMix X.x6 X.x5 r2
  let (x0, x3) := tfMix X.x0 X.x3 r3
  ⟨x0, x1, x2, x3, x4, x5, x6, x7⟩

/-- `R512(4,1,6,3,0,5,2,7,...)`, skein_block64.c:151 and 156. -/
def tfC (r0 r1 r2 r3 : Nat) (X : T8) : T8 :=
  let (x4, x1) := tfMix X.x4 X.x1 r0
  let (x6, x3) := tfMix X.x6 X.x3 r1
  let (x0, x5) := tfMix X.x0 X.x5 r2
  let (x2, x7) := tfMix X.x2 X.x7 r3
  ⟨x0, x1, x2, x3, x4, x5, x6, x7⟩

/-- `R512(6,1,0,7,2,5,4,3,...)`, skein_block64.c:152 and 157. -/
def tfD (r0 r1 r2 r3 : Nat) (X : T8) : T8 :=
  let (x6, x1) := tfMix X.x6 X.x1 r0
  let (x0, x7) := tfMix X.x0 X.x7 r1
  let (x2, x5) := tfMix X.x2 X.x5 r2
  let (x4, x3) := tfMix X.x4 X.x3 r3
  ⟨x0, x1, x2, x3, x4, x5, x6, x7⟩

/-- The key schedule words: `ks` (9 entries) and `ts` (3 entries), skein_block64.c:73-88. -/
structure TfKs where
  ks : List U64
  ts : List U64

def tfKs (t0 t1 : U64) (k : T8) : TfKs :=
  ⟨[k.x0, k.x1, k.x2, k.x3, k.x4, k.x5, k.x6, k.x7,
    k.x0 ^^^ k.x1 ^^^ k.x2 ^^^ k.x3 ^^^ k.x4 ^^^ k.x5 ^^^ k.x6 ^^^ k.x7 ^^^ 0x5555555555555555],
   [t0, t1, t0 ^^^ t1]⟩

/-- `I512(R)`, skein_block64.c:117-126. -/
def tfI (s : TfKs) (R : Nat) (X : T8) : Res T8 := do
  let k0 ← rd s.ks ((R + 1) % 9)
  let k1 ← rd s.ks ((R + 2) % 9)
  let k2 ← rd s.ks ((R + 3) % 9)
  let k3 ← rd s.ks ((R + 4) % 9)
  let k4 ← rd s.ks ((R + 5) % 9)
  let k5 ← rd s.ks ((R + 6) % 9)
  let k6 ← rd s.ks ((R + 7) % 9)
  let k7 ← rd s.ks ((R + 8) % 9)
  let a ← rd s.ts ((R + 1) % 3)
  let b ← rd s.ts ((R + 2) % 3)
  .ok ⟨X.x0 + k0, X.x1 + k1, X.x2 + k2, X.x3 + k3, X.x4 + k4, X.x5 + (k5 + a), X.x6 + (k6 + b),
    X.x7 + (k7 + BitVec.ofNat 64 R + 1)⟩

/-- `R512_8_rounds(R)`, skein_block64.c:148-158, rotation counts skein.h:250-257. -/
def tf8 (s : TfKs) (R : Nat) (X : T8) : Res T8 := do
  let X := tfA 38 30 50 53 X
  let X := tfB 48 20 43 31 X
  let X := tfC 34 14 15 27 X
  let X := tfD 26 12 58 7 X
  let X ← tfI s (2 * R) X
  let X := tfA 33 49 8 42 X
  let X := tfB 39 27 41 14 X
  let X := tfC 29 26 11 9 X
  let X := tfD 33 51 39 35 X
  tfI s (2 * R + 1) X

/-- `n` times eight rounds from `R` on; skein_block64.c:160-187 is `n = 9`, `R = 0`. -/
def tfRounds (s : TfKs) : (n R : Nat) → T8 → Res T8
  | 0, _, X => .ok X
  | n + 1, R, X => do
    let X ← tf8 s R X
    tfRounds s n (R + 1) X

/-- `Threefish_512_Process_Blocks64` for one block (`blkCnt` = 1), skein_block64.c:43-230; tweak words
`t0`, `t1`, key `k`, input block `w` as little-endian words. -/
def tfBlock64 (t0 t1 : U64) (k w : T8) : Res T8 :=
  let s := tfKs t0 t1 k
  tfRounds s 9 0 ⟨w.x0 + k.x0, w.x1 + k.x1, w.x2 + k.x2, w.x3 + k.x3, w.x4 + k.x4, w.x5 + k.x5 + t0, w.x6 + k.x6 + t1, w.x7 + k.x7⟩

/-! The reference version. -/

/-- `X[a] += X[b]; X[b] = RotL_64(X[b],r); X[b] ^= X[a]`, e.g. skein_block_ref.c:71. -/
def refMix (X : List U64) (a b r : Nat) : Res (List U64) := do
  let xa ← rd X a
  let xb ← rd X b
  let X ← wr X a (xa + xb)
  let xb ← rd X b
  let X ← wr X b (rotL64 xb r)
  let xb ← rd X b
  let xa ← rd X a
  wr X b (xb ^^^ xa)

/-- `X[i] += v`. -/
def refAdd (X : List U64) (i : Nat) (v : U64) : Res (List U64) := do
  let x ← rd X i
  wr X i (x + v)

/-- The loop of `InjectKey(r)`, skein_block_ref.c:32-33. -/
def refInjLoop (ks : List U64) (r : Nat) : (todo i : Nat) → List U64 → Res (List U64)
  | 0, _, X => .ok X
  | todo + 1, i, X => do
    let k ← rd ks ((r + i) % 9)
    let X ← refAdd X i k
    refInjLoop ks r todo (i + 1) X

/-- `InjectKey(r)`, skein_block_ref.c:31-36. -/
def refInject (s : TfKs) (r : Nat) (X : List U64) : Res (List U64) := do
  let X ← refInjLoop s.ks r 8 0 X
  let a ← rd s.ts (r % 3)
  let X ← refAdd X 5 a
  let b ← rd s.ts ((r + 1) % 3)
  let X ← refAdd X 6 b
  refAdd X 7 (BitVec.ofNat 64 r)

/-- One pass of the loop skein_block_ref.c:70-112. -/
def ref8 (s : TfKs) (r : Nat) (X : List U64) : Res (List U64) := do
  let X ← refMix X 0 1 38
  let X ← refMix X 2 3 30
  let X ← refMix X 4 5 50
  let X ← refMix X 6 7 53
  let X ← refMix X 2 1 48
  let X ← refMix X 4 7 20
  let X ← refMix X 6 5 43
  let X ← refMix X 0 3 31
  let X ← refMix X 4 1 34
  let X ← refMix X 6 3 14
  let X ← refMix X 0 5 15
  let X ← refMix X 2 7 27
  let X ← refMix X 6 1 26
  let X ← refMix X 0 7 12
  let X ← refMix X 2 5 58
  let X ← refMix X 4 3 7
  let X ← refInject s (2 * r - 1) X
  let X ← refMix X 0 1 33
  let X ← refMix X 2 3 49
  let X ← refMix X 4 5 8
  let X ← refMix X 6 7 42
  let X ← refMix X 2 1 39
  let X ← refMix X 4 7 27
  let X ← refMix X 6 5 41
  let X ← refMix X 0 3 14
  let X ← refMix X 4 1 29
  let X ← refMix X 6 3 26
  let X ← refMix X 0 5 11
  let X ← refMix X 2 7 9
  let X ← refMix X 6 1 33
  let X ← refMix X 0 7 51
  let X ← refMix X 2 5 39
  let X ← refMix X 4 3 35
  refInject s (2 * r) X

/-- The loop `for (r=1;r <= 9; r++)`. -/
def refRounds (s : TfKs) : (n r : Nat) → List U64 → Res (List U64)
  | 0, _, X => .ok X
  | n + 1, r, X => do
    let X ← ref8 s r X
    refRounds s n (r + 1) X

/-- The schedule of skein_block_ref.c:52-59: parity accumulated over the key words. -/
def refKs (t0 t1 : U64) (key : List U64) : TfKs :=
  ⟨key ++ [key.foldl (fun p k => p ^^^ k) 0x5555555555555555], [t0, t1, t0 ^^^ t1]⟩

/-- The first key injection, skein_block_ref.c:63-65: `X[i] = w[i] + ks[i]` for all `i`. -/
def refFirst (ks w : List U64) : (todo i : Nat) → Res (List U64)
  | 0, _ => .ok []
  | todo + 1, i => do
    let x ← rd w i
    let k ← rd ks i
    let X ← refFirst ks w todo (i + 1)
    .ok ((x + k) :: X)

/-- `Threefish_512_Process_Blocks`, skein_block_ref.c:40-122, one block. -/
def tfBlockRef (t0 t1 : U64) (key w : List U64) : Res (List U64) := do
  let s := refKs t0 t1 key
  let X ← refFirst s.ks w 8 0
  let a ← rd s.ts 0
  let X ← refAdd X 5 a
  let b ← rd s.ts 1
  let X ← refAdd X 6 b
  refRounds s 9 1 X

/-! The generator. -/

/-- `Threefish_state_t`, rng_threefish.c:33-37; the block is held as eight little-endian words
instead of 64 bytes. -/
structure TfS where
  t0 : U64
  t1 : U64
  key : T8
  block : T8
  pos : Nat
  deriving DecidableEq, Repr

/-- The words of a block. -/
def T8.toList (x : T8) : List U64 := [x.x0, x.x1, x.x2, x.x3, x.x4, x.x5, x.x6, x.x7]

/-- `*((unsigned int *)(block + pos))` for `pos` a multiple of 4, on a little-endian machine. -/
def tfWord (b : T8) (pos : Nat) : Res UInt := do
  let w ← rd b.toList (pos / 8)
  .ok ((w >>> (8 * (pos % 8))).setWidth 32)

/-- `threefish_get`, rng_threefish.c:59-73. -/
def tfGet (st : TfS) : Res (UInt × TfS) := do
  let st ← if st.pos + 4 > 64 then do
      let b ← tfBlock64 st.t0 st.t1 st.key st.block
      .ok { st with block := b, pos := 0 }
    else .ok st
  let ret ← tfWord st.block st.pos
  .ok (ret, { st with pos := st.pos + 4 })

/-- Eight consecutive byte values from `a` as a little-endian word. -/
def leBytes8 (a : Nat) : U64 :=
  BitVec.ofNat 64 ((List.range 8).foldr (fun i v => (a + i) % 256 + 256 * v) 0)

/-- The key of rng_threefish.c:88: bytes 64, 65, ..., 127. -/
def tfKey : T8 := ⟨leBytes8 64, leBytes8 72, leBytes8 80, leBytes8 88, leBytes8 96, leBytes8 104, leBytes8 112, leBytes8 120⟩

/-- `threefish_set`, rng_threefish.c:81-115: the tweak is bytes 112..127 for the first encryption, then
its first word is set to 112. -/
def tfSet (_old : TfS) (s : U64) : Res TfS := do
  let b ← tfBlock64 (leBytes8 112) (leBytes8 120) tfKey ⟨s, 0, 0, 0, 0, 0, 0, 0⟩
  .ok ⟨112, leBytes8 120, tfKey, b, 0⟩

/-- `n` draws. -/
def tfDraws : Nat → TfS → Res (List UInt × TfS)
  | 0, st => .ok ([], st)
  | n + 1, st => do
    let (v, st) ← tfGet st
    let (vs, st) ← tfDraws n st
    .ok (v :: vs, st)

end Dh
