import Verif.Model.RijndaelTables
/-
The block cipher of libdieharder/rijndael-alg-fst.c (the branch without `FULL_UNROLL`, which the
project does not define, and without `_MSC_VER`).
-/
namespace Dh

/-- `GETU32(pt)`, rijndael-alg-fst.c:719, for `pt = b + p`. -/
def getU32 (b : List (BitVec 8)) (p : Nat) : Res UInt := do
  let b0 ← rd b p
  let b1 ← rd b (p + 1)
  let b2 ← rd b (p + 2)
  let b3 ← rd b (p + 3)
  .ok ((b0.setWidth 32 <<< 24) ^^^ (b1.setWidth 32 <<< 16) ^^^ (b2.setWidth 32 <<< 8) ^^^ b3.setWidth 32)

/-- The four bytes stored by `PUTU32(ct, st)`, rijndael-alg-fst.c:720. -/
def putU32 (st : UInt) : List (BitVec 8) :=
  [(st >>> 24).setWidth 8, (st >>> 16).setWidth 8, (st >>> 8).setWidth 8, st.setWidth 8]

/-- The S-box word with rotation, rijndael-alg-fst.c:740-743 (and 760-763, 782-785). -/
def ksG (temp : UInt) : Res UInt := do
  let x0 ← rd Te4 ((temp >>> 16) &&& 0xff).toNat
  let x1 ← rd Te4 ((temp >>> 8) &&& 0xff).toNat
  let x2 ← rd Te4 (temp &&& 0xff).toNat
  let x3 ← rd Te4 (temp >>> 24).toNat
  .ok ((x0 &&& 0xff000000) ^^^ (x1 &&& 0x00ff0000) ^^^ (x2 &&& 0x0000ff00) ^^^ (x3 &&& 0x000000ff))

/-- The S-box word without rotation, rijndael-alg-fst.c:795-798. -/
def ksH (temp : UInt) : Res UInt := do
  let x0 ← rd Te4 (temp >>> 24).toNat
  let x1 ← rd Te4 ((temp >>> 16) &&& 0xff).toNat
  let x2 ← rd Te4 ((temp >>> 8) &&& 0xff).toNat
  let x3 ← rd Te4 (temp &&& 0xff).toNat
  .ok ((x0 &&& 0xff000000) ^^^ (x1 &&& 0x00ff0000) ^^^ (x2 &&& 0x0000ff00) ^^^ (x3 &&& 0x000000ff))

/-- `rk[n] = rk[a] ^ rk[b]`. -/
def ksXor (rk : List UInt) (n a b : Nat) : Res (List UInt) := do
  let x ← rd rk a
  let y ← rd rk b
  wr rk n (x ^^^ y)

/-- `temp = rk[b]; rk[n] = rk[a] ^ G(temp) ^ rcon[i]`. -/
def ksRot (rk : List UInt) (n a b i : Nat) : Res (List UInt) := do
  let temp ← rd rk b
  let x ← rd rk a
  let g ← ksG temp
  let c ← rd rcon i
  wr rk n (x ^^^ g ^^^ c)

/-- `temp = rk[b]; rk[n] = rk[a] ^ H(temp)`, rijndael-alg-fst.c:793-798. -/
def ksSub (rk : List UInt) (n a b : Nat) : Res (List UInt) := do
  let temp ← rd rk b
  let x ← rd rk a
  let h ← ksH temp
  wr rk n (x ^^^ h)

/-- The 128-bit loop, rijndael-alg-fst.c:737-752: `todo` passes are left, `p` is how far `rk` has been
advanced. -/
def ks128 : (todo i p : Nat) → List UInt → Res (List UInt)
  | 0, _, _, rk => .ok rk
  | todo + 1, i, p, rk => do
    let rk ← ksRot rk (p + 4) p (p + 3) i
    let rk ← ksXor rk (p + 5) (p + 1) (p + 4)
    let rk ← ksXor rk (p + 6) (p + 2) (p + 5)
    let rk ← ksXor rk (p + 7) (p + 3) (p + 6)
    ks128 todo (i + 1) (p + 4) rk

/-- The 192-bit loop, rijndael-alg-fst.c:757-774; the last of the `todo + 1` passes returns in the
middle. -/
def ks192 : (todo i p : Nat) → List UInt → Res (List UInt)
  | todo, i, p, rk => do
    let rk ← ksRot rk (p + 6) p (p + 5) i
    let rk ← ksXor rk (p + 7) (p + 1) (p + 6)
    let rk ← ksXor rk (p + 8) (p + 2) (p + 7)
    let rk ← ksXor rk (p + 9) (p + 3) (p + 8)
    match todo with
    | 0 => .ok rk
    | todo + 1 => do
      let rk ← ksXor rk (p + 10) (p + 4) (p + 9)
      let rk ← ksXor rk (p + 11) (p + 5) (p + 10)
      ks192 todo (i + 1) (p + 6) rk

/-- The 256-bit loop, rijndael-alg-fst.c:779-804. -/
def ks256 : (todo i p : Nat) → List UInt → Res (List UInt)
  | todo, i, p, rk => do
    let rk ← ksRot rk (p + 8) p (p + 7) i
    let rk ← ksXor rk (p + 9) (p + 1) (p + 8)
    let rk ← ksXor rk (p + 10) (p + 2) (p + 9)
    let rk ← ksXor rk (p + 11) (p + 3) (p + 10)
    match todo with
    | 0 => .ok rk
    | todo + 1 => do
      let rk ← ksSub rk (p + 12) (p + 4) (p + 11)
      let rk ← ksXor rk (p + 13) (p + 5) (p + 12)
      let rk ← ksXor rk (p + 14) (p + 6) (p + 13)
      let rk ← ksXor rk (p + 15) (p + 7) (p + 14)
      ks256 todo (i + 1) (p + 8) rk

/-- `rk[i] = GETU32(cipherKey + 4*i)`. -/
def ksLoad (key : List (BitVec 8)) (i : Nat) (rk : List UInt) : Res (List UInt) := do
  let w ← getU32 key (4 * i)
  wr rk i w

/-- `rijndaelKeySetupEnc`, rijndael-alg-fst.c:728-807: the returned number of rounds and the array
`rk` afterwards. -/
def keySetupEnc (rk : List UInt) (key : List (BitVec 8)) (keyBits : Nat) : Res (Nat × List UInt) := do
  let rk ← ksLoad key 0 rk
  let rk ← ksLoad key 1 rk
  let rk ← ksLoad key 2 rk
  let rk ← ksLoad key 3 rk
  if keyBits = 128 then do
    let rk ← ks128 10 0 0 rk
    .ok (10, rk)
  else do
  let rk ← ksLoad key 4 rk
  let rk ← ksLoad key 5 rk
  if keyBits = 192 then do
    let rk ← ks192 7 0 0 rk
    .ok (12, rk)
  else do
  let rk ← ksLoad key 6 rk
  let rk ← ksLoad key 7 rk
  if keyBits = 256 then do
    let rk ← ks256 6 0 0 rk
    .ok (14, rk)
  else .ok (0, rk)

/-- The four state words `s0..s3` (or `t0..t3`). -/
structure W4 where
  w0 : UInt
  w1 : UInt
  w2 : UInt
  w3 : UInt
  deriving DecidableEq, Repr

/-- One line of a full round: `T0[a>>24] ^ T1[(b>>16)&0xff] ^ T2[(c>>8)&0xff] ^ T3[d&0xff] ^ k`. -/
def tRow (T0 T1 T2 T3 : List UInt) (a b c d k : UInt) : Res UInt := do
  let x0 ← rd T0 (a >>> 24).toNat
  let x1 ← rd T1 ((b >>> 16) &&& 0xff).toNat
  let x2 ← rd T2 ((c >>> 8) &&& 0xff).toNat
  let x3 ← rd T3 (d &&& 0xff).toNat
  .ok (x0 ^^^ x1 ^^^ x2 ^^^ x3 ^^^ k)

/-- One line of the last round, e.g. rijndael-alg-fst.c:1005-1010. -/
def lRow (T : List UInt) (a b c d k : UInt) : Res UInt := do
  let x0 ← rd T (a >>> 24).toNat
  let x1 ← rd T ((b >>> 16) &&& 0xff).toNat
  let x2 ← rd T ((c >>> 8) &&& 0xff).toNat
  let x3 ← rd T (d &&& 0xff).toNat
  .ok ((x0 &&& 0xff000000) ^^^ (x1 &&& 0x00ff0000) ^^^ (x2 &&& 0x0000ff00) ^^^ (x3 &&& 0x000000ff) ^^^ k)

/-- A full encryption round with the round key at `rk + p`, rijndael-alg-fst.c:945-968 (975-998). -/
def encRound (rk : List UInt) (p : Nat) (s : W4) : Res W4 := do
  let k0 ← rd rk p
  let k1 ← rd rk (p + 1)
  let k2 ← rd rk (p + 2)
  let k3 ← rd rk (p + 3)
  let t0 ← tRow Te0 Te1 Te2 Te3 s.w0 s.w1 s.w2 s.w3 k0
  let t1 ← tRow Te0 Te1 Te2 Te3 s.w1 s.w2 s.w3 s.w0 k1
  let t2 ← tRow Te0 Te1 Te2 Te3 s.w2 s.w3 s.w0 s.w1 k2
  let t3 ← tRow Te0 Te1 Te2 Te3 s.w3 s.w0 s.w1 s.w2 k3
  .ok ⟨t0, t1, t2, t3⟩

/-- The last round, rijndael-alg-fst.c:1005-1032. -/
def encLast (rk : List UInt) (p : Nat) (t : W4) : Res W4 := do
  let k0 ← rd rk p
  let k1 ← rd rk (p + 1)
  let k2 ← rd rk (p + 2)
  let k3 ← rd rk (p + 3)
  let s0 ← lRow Te4 t.w0 t.w1 t.w2 t.w3 k0
  let s1 ← lRow Te4 t.w1 t.w2 t.w3 t.w0 k1
  let s2 ← lRow Te4 t.w2 t.w3 t.w0 t.w1 k2
  let s3 ← lRow Te4 t.w3 t.w0 t.w1 t.w2 k3
  .ok ⟨s0, s1, s2, s3⟩

/-- The loop of full rounds, rijndael-alg-fst.c:943-999: the words `t` and how far `rk` has been
advanced.  A start with `r = 0` (fewer than two rounds) would run `r` down through the negative
numbers and off the key array. -/
def encLoop (rk : List UInt) : (r p : Nat) → W4 → Res (W4 × Nat)
  | 0, _, _ => .ub
  | r + 1, p, s => do
    let t ← encRound rk (p + 4) s
    if r = 0 then .ok (t, p + 8)
    else do
      let s ← encRound rk (p + 8) t
      encLoop rk r (p + 8) s

/-- Loading a block and adding the first round key, rijndael-alg-fst.c:864-867 (1045-1048). -/
def loadBlock (rk : List UInt) (b : List (BitVec 8)) : Res W4 := do
  let k0 ← rd rk 0
  let k1 ← rd rk 1
  let k2 ← rd rk 2
  let k3 ← rd rk 3
  let s0 ← getU32 b 0
  let s1 ← getU32 b 4
  let s2 ← getU32 b 8
  let s3 ← getU32 b 12
  .ok ⟨s0 ^^^ k0, s1 ^^^ k1, s2 ^^^ k2, s3 ^^^ k3⟩

/-- Storing a block: the four `PUTU32`. -/
def storeBlock (s : W4) : List (BitVec 8) := putU32 s.w0 ++ putU32 s.w1 ++ putU32 s.w2 ++ putU32 s.w3

/-- `rijndaelEncrypt`, rijndael-alg-fst.c:854-1033: the 16 bytes stored in `ct`. -/
def rijndaelEncrypt (rk : List UInt) (Nr : Nat) (pt : List (BitVec 8)) : Res (List (BitVec 8)) := do
  let s ← loadBlock rk pt
  let (t, p) ← encLoop rk (Nr / 2) 0 s
  let s ← encLast rk p t
  .ok (storeBlock s)

/-! Decryption -/

/-- Swap of `rk[i]` and `rk[j]`. -/
def ksSwap (rk : List UInt) (i j : Nat) : Res (List UInt) := do
  let temp ← rd rk i
  let y ← rd rk j
  let rk ← wr rk i y
  wr rk j temp

/-- The order of the round keys is inverted, rijndael-alg-fst.c:821-826. -/
def ksReverse : (fuel i j : Nat) → List UInt → Res (List UInt)
  | 0, i, j, rk => if i < j then .loop else .ok rk
  | fuel + 1, i, j, rk =>
    if i < j then do
      let rk ← ksSwap rk i j
      let rk ← ksSwap rk (i + 1) (j + 1)
      let rk ← ksSwap rk (i + 2) (j + 2)
      let rk ← ksSwap rk (i + 3) (j + 3)
      ksReverse fuel (i + 4) (j - 4) rk
    else .ok rk

/-- `rk[n] = Td0[Te4[rk[n]>>24] & 0xff] ^ ...`, e.g. rijndael-alg-fst.c:830-834. -/
def ksInvMix (rk : List UInt) (n : Nat) : Res (List UInt) := do
  let w ← rd rk n
  let y0 ← rd Te4 (w >>> 24).toNat
  let y1 ← rd Te4 ((w >>> 16) &&& 0xff).toNat
  let y2 ← rd Te4 ((w >>> 8) &&& 0xff).toNat
  let y3 ← rd Te4 (w &&& 0xff).toNat
  let x0 ← rd Td0 (y0 &&& 0xff).toNat
  let x1 ← rd Td1 (y1 &&& 0xff).toNat
  let x2 ← rd Td2 (y2 &&& 0xff).toNat
  let x3 ← rd Td3 (y3 &&& 0xff).toNat
  wr rk n (x0 ^^^ x1 ^^^ x2 ^^^ x3)

/-- The loop rijndael-alg-fst.c:828-850. -/
def ksInvMixLoop : (todo p : Nat) → List UInt → Res (List UInt)
  | 0, _, rk => .ok rk
  | todo + 1, p, rk => do
    let rk ← ksInvMix rk (p + 4)
    let rk ← ksInvMix rk (p + 5)
    let rk ← ksInvMix rk (p + 6)
    let rk ← ksInvMix rk (p + 7)
    ksInvMixLoop todo (p + 4) rk

/-- `rijndaelKeySetupDec`, rijndael-alg-fst.c:814-852. -/
def keySetupDec (rk : List UInt) (key : List (BitVec 8)) (keyBits : Nat) : Res (Nat × List UInt) := do
  let (Nr, rk) ← keySetupEnc rk key keyBits
  let rk ← ksReverse (Nr + 1) 0 (4 * Nr) rk
  let rk ← ksInvMixLoop (Nr - 1) 0 rk
  .ok (Nr, rk)

/-- A full decryption round, rijndael-alg-fst.c:1126-1149 (1156-1179). -/
def decRound (rk : List UInt) (p : Nat) (s : W4) : Res W4 := do
  let k0 ← rd rk p
  let k1 ← rd rk (p + 1)
  let k2 ← rd rk (p + 2)
  let k3 ← rd rk (p + 3)
  let t0 ← tRow Td0 Td1 Td2 Td3 s.w0 s.w3 s.w2 s.w1 k0
  let t1 ← tRow Td0 Td1 Td2 Td3 s.w1 s.w0 s.w3 s.w2 k1
  let t2 ← tRow Td0 Td1 Td2 Td3 s.w2 s.w1 s.w0 s.w3 k2
  let t3 ← tRow Td0 Td1 Td2 Td3 s.w3 s.w2 s.w1 s.w0 k3
  .ok ⟨t0, t1, t2, t3⟩

/-- The last round, rijndael-alg-fst.c:1186-1213. -/
def decLast (rk : List UInt) (p : Nat) (t : W4) : Res W4 := do
  let k0 ← rd rk p
  let k1 ← rd rk (p + 1)
  let k2 ← rd rk (p + 2)
  let k3 ← rd rk (p + 3)
  let s0 ← lRow Td4 t.w0 t.w3 t.w2 t.w1 k0
  let s1 ← lRow Td4 t.w1 t.w0 t.w3 t.w2 k1
  let s2 ← lRow Td4 t.w2 t.w1 t.w0 t.w3 k2
  let s3 ← lRow Td4 t.w3 t.w2 t.w1 t.w0 k3
  .ok ⟨s0, s1, s2, s3⟩

/-- The loop of full rounds, rijndael-alg-fst.c:1124-1180. -/
def decLoop (rk : List UInt) : (r p : Nat) → W4 → Res (W4 × Nat)
  | 0, _, _ => .ub
  | r + 1, p, s => do
    let t ← decRound rk (p + 4) s
    if r = 0 then .ok (t, p + 8)
    else do
      let s ← decRound rk (p + 8) t
      decLoop rk r (p + 8) s

/-- `rijndaelDecrypt`, rijndael-alg-fst.c:1035-1214. -/
def rijndaelDecrypt (rk : List UInt) (Nr : Nat) (ct : List (BitVec 8)) : Res (List (BitVec 8)) := do
  let s ← loadBlock rk ct
  let (t, p) ← decLoop rk (Nr / 2) 0 s
  let s ← decLast rk p t
  .ok (storeBlock s)

end Dh
