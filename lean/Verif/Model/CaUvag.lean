import Verif.Model.UintRand
/-
The generators `ca` (libdieharder/rng_ca.c) and `uvag` (libdieharder/rng_uvag.c).
-/
namespace Dh

/-- `rule[RULESIZE]`, rng_ca.c:57-75. -/
def caRule : List Nat := [
  100, 75, 16, 3, 229, 51, 197, 118, 24, 62, 198, 11, 141, 152, 241, 188, 2, 17, 71, 47, 179,
  177, 126, 231, 202, 243, 59, 25, 77, 196, 30, 134, 199, 163, 34, 216, 21, 84, 37, 182, 224,
  186, 64, 79, 225, 45, 143, 20, 48, 147, 209, 221, 125, 29, 99, 12, 46, 190, 102, 220, 80, 215,
  242, 105, 15, 53, 0, 67, 68, 69, 70, 89, 109, 195, 170, 78, 210, 131, 42, 110, 181, 145, 40,
  114, 254, 85, 107, 87, 72, 192, 90, 201, 162, 122, 86, 252, 94, 129, 98, 132, 193, 249, 156,
  172, 219, 230, 153, 54, 180, 151, 83, 214, 123, 88, 164, 167, 116, 117, 7, 27, 23, 213, 235, 5,
  65, 124, 60, 127, 236, 149, 44, 28, 58, 121, 191, 13, 250, 10, 232, 112, 101, 217, 183, 239, 8,
  32, 228, 174, 49, 113, 247, 158, 106, 218, 154, 66, 226, 157, 50, 26, 253, 93, 205, 41, 133,
  165, 61, 161, 187, 169, 6, 171, 81, 248, 56, 175, 246, 36, 178, 52, 57, 212, 39, 176, 184, 185,
  245, 63, 35, 189, 206, 76, 104, 233, 194, 19, 43, 159, 108, 55, 200, 155, 14, 74, 244, 255,
  222, 207, 208, 137, 128, 135, 96, 144, 18, 95, 234, 139, 173, 92, 1, 203, 115, 223, 130, 97,
  91, 227, 146, 4, 31, 120, 211, 38, 22, 138, 140, 237, 238, 251, 240, 160, 142, 119, 73, 103,
  166, 33, 148, 9, 111, 136, 168, 150, 82, 204, 100, 75, 16, 3, 229, 51, 197, 118, 24, 62, 198,
  11, 141, 152, 241, 188, 2, 17, 71, 47, 179, 177, 126, 231, 202, 243, 59, 25, 77, 196, 30, 134,
  199, 163, 34, 216, 21, 84, 37, 182, 224, 186, 64, 79, 225, 45, 143, 20, 48, 147, 209, 221, 125,
  29, 99, 12, 46, 190, 102, 220, 80, 215, 242, 105, 15, 53, 0, 67, 68, 69, 70, 89, 109, 195, 170,
  78, 210, 131, 42, 110, 181, 145, 40, 114, 254, 85, 107, 87, 72, 192, 90, 201, 162, 122, 86,
  252, 94, 129, 98, 132, 193, 249, 156, 172, 219, 230, 153, 54, 180, 151, 83, 214, 123, 88, 164,
  167, 116, 117, 7, 27, 23, 213, 235, 5, 65, 124, 60, 127, 236, 149, 44, 28, 58, 121, 191, 13,
  250, 10, 232, 112, 101, 217, 183, 239, 8, 32, 228, 174, 49, 113, 247, 158, 106, 218, 154, 66,
  226, 157, 50, 26, 253, 93, 205, 41, 133, 165, 61, 161, 187, 169, 6, 171, 81, 248, 56, 175, 246,
  36, 178, 52, 57, 212, 39, 176, 184, 185, 245, 63, 35, 189, 206, 76, 104, 233, 194, 19, 43, 159,
  108, 55, 200, 155, 14, 74, 244, 255, 222, 207, 208, 137, 128, 135, 96, 144, 18, 95, 234, 139,
  173, 92, 1, 203, 115, 223, 130, 97, 91, 227, 146, 4, 31, 120, 211, 38, 22, 138, 140, 237, 238,
  251, 240, 160, 142, 119, 73, 103, 166, 33, 148, 9, 111, 136, 168, 150, 82]

/-- The statics of rng_ca.c: `init_config` (rng_ca.c:52) and `cell_d` (rng_ca.c:55) as an index into
it.  `first_cell` is index 0 and `last_cell` index `CA_WIDTH - 1` after seeding
(rng_ca.c:146-147). -/
structure CaS where
  cells : List (BitVec 8)
  d : Nat
  deriving DecidableEq, Repr

/-- `CA_WIDTH`, rng_ca.c:49. -/
def caWidth : Nat := 2056

/-- `*q = rule[*p + *q]`: `unsigned char` operands are promoted to `int`, the result is truncated
to `unsigned char`. -/
def caUpd (cells : List (BitVec 8)) (p q : Nat) : Res (List (BitVec 8)) := do
  let a ← rd cells p
  let b ← rd cells q
  let v ← rd caRule (a.toNat + b.toNat)
  wr cells q (BitVec.ofNat 8 v)

/-- `*p = rule[*p]`. -/
def caUpd1 (cells : List (BitVec 8)) (p : Nat) : Res (List (BitVec 8)) := do
  let a ← rd cells p
  let v ← rd caRule a.toNat
  wr cells p (BitVec.ofNat 8 v)

/-- `*((unsigned int *)p)` on a little-endian machine. -/
def rdWord (cells : List (BitVec 8)) (p : Nat) : Res UInt := do
  let a ← rd cells p
  let b ← rd cells (p + 1)
  let c ← rd cells (p + 2)
  let d ← rd cells (p + 3)
  .ok (BitVec.ofNat 32 (a.toNat + 256 * b.toNat + 65536 * c.toNat + 16777216 * d.toNat))

/-- `ca_get`, rng_ca.c:77-114.  Forming `cell_a` before the start of the array is undefined. -/
def caGet (s : CaS) : Res (UInt × CaS) :=
  if s.d < 3 then .ub else do
  let c := s.d - 1
  let b := c - 1
  let a := b - 1
  let x ← caUpd s.cells c s.d
  let x ← caUpd x b c
  let x ← caUpd x a b
  if a = 0 then do
    let x ← caUpd1 x a
    let v ← rdWord x a
    .ok (v, ⟨x, caWidth - 1⟩)
  else do
    let x ← caUpd x (a - 1) a
    let v ← rdWord x a
    .ok (v, ⟨x, s.d - 4⟩)

/-- `n` draws. -/
def caDraws : Nat → CaS → Res (List UInt × CaS)
  | 0, s => .ok ([], s)
  | n + 1, s => do
    let (v, s) ← caGet s
    let (vs, s) ← caDraws n s
    .ok (v :: vs, s)

/-- The configuration written by rng_ca.c:131-143 from the global variable `seed`
(`unsigned long`), before and after its increment. -/
def caInit (g g' : BitVec 64) : List (BitVec 8) :=
  (List.range (caWidth - 4)).map (fun i => (g' >>> (i % 32)).truncate 8) ++
    [(g <<< 24).truncate 8, (g <<< 16).truncate 8, (g <<< 8).truncate 8, g.truncate 8]

/-- Lines 140-141: `if (seed != 0xFFFFFFFF) seed++;`. -/
def caBump (g : BitVec 64) : BitVec 64 := if g ≠ 0xFFFFFFFF then g + 1 else g

/-- `ca_set`, rng_ca.c:122-158: parameter `s`, global `seed` = `g`; the result is the new state and
the new value of the global.  The loop runs while `i < CA_WIDTH*CA_WIDTH/4.0`, that is 1056784
times. -/
def caSet (_s : BitVec 64) (g : BitVec 64) : Res (CaS × BitVec 64) := do
  let g' := caBump g
  let (_, st) ← caDraws (caWidth * caWidth / 4) ⟨caInit g g', caWidth - 1⟩
  .ok (st, g')

/-- The globals of rng_uvag.c:97-99 (`rp` is recomputed at every call). -/
structure UvagS where
  svec : List (BitVec 8)
  sindex : BitVec 8
  rndint : UInt
  deriving DecidableEq, Repr

/-- `*((uint *)p) = v` on a little-endian machine. -/
def wrWord (x : List (BitVec 8)) (p : Nat) (v : UInt) : Res (List (BitVec 8)) := do
  let x ← wr x p (v.extractLsb' 0 8)
  let x ← wr x (p + 1) (v.extractLsb' 8 8)
  let x ← wr x (p + 2) (v.extractLsb' 16 8)
  wr x (p + 3) (v.extractLsb' 24 8)

/-- `uvag_get`, rng_uvag.c:102-113.  `TYPE` is `uint`.  The unaligned access through `rp` is modelled
as the access to four bytes. -/
def uvagGet (s : UvagS) : Res (UInt × UvagS) := do
  let k := s.sindex + 1
  let off ← rd s.svec k.toNat
  let w ← rdWord s.svec off.toNat
  let w := w + s.rndint
  let x ← wrWord s.svec off.toNat w
  let v := s.rndint + w
  .ok (v, ⟨x, k, v⟩)

/-- `n` draws. -/
def uvagDraws : Nat → UvagS → Res (List UInt × UvagS)
  | 0, s => .ok ([], s)
  | n + 1, s => do
    let (v, s) ← uvagGet s
    let (vs, s) ← uvagDraws n s
    .ok (v :: vs, s)

/-- The shuffle, rng_uvag.c:173-183: `todo` rounds from `i` on, `kp` as an index into `key`. -/
def uvagShuffle (key : List (BitVec 8)) :
    (todo i kp tot : Nat) → List (BitVec 8) → Res (List (BitVec 8))
  | 0, _, _, _, x => .ok x
  | todo + 1, i, kp, tot, x => do
    let b ← rd key kp
    let kp := kp + 1
    let tot := (tot + b.toNat) % 259
    let temp ← rd x tot
    let xi ← rd x i
    let x ← wr x tot xi
    let x ← wr x i temp
    let e ← rd key kp
    uvagShuffle key todo (i + 1) (if e = 0 then 0 else kp) tot x

/-- Lines 133-135: `svec[i] = i`, truncated to a byte. -/
def uvagFresh : List (BitVec 8) := (List.range 259).map (BitVec.ofNat 8)

/-- The key of rng_uvag.c:159-168 from the 256 answers of `get_rand_bits`. -/
def uvagKey (xs : List UInt) : List (BitVec 8) := (xs.take 255).map (fun x => x.truncate 8) ++ [0]

/-- `uvag_set`, rng_uvag.c:121-196.  `src` is the freshly seeded mt19937_1999 (32 bits per value);
`rb` are the statics of bits.c at the time of the call: the fresh generator restarts at position
0, the buffers keep what they hold. -/
def uvagSet (src : Src) (rb : RBState) : Res (UvagS × RBState) := do
  let rb := { rb with ur := { rb.ur with pos := 0 } }
  let (xs, rb) ← getRandBitsSeq 32 src (List.replicate 256 8) rb
  let x ← uvagShuffle (uvagKey xs) 259 0 0 0 uvagFresh
  .ok (⟨x, 0, 0⟩, rb)

end Dh
