import Verif.Basic
import Mathlib.Data.Rat.Floor
/-
rngs_gnu_r.c: the generators of GNU R.  All of them keep their state in one array, `dummyvec[625]` (153); `RNG_Table[k].i_seed`
(155-165) and `mt - 1` (779) point to it, and `ran_x` (856) is another name of it.  The remaining file-scope variables carry nothing
from one call to the next: `RNG_kind` (129) is set from the instance before each use (386), `mti` (780) from `dummyvec[0]` (812),
`ran_arr_buf` (873) is filled before it is read, `ran_arr_ptr` (875) is never read.
A double operation is the exact operation on rational numbers followed by an arbitrary rounding function `rnd`.
-/
namespace Dh

/-- `RNGtype`, rngs_gnu_r.c:84-92, without `USER_UNIF`. -/
inductive RKind where
  | wichmannHill
  | marsagliaMulticarry
  | superDuper
  | mersenneTwister
  | knuthTaocp
  | knuthTaocp2
deriving DecidableEq

/-- `n_seed` in `RNG_Table`, rngs_gnu_r.c:158-164. -/
def RKind.nSeed : RKind → Nat
  | .wichmannHill => 3
  | .marsagliaMulticarry => 2
  | .superDuper => 2
  | .mersenneTwister => 1 + 624
  | .knuthTaocp => 1 + 100
  | .knuthTaocp2 => 1 + 100

/-- `dummyvec`, rngs_gnu_r.c:153, before the first use. -/
def dummyvec : List UInt := List.replicate 625 0

/-- `seed = (69069 * seed + 1)`, rngs_gnu_r.c:315 and 323. -/
def rLcg (seed : UInt) : UInt := 69069 * seed + 1

/-- `for(j = 0; j < n; j++) seed = (69069 * seed + 1);`, rngs_gnu_r.c:314-315. -/
def rScramble : Nat → UInt → UInt
  | 0, seed => seed
  | n + 1, seed => rScramble n (rLcg seed)

/-- The loop rngs_gnu_r.c:322-325. -/
def rFill : (todo j : Nat) → (seed : UInt) → (vec : List UInt) → Res (List UInt)
  | 0, _, _, vec => .ok vec
  | todo + 1, j, seed, vec => do
    let seed := rLcg seed
    let vec ← wr vec j seed
    rFill todo (j + 1) seed vec

/-- `if(v == 0) v = 1;` for an element of the array. -/
def rNonzero (vec : List UInt) (j : Nat) : Res (List UInt) := do
  let v ← rd vec j
  if v = 0 then wr vec j 1 else .ok vec

/-- `v = v % m;` for an element of the array. -/
def rMod (vec : List UInt) (j : Nat) (m : UInt) : Res (List UInt) := do
  let v ← rd vec j
  wr vec j (v % m)

/-- The loop of `FixupSeeds`, rngs_gnu_r.c:275-279: `notallzero`. -/
def rNotAllZero (vec : List UInt) : (todo j : Nat) → Res Bool
  | 0, _ => .ok false
  | todo + 1, j => do
    let v ← rd vec j
    if v ≠ 0 then .ok true else rNotAllZero vec todo (j + 1)

/-- `FixupSeeds(kind, 1)`, rngs_gnu_r.c:239-299, for the four kinds for which `RNG_Init` calls it.  `Randomize` (280), which takes
a new seed from the clock, is not modelled and stands as `.loop`; it is proved not to be reached. -/
def fixupSeeds (kind : RKind) (vec : List UInt) : Res (List UInt) :=
  match kind with
  | .wichmannHill => do
    let vec ← rMod vec 0 30269
    let vec ← rMod vec 1 30307
    let vec ← rMod vec 2 30323
    let vec ← rNonzero vec 0
    let vec ← rNonzero vec 1
    rNonzero vec 2
  | .superDuper => do
    let vec ← rNonzero vec 0
    let v ← rd vec 1
    wr vec 1 (v ||| 1)
  | .marsagliaMulticarry => do
    let vec ← rNonzero vec 0
    rNonzero vec 1
  | .mersenneTwister => do
    let vec ← wr vec 0 624
    let v ← rd vec 0
    let vec ← (if v = 0 then wr vec 0 624 else .ok vec : Res (List UInt))
    let notallzero ← rNotAllZero vec 624 1
    if notallzero then .ok vec else .loop
  | .knuthTaocp => .ok vec
  | .knuthTaocp2 => .ok vec

/-! ### Knuth's generator -/

/-- `mod_diff(x,y)`, rngs_gnu_r.c:862: `((x)-(y))&(MM-1)` with `MM = 1<<30`. -/
def modDiff (x y : UInt) : UInt := (x - y) &&& 0x3fffffff#32

/-- `for (j=0;j<KK;j++) aa[j]=ran_x[j];`, rngs_gnu_r.c:867. -/
def raCopy (ranX : List UInt) : (todo j : Nat) → (aa : List UInt) → Res (List UInt)
  | 0, _, aa => .ok aa
  | todo + 1, j, aa => do
    let v ← rd ranX j
    let aa ← wr aa j v
    raCopy ranX todo (j + 1) aa

/-- `for (;j<n;j++) aa[j]=mod_diff(aa[j-KK],aa[j-LL]);`, rngs_gnu_r.c:868. -/
def raFill : (todo j : Nat) → (aa : List UInt) → Res (List UInt)
  | 0, _, aa => .ok aa
  | todo + 1, j, aa => do
    let x ← rd aa (j - 100)
    let y ← rd aa (j - 37)
    let aa ← wr aa j (modDiff x y)
    raFill todo (j + 1) aa

/-- `for (i=0;i<LL;i++,j++) ran_x[i]=mod_diff(aa[j-KK],aa[j-LL]);`, rngs_gnu_r.c:869. -/
def raBack1 (aa : List UInt) : (todo i j : Nat) → (ranX : List UInt) → Res (List UInt)
  | 0, _, _, ranX => .ok ranX
  | todo + 1, i, j, ranX => do
    let x ← rd aa (j - 100)
    let y ← rd aa (j - 37)
    let ranX ← wr ranX i (modDiff x y)
    raBack1 aa todo (i + 1) (j + 1) ranX

/-- `for (;i<KK;i++,j++) ran_x[i]=mod_diff(aa[j-KK],ran_x[i-LL]);`, rngs_gnu_r.c:870. -/
def raBack2 (aa : List UInt) : (todo i j : Nat) → (ranX : List UInt) → Res (List UInt)
  | 0, _, _, ranX => .ok ranX
  | todo + 1, i, j, ranX => do
    let x ← rd aa (j - 100)
    let y ← rd ranX (i - 37)
    let ranX ← wr ranX i (modDiff x y)
    raBack2 aa todo (i + 1) (j + 1) ranX

/-- `ran_array(aa,n)`, rngs_gnu_r.c:864-871, for `n >= KK = 100`: the arrays `aa` and `ran_x`. -/
def ranArray (aa : List UInt) (n : Nat) (ranX : List UInt) : Res (List UInt × List UInt) := do
  let aa ← raCopy ranX 100 0 aa
  let aa ← raFill (n - 100) 100 aa
  let ranX ← raBack1 aa 37 0 n ranX
  let ranX ← raBack2 aa 63 37 (n + 37) ranX
  .ok (aa, ranX)

/-- The bootstrap loop of `ran_start`, rngs_gnu_r.c:907-910. -/
def rsBoot : (todo j : Nat) → (ss : UInt) → (x : List UInt) → Res (List UInt)
  | 0, _, _, x => .ok x
  | todo + 1, j, ss, x => do
    let x ← wr x j ss
    let ss := ss <<< 1
    let ss := if ss.toNat ≥ 2 ^ 30 then ss - 0x3ffffffe#32 else ss
    rsBoot todo (j + 1) ss x

/-- `for (j=KK-1;j>0;j--) x[j+j]=x[j], x[j+j-1]=0;`, rngs_gnu_r.c:913, from `j` on. -/
def rsSquare : (j : Nat) → (x : List UInt) → Res (List UInt)
  | 0, x => .ok x
  | j + 1, x => do
    let v ← rd x (j + 1)
    let x ← wr x (j + 1 + (j + 1)) v
    let x ← wr x (j + 1 + (j + 1) - 1) 0
    rsSquare j x

/-- `for (j=KK+KK-2;j>=KK;j--) x[j-(KK-LL)]=mod_diff(x[j-(KK-LL)],x[j]), x[j-KK]=mod_diff(x[j-KK],x[j]);`,
rngs_gnu_r.c:914-916, `todo` passes ending with `j = KK`. -/
def rsReduce : (todo : Nat) → (x : List UInt) → Res (List UInt)
  | 0, x => .ok x
  | todo + 1, x => do
    let j := 100 + todo
    let a ← rd x (j - 63)
    let b ← rd x j
    let x ← wr x (j - 63) (modDiff a b)
    let a ← rd x (j - 100)
    let b ← rd x j
    let x ← wr x (j - 100) (modDiff a b)
    rsReduce todo x

/-- `for (j=KK;j>0;j--) x[j]=x[j-1];`, rngs_gnu_r.c:918, from `j` on. -/
def rsShift : (j : Nat) → (x : List UInt) → Res (List UInt)
  | 0, x => .ok x
  | j + 1, x => do
    let v ← rd x j
    let x ← wr x (j + 1) v
    rsShift j x

/-- The loop over `t`, rngs_gnu_r.c:912-923.  `ss` has 30 bits and `t` starts with 69, so that at most 99 passes are made. -/
def rsLoop : (fuel t : Nat) → (ss : UInt) → (x : List UInt) → Res (List UInt)
  | _, 0, _, x => .ok x
  | 0, _ + 1, _, _ => .loop
  | fuel + 1, t + 1, ss, x => do
    let x ← rsSquare 99 x
    let x ← rsReduce 99 x
    let x ← (if ss &&& 1 ≠ 0 then do
        let x ← rsShift 100 x
        let v ← rd x 100
        let x ← wr x 0 v
        let a ← rd x 37
        let b ← rd x 100
        wr x 37 (modDiff a b)
      else .ok x : Res (List UInt))
    if ss ≠ 0 then rsLoop fuel (t + 1) (ss >>> 1) x else rsLoop fuel t ss x

/-- The loops rngs_gnu_r.c:924-925: `todo` passes from `j` on. -/
def rsCopy (x : List UInt) : (todo j : Nat) → (ranX : List UInt) → Res (List UInt)
  | 0, _, ranX => .ok ranX
  | todo + 1, j, ranX => do
    let v ← rd x j
    let ranX ← wr ranX (if j < 37 then j + 63 else j - 37) v
    rsCopy x todo (j + 1) ranX

/-- `for (j=0;j<10;j++) ran_array(x,KK+KK-1);`, rngs_gnu_r.c:926. -/
def rsWarm : Nat → (x ranX : List UInt) → Res (List UInt)
  | 0, _, ranX => .ok ranX
  | n + 1, x, ranX => do
    let (x, ranX) ← ranArray x 199 ranX
    rsWarm n x ranX

/-- `ran_start(seed)`, rngs_gnu_r.c:897-928.  The buffer `x` is not initialised by the code; it is written before it is read. -/
def ranStart (seed : UInt) (ranX : List UInt) : Res (List UInt) := do
  let x := List.replicate 199 0
  let x ← rsBoot 100 0 ((seed + 2) &&& 0x3ffffffe#32) x
  let v ← rd x 1
  let x ← wr x 1 (v + 1)
  let x ← rsLoop 100 69 (seed &&& 0x3fffffff#32) x
  let ranX ← rsCopy x 100 0 ranX
  rsWarm 10 x ranX

/-- `RNG_Init_KT2` and `RNG_Init_R_KT`, rngs_gnu_r.c:931-935 and 946-950; `KT_pos` is `dummyvec[100]` (181). -/
def rngInitKT (seed : UInt) (vec : List UInt) : Res (List UInt) := do
  let vec ← ranStart (seed % 1073741821#32) vec
  wr vec 100 100

/-- `KT_next`, rngs_gnu_r.c:937-944, with `ran_arr_cycle`, 877-883. -/
def ktNext (vec : List UInt) : Res (UInt × List UInt) := do
  let pos ← rd vec 100
  let vec ← (if pos.toNat ≥ 100 then do
      let (buf, vec) ← ranArray (List.replicate 1009 0) 1009 vec
      let _ ← wr buf 100 0xffffffff#32
      wr vec 100 0
    else .ok vec : Res (List UInt))
  let pos ← rd vec 100
  let vec' ← wr vec 100 (pos + 1)
  let v ← rd vec' pos.toNat
  .ok (v, vec')

/-! ### The Mersenne Twister -/

/-- `y >> 1 ^ mag01[y & 1]` for `y = (a & UPPER_MASK) | (b & LOWER_MASK)`, e.g. rngs_gnu_r.c:821-822. -/
def mtTwist (a b : UInt) : UInt :=
  let y := (a &&& 0x80000000#32) ||| (b &&& 0x7fffffff#32)
  (y >>> 1) ^^^ (if y &&& 1 = 0 then 0 else 0x9908b0df#32)

/-- The loops rngs_gnu_r.c:820-829: `mt[kk]` for `kk` up to `N - 1`, where `mt = dummyvec + 1`. -/
def mtGenerate : (todo kk : Nat) → (vec : List UInt) → Res (List UInt)
  | 0, _, vec => .ok vec
  | todo + 1, kk, vec => do
    let a ← rd vec (1 + kk)
    let b ← rd vec (1 + (if kk < 623 then kk + 1 else 0))
    let m ← rd vec (1 + (if kk < 624 - 397 then kk + 397 else kk + 397 - 624))
    let vec ← wr vec (1 + kk) (m ^^^ mtTwist a b)
    mtGenerate todo (kk + 1) vec

/-- The tempering, rngs_gnu_r.c:835-838. -/
def mtTemper (y : UInt) : UInt :=
  let y := y ^^^ (y >>> 11)
  let y := y ^^^ ((y <<< 7) &&& 0x9d2c5680#32)
  let y := y ^^^ ((y <<< 15) &&& 0xefc60000#32)
  y ^^^ (y >>> 18)

/-- `MT_genrand`, rngs_gnu_r.c:806-842, without the multiplication at the end.  `mti` is an `int`: a value of `dummyvec[0]` from
`2^31` on is negative, and `mt[mti]` lies before the array (`mt[-1]` is `dummyvec[0]`).  `MT_sgenrand` (817-818, the value 625) is not modelled and stands as `.loop`; it is proved not to be reached by
a seeded generator. -/
def mtGenrand (vec : List UInt) : Res (UInt × List UInt) := do
  let mti ← rd vec 0
  if mti.toNat ≥ 2 ^ 31 ∧ mti.toNat ≠ 2 ^ 32 - 1 then .ub else
  if mti.toNat = 625 then .loop else do
  let vec ← (if mti.toNat ≥ 624 ∧ mti.toNat < 2 ^ 31 then mtGenerate 624 0 vec else .ok vec : Res (List UInt))
  let mti := if mti.toNat ≥ 624 ∧ mti.toNat < 2 ^ 31 then 0 else mti
  let y ← rd vec (mti + 1).toNat
  let vec ← wr vec 0 (mti + 1)
  .ok (mtTemper y, vec)

/-! ### Seeding and drawing -/

/-- `RNG_Init`, rngs_gnu_r.c:305-361. -/
def rngInit (kind : RKind) (seed : UInt) (vec : List UInt) : Res (List UInt) := do
  let seed := rScramble 50 seed
  match kind with
  | .knuthTaocp => rngInitKT seed vec
  | .knuthTaocp2 => rngInitKT seed vec
  | _ => do
    let vec ← rFill kind.nSeed 0 seed vec
    fixupSeeds kind vec

/-- `i2_32m1`, rngs_gnu_r.c:169. -/
def i2_32m1 : ℚ := 2328306437080797 / 10 ^ 25

/-- `KT`, rngs_gnu_r.c:170. -/
def ktScale : ℚ := 931322574615479 / 10 ^ 24

/-- `fixup`, rngs_gnu_r.c:183-189. -/
def rFixup (rnd : ℚ → ℚ) (x : ℚ) : ℚ :=
  if x ≤ 0 then rnd (1 / 2 * rnd i2_32m1)
  else if rnd (1 - x) ≤ 0 then rnd (1 - rnd (1 / 2 * rnd i2_32m1))
  else x

/-- The value made of the three components, rngs_gnu_r.c:202-203. -/
def whValue (rnd : ℚ → ℚ) (i1 i2 i3 : UInt) : ℚ :=
  let value := rnd (rnd (rnd ((i1.toNat : ℚ) / 30269) + rnd ((i2.toNat : ℚ) / 30307)) + rnd ((i3.toNat : ℚ) / 30323))
  rFixup rnd (rnd (value - (⌊value⌋ : ℚ)))

/-- `fixup(w * c)` for a word `w` and a literal `c`, rngs_gnu_r.c:208, 217, 220 with 841, and 224. -/
def wordValue (rnd : ℚ → ℚ) (w : UInt) (c : ℚ) : ℚ := rFixup rnd (rnd ((w.toNat : ℚ) * rnd c))

/-- One step of the generator `kind` on the array, with the value returned: `unif_rand`, rngs_gnu_r.c:192-235. -/
def unifRand (rnd : ℚ → ℚ) (kind : RKind) (vec : List UInt) : Res (ℚ × List UInt) :=
  match kind with
  | .wichmannHill => do
    let i1 ← rd vec 0
    let i1 := i1 * 171 % 30269
    let vec ← wr vec 0 i1
    let i2 ← rd vec 1
    let i2 := i2 * 172 % 30307
    let vec ← wr vec 1 i2
    let i3 ← rd vec 2
    let i3 := i3 * 170 % 30323
    let vec ← wr vec 2 i3
    .ok (whValue rnd i1 i2 i3, vec)
  | .marsagliaMulticarry => do
    let i1 ← rd vec 0
    let i1 := 36969 * (i1 &&& 0xffff#32) + (i1 >>> 16)
    let vec ← wr vec 0 i1
    let i2 ← rd vec 1
    let i2 := 18000 * (i2 &&& 0xffff#32) + (i2 >>> 16)
    let vec ← wr vec 1 i2
    .ok (wordValue rnd ((i1 <<< 16) ^^^ (i2 &&& 0xffff#32)) i2_32m1, vec)
  | .superDuper => do
    let i1 ← rd vec 0
    let i1 := i1 ^^^ ((i1 >>> 15) &&& 0x1ffff#32)
    let i1 := i1 ^^^ (i1 <<< 17)
    let vec ← wr vec 0 i1
    let i2 ← rd vec 1
    let i2 := i2 * 69069
    let vec ← wr vec 1 i2
    .ok (wordValue rnd (i1 ^^^ i2) i2_32m1, vec)
  | .mersenneTwister => do
    let (y, vec) ← mtGenrand vec
    .ok (wordValue rnd y (23283064365386963 / 10 ^ 26), vec)
  | .knuthTaocp => do
    let (v, vec) ← ktNext vec
    .ok (wordValue rnd v ktScale, vec)
  | .knuthTaocp2 => do
    let (v, vec) ← ktNext vec
    .ok (wordValue rnd v ktScale, vec)

/-- A double converted to `unsigned long`: truncation towards zero, undefined when the result does not fit. -/
def toULong (x : ℚ) : Res Nat :=
  if x ≤ -1 ∨ 2 ^ 64 ≤ x then .ub else .ok ⌊x⌋.toNat

/-- The product with the maximum: `u * RANDNUM_MAX`, rngs_gnu_r.c:378, `u * TAOCP_MAX`, 498, and `u * (1L<<30)-1L`, 528, where
`TAOCP2_MAX` (150) lacks parentheses. -/
def rScale (rnd : ℚ → ℚ) (kind : RKind) (u : ℚ) : ℚ :=
  match kind with
  | .knuthTaocp => rnd (u * 0x3fffffff)
  | .knuthTaocp2 => rnd (rnd (u * 2 ^ 30) - 1)
  | _ => rnd (u * 0xffffffff)

/-- `r_rng_get`, `r_rng_get_taocp` and `r_rng_get_taocp2`, rngs_gnu_r.c:375-380, 495-500 and 525-530. -/
def rRngGet (rnd : ℚ → ℚ) (kind : RKind) (vec : List UInt) : Res (Nat × List UInt) := do
  let (u, vec) ← unifRand rnd kind vec
  let j ← toULong (rScale rnd kind u)
  .ok (j, vec)

/-- The seeding functions, rngs_gnu_r.c:392-401, 415-424, 438-447, 461-470, 484-493, 514-523: `Int32 seed = s`. -/
def rRngSet (kind : RKind) (s : BitVec 64) (vec : List UInt) : Res (List UInt) := rngInit kind (BitVec.truncate 32 s) vec

/-- The advertised maximum, rngs_gnu_r.c:405, 428, 451, 474, 504 and 534. -/
def RKind.max : RKind → Nat
  | .knuthTaocp => 0x3fffffff
  | .knuthTaocp2 => 2 ^ 30 - 1
  | _ => 0xffffffff

end Dh
