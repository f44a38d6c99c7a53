import Mathlib.Data.Rat.Floor
import Verif.Model.Tally
import Verif.Model.UintRand
/-
Models of four small tests: libdieharder/marsaglia_tsang_gcd.c, diehard_squeeze.c, rgb_persist.c and
rgb_lagged_sums.c, up to the tables and sums they hand to the statistics.
-/
namespace Dh

/-! ### marsaglia_tsang_gcd.c -/

/-- The loop `do{ w = u%v; u = v; v = w; k++; } while(v>0)`, marsaglia_tsang_gcd.c:216-221.  `u % 0` is
undefined. -/
def euclid (u v : UInt) (k : Nat) : Res (UInt × Nat) :=
  if hv : v = 0 then .ub
  else
    let w := u % v
    if w = 0 then .ok (v, k + 1) else euclid v w (k + 1)
termination_by v.toNat
decreasing_by
  have : v.toNat ≠ 0 := fun h => hv (BitVec.eq_of_toNat_eq (by simpa using h))
  simp only [BitVec.toNat_umod]
  exact Nat.mod_lt _ (by omega)

/-- `do{ u = get_rand_bits_uint(32,0xffffffff,rng); } while(u == 0)`, marsaglia_tsang_gcd.c:209-214.  `w` is
the sequence of the words `get_rand_bits_uint` returns. -/
def drawNonzero (w : Src) : (fuel pos : Nat) → Res (UInt × Nat)
  | 0, _ => .loop
  | fuel + 1, pos => if w pos = 0 then drawNonzero w fuel (pos + 1) else .ok (w pos, pos + 1)

/-- `KTBLSIZE`, marsaglia_tsang_gcd.c:43. -/
def ktblsize : Nat := 41

/-- The loop over `t`, marsaglia_tsang_gcd.c:205-242.  `gtblsize` is an `unsigned int`; `gcd` is the
allocated array.  The counters are taken as natural numbers. -/
def gcdLoop (fuel : Nat) (w : Src) (gtblsize : Nat) : (todo pos : Nat) → (gcd ktbl : List Nat) →
    Res (List Nat × List Nat × Nat)
  | 0, pos, gcd, ktbl => .ok (gcd, ktbl, pos)
  | todo + 1, pos, gcd, ktbl => do
    let (u, pos) ← drawNonzero w fuel pos
    let (v, pos) ← drawNonzero w fuel pos
    let (u, k) ← euclid u v 0
    let u := if u.toNat ≥ gtblsize then (gtblsize + 2 ^ 32 - 1) % 2 ^ 32 else u.toNat
    let gcd ← (if u < gtblsize then bump gcd u else .ok gcd)
    let k := if k > ktblsize - 1 then ktblsize - 1 else k
    let ktbl ← bump ktbl k
    gcdLoop fuel w gtblsize todo pos gcd ktbl

/-- The statics `gcd` (153, represented by the number of elements it was allocated with; `none` is the null
pointer) and `gtblsize` (155). -/
structure GcdStatics where
  alloc : Option Nat
  gtblsize : Nat
  deriving DecidableEq, Repr

/-- marsaglia_tsang_gcd.c:186-192.  `size n` is `(uint) sqrt(n*gnorm/100.0)`; `malloc0` says whether
`malloc(0)` returns a null pointer (glibc: no).  A `memset` beyond the allocated array is undefined. -/
def gcdSetup (size : Nat → Nat) (malloc0 : Bool) (st : GcdStatics) (tsamples : Nat) : Res GcdStatics :=
  let g := if st.gtblsize = 0 then size tsamples else st.gtblsize
  let a := match st.alloc with
    | some n => some n
    | none => if g = 0 ∧ malloc0 then none else some g
  if g ≤ a.getD 0 then .ok ⟨a, g⟩ else .ub

/-- `marsaglia_tsang_gcd`, marsaglia_tsang_gcd.c:186-242: the new statics, the two tables and the number of
words drawn. -/
def gcdTest (size : Nat → Nat) (malloc0 : Bool) (fuel : Nat) (w : Src) (st : GcdStatics) (tsamples : Nat) :
    Res (GcdStatics × List Nat × List Nat × Nat) := do
  let st ← gcdSetup size malloc0 st tsamples
  let (g, k, pos) ← gcdLoop fuel w st.gtblsize tsamples 0 (List.replicate st.gtblsize 0) (List.replicate ktblsize 0)
  pure (st, g, k, pos)

/-! ### diehard_squeeze.c -/

/-- `while((k != 1) && (j < 48))`, diehard_squeeze.c:104-108.  `prod k p` is the product of `k` and draw number
`p` as computed in `double`; the conversion of its ceiling to `int` is undefined out of range.  The third
argument counts the steps left to `j = 48`. -/
def squeezeLoop (prod : Int → Nat → ℚ) : (left : Nat) → (k : Int) → (j pos : Nat) → Res (Nat × Nat)
  | 0, _, j, pos => .ok (j, pos)
  | left + 1, k, j, pos =>
    if k = 1 then .ok (j, pos)
    else
      let c := ⌈prod k pos⌉
      if c < -(2 ^ 31) ∨ 2 ^ 31 ≤ c then .ub else squeezeLoop prod left c (j + 1) (pos + 1)

/-- The loop over the samples, diehard_squeeze.c:99-116 (`i` is an `int`, so that at most 2^31 samples are
covered). -/
def squeezeSamples (prod : Int → Nat → ℚ) : (todo pos : Nat) → List Nat → Res (List Nat × Nat)
  | 0, pos, x => .ok (x, pos)
  | todo + 1, pos, x => do
    let (j, pos) ← squeezeLoop prod 48 2147483647 0 pos
    let j := if j < 6 then 6 else j
    let x ← bump x (j - 6)
    squeezeSamples prod todo pos x

/-- `diehard_squeeze`, diehard_squeeze.c:85-116: the table and the number of draws. -/
def squeeze (prod : Int → Nat → ℚ) (tsamples : Nat) : Res (List Nat × Nat) :=
  squeezeSamples prod tsamples 0 (List.replicate 43 0)

/-! ### rgb_persist.c -/

/-- The loop over `i`, rgb_persist.c:56-73, over the values still to visit. -/
def persistLoop (last : UInt) : List UInt → UInt → UInt
  | [], m => m
  | x :: xs, m => persistLoop last xs (m &&& ~~~(last ^^^ x))

/-- One sample, rgb_persist.c:53-75; `s` are the 256 values drawn. -/
def persistSample (rmaxMask : UInt) (s : List UInt) (cum : UInt) : Res UInt := do
  let last ← rd s 0
  let m := persistLoop last s (~~~(last ^^^ last))
  pure (cum ||| (m &&& rmaxMask))

/-- The loop over `j`, rgb_persist.c:40-76.  `draws j i` is value `i` of sample `j`: the generator is
reseeded between samples (46-49) unless it reads a file. -/
def persistSamples (rmaxMask : UInt) (draws : Nat → Nat → UInt) : (todo j : Nat) → UInt → Res UInt
  | 0, _, cum => .ok cum
  | todo + 1, j, cum => do
    let cum ← persistSample rmaxMask ((List.range 256).map (draws j)) cum
    persistSamples rmaxMask draws todo (j + 1) cum

/-- `rgb_persist`, rgb_persist.c:39-76: the cumulative mask. -/
def persist (rmaxMask : UInt) (draws : Nat → Nat → UInt) (psamples : Nat) : Res UInt :=
  persistSamples rmaxMask draws psamples 0 0

/-! ### rgb_lagged_sums.c -/

/-- `for(i=0;i<lag;i++) gsl_rng_uniform(rng)`, rgb_lagged_sums.c:74: only the position moves. -/
def lagSkip : (todo pos : Nat) → Nat
  | 0, pos => pos
  | todo + 1, pos => lagSkip todo (pos + 1)

/-- The loop over `t`, rgb_lagged_sums.c:66-79; the sum is taken as exact. -/
def laggedLoop (u : Nat → ℚ) (lag : Nat) : (todo pos : Nat) → (x : ℚ) → ℚ × Nat
  | 0, pos, x => (x, pos)
  | todo + 1, pos, x =>
    let pos := lagSkip lag pos
    laggedLoop u lag todo (pos + 1) (x + u pos)

/-- `rgb_lagged_sums`, rgb_lagged_sums.c:58-79: `ptest.x` and the number of draws. -/
def laggedSums (u : Nat → ℚ) (lag tsamples : Nat) : ℚ × Nat := laggedLoop u lag tsamples 0 0

end Dh
