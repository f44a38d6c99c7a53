import Verif.Model.UintRand
/-
Models of libdieharder/rng_kiss.c, rng_superkiss.c and rng_XOR.c.  The seeding generator
mt19937_1999 of the GSL is a parameter: the stream `seed i` of its values.
-/
namespace Dh

/-- `kiss_state_t`, rng_kiss.c:29-41. -/
structure KissS where
  x : UInt
  y : UInt
  z : UInt
  c : UInt
  deriving DecidableEq, Repr

/-- The 64-bit intermediate `t = 4294584393ULL * z + c`, rng_kiss.c:53. -/
def kissT (s : KissS) : BitVec 64 := 4294584393#64 * s.z.zeroExtend 64 + s.c.zeroExtend 64

/-- The three xorshift lines rng_kiss.c:50-52. -/
def kissY (y : UInt) : UInt :=
  let y := y ^^^ (y <<< 5)
  let y := y ^^^ (y >>> 7)
  y ^^^ (y <<< 22)

/-- State change of `kiss_get`, rng_kiss.c:49-55. -/
def kissStep (s : KissS) : KissS :=
  ⟨314527869#32 * s.x + 1234567#32, kissY s.y, (kissT s).truncate 32, (kissT s >>> 32).truncate 32⟩

/-- `kiss_get`, rng_kiss.c:44-58. -/
def kissGet (s : KissS) : UInt × KissS :=
  let s := kissStep s
  (s.x + s.y + s.z, s)

/-- `while (!(state->y = gsl_rng_get(seed_rng)));`, rng_kiss.c:87; `i` is the number of seed
values used so far. -/
def kissFindY (seed : Src) : (fuel i : Nat) → Res (UInt × Nat)
  | 0, _ => .loop
  | fuel + 1, i => if seed i ≠ 0 then .ok (seed i, i + 1) else kissFindY seed fuel (i + 1)

/-- `kiss_set`, rng_kiss.c:65-100. -/
def kissSet (seed : Src) (fuel : Nat) : Res KissS := do
  let (y, i) ← kissFindY seed fuel 1
  .ok ⟨seed 0, y, seed i, BitVec.ofNat 32 ((seed (i + 1)).toNat % 698769068 + 1)⟩

/-- `n` draws. -/
def kissDraws : Nat → KissS → List UInt × KissS
  | 0, s => ([], s)
  | n + 1, s =>
    let (v, s) := kissGet s
    let (vs, s) := kissDraws n s
    (v :: vs, s)

/-- `SUPERKISS_QMAX`, rng_superkiss.c:27. -/
def skQmax : Nat := 41790

/-- `superkiss_state_t`, rng_superkiss.c:34-49. -/
structure SKS where
  Q : List UInt
  indx : Nat
  carry : UInt
  xcng : UInt
  xs : UInt

/-- The loop of `superkiss_refill`, rng_superkiss.c:56-60 (`todo` cells from `i` on). -/
def skRefillLoop : (todo i : Nat) → List UInt → UInt → Res (List UInt × UInt)
  | 0, _, Q, carry => .ok (Q, carry)
  | todo + 1, i, Q, carry => do
    let q ← rd Q i
    let t : BitVec 64 := 7010176#64 * q.zeroExtend 64 + carry.zeroExtend 64
    let Q ← wr Q i ((~~~t).truncate 32)
    skRefillLoop todo (i + 1) Q ((t >>> 32).truncate 32)

/-- `superkiss_refill`, rng_superkiss.c:51-65. -/
def skRefill (s : SKS) : Res (BitVec 64 × SKS) := do
  let (Q, carry) ← skRefillLoop skQmax 0 s.Q s.carry
  let q ← rd Q 0
  .ok (q.zeroExtend 64, { s with Q := Q, carry := carry, indx := 1 })

/-- The xorshift lines rng_superkiss.c:74-76. -/
def skXs (x : UInt) : UInt :=
  let x := x ^^^ (x <<< 13)
  let x := x ^^^ (x >>> 17)
  x ^^^ (x >>> 5)

/-- `superkiss_get`, rng_superkiss.c:67-80.  The conditional expression has type
`unsigned long` (64 bits), because `superkiss_refill` returns one, and so has the sum. -/
def skGet (s : SKS) : Res (BitVec 64 × SKS) := do
  let s := { s with xcng := 69069#32 * s.xcng + 123#32, xs := skXs s.xs }
  let (q, s) ← (if s.indx < skQmax then do
      let q ← rd s.Q s.indx
      .ok (q.zeroExtend 64, { s with indx := s.indx + 1 })
    else skRefill s : Res (BitVec 64 × SKS))
  .ok (q + s.xcng.zeroExtend 64 + s.xs.zeroExtend 64, s)

/-- `superkiss_set`, rng_superkiss.c:89-117. -/
def skSet (seed : Src) : SKS :=
  ⟨(List.range skQmax).map seed, skQmax, 362436, 1236789, 521288629⟩

/-- `n` draws. -/
def skDraws : Nat → SKS → Res (List (BitVec 64) × SKS)
  | 0, s => .ok ([], s)
  | n + 1, s => do
    let (v, s) ← skGet s
    let (vs, s) ← skDraws n s
    .ok (v :: vs, s)

/-- The generators `grngs[0..]` of `XOR_state_t`: streams of values (only their low 32 bits
matter, `XOR_rnd` being an `unsigned int`) with the number of values drawn from each. -/
structure XorS where
  gens : List (Src × Nat)

/-- `gsl_rng_get(state->grngs[i])`. -/
def xorDraw (i : Nat) (s : XorS) : Res (UInt × XorS) := do
  let (g, p) ← rd s.gens i
  .ok (g p, ⟨s.gens.set i (g, p + 1)⟩)

/-- `for(i=1;i<gvcount;i++) XOR_rnd ^= gsl_rng_get(grngs[i]);`, rng_XOR.c:43-45. -/
def xorLoop : (todo i : Nat) → UInt → XorS → Res (UInt × XorS)
  | 0, _, v, s => .ok (v, s)
  | todo + 1, i, v, s => do
    let (w, s) ← xorDraw i s
    xorLoop todo (i + 1) (v ^^^ w) s

/-- `XOR_get`, rng_XOR.c:32-48; `gvcount` is the length of the vector (entry 0 is the seeding
generator, rng_XOR.c:62-69). -/
def xorGet (s : XorS) : Res (UInt × XorS) := do
  let (v, s) ← xorDraw 1 s
  xorLoop (s.gens.length - 1) 1 v s

end Dh
