import Mathlib.Data.Nat.Factorial.Basic
import Mathlib.Data.Real.Basic
import Verif.Basic
/-
Model of libdieharder/random_seed.c, timing.c and prob.c.
-/
namespace Dh

/-- A `struct timeval` as `gettimeofday` fills it: seconds, and microseconds below 1000000. -/
structure TimeVal where
  sec : Nat
  usec : Nat

/-- `makeseed`, timing.c:33-38, and the first case of `random_seed`, random_seed.c:40-43: a `time_t` and a `suseconds_t`, 64 bits each, converted to
`unsigned int`. -/
def makeseed (tv : TimeVal) : UInt := BitVec.ofNat 32 (tv.sec + tv.usec)

/-- `random_seed`, random_seed.c:19-52; `dev` is what can be read from /dev/urandom, if it can be opened.  With fewer than four bytes `fread` leaves part of
`seed` uninitialised.  The bytes are in the order of a little-endian machine. -/
def randomSeed (dev : Option (List (BitVec 8))) (tv : TimeVal) : Res (BitVec 64) :=
  match dev with
  | none => .ok ((makeseed tv).setWidth 64)
  | some (b0 :: b1 :: b2 :: b3 :: _) => .ok ((b3 ++ b2 ++ b1 ++ b0 : BitVec 32).setWidth 64)
  | some _ => .ub

/-- `delta_timing`, timing.c:26-31, with exact arithmetic. -/
noncomputable def deltaTiming (start stop : TimeVal) : ℝ := ((stop.sec : ℤ) - start.sec : ℤ) + 1e-6 * ((stop.usec : ℤ) - start.usec : ℤ)

/-- `gsl_sf_fact`: above 170 the result does not fit into a double, and the error handler of GSL ends the program. -/
noncomputable def gslFact (n : Nat) : Res ℝ := if n ≤ 170 then .ok n.factorial else .exit

/-- `binomial`, prob.c:16-35; `n-k` is a difference of `unsigned int`s. -/
noncomputable def binomialProb (n k : UInt) (p : ℝ) : Res ℝ := do
  let fn ← gslFact n.toNat
  let fk ← gslFact k.toNat
  let fnk ← gslFact (n - k).toNat
  .ok (fn * p ^ k.toNat * (1 - p) ^ (n - k).toNat / (fk * fnk))

end Dh
