import Mathlib.Data.Rat.Defs
import Verif.Basic
/-
The generators that read a device or the standard input: libdieharder/rng_dev_random.c, rng_dev_urandom.c, rng_dev_arandom.c (the same
code for three devices) and rng_stdin_input_raw.c.  64-bit little-endian machine (`unsigned long int` has eight bytes).
-/
namespace Dh

/-- The bytes of a device or of the standard input that have not been read. -/
abbrev ByteStream := List (BitVec 8)

/-- The value that `fread` stores when it reads the `n` bytes `l`. -/
def leBytes (n : Nat) : List (BitVec 8) → BitVec n
  | [] => 0
  | b :: l => b.setWidth n ||| (leBytes n l <<< 8)

/-- `dev_random_set`, rng_dev_random.c:42-55 (and the same in rng_dev_urandom.c, rng_dev_arandom.c): opens the device, whatever the seed;
`none` if it cannot be opened. -/
def devSet (device : Option ByteStream) (_s : BitVec 64) : Res ByteStream :=
  match device with
  | none => .exit
  | some b => .ok b

/-- `dev_random_get`, rng_dev_random.c:20-34: `fread` of an `unsigned long int`.  The result of `fread` is not checked; after a short
read `j` has no value. -/
def devGet (b : ByteStream) : Res (BitVec 64 × ByteStream) :=
  if b.length < 8 then .ub else .ok (leBytes 64 (b.take 8), b.drop 8)

/-- `dev_random_get_double`, rng_dev_random.c:36-40. -/
def devGetDouble (b : ByteStream) : Res (ℚ × ByteStream) := do
  let (j, b) ← devGet b
  .ok ((j.toNat : ℚ) / 4294967295, b)

/-- A test that stores `gsl_rng_get(rng)` in an `unsigned int`, for example diehard_runs.c:109. -/
def devGetUint (b : ByteStream) : Res (UInt × ByteStream) := do
  let (j, b) ← devGet b
  .ok (j.setWidth 32, b)

/-- `stdin_input_raw_get`, rng_stdin_input_raw.c:14-28. -/
def stdinGet (b : ByteStream) : Res (UInt × ByteStream) :=
  if b.length < 4 then .exit else .ok (leBytes 32 (b.take 4), b.drop 4)

/-- `stdin_input_raw_get_double`, rng_stdin_input_raw.c:30-34. -/
def stdinGetDouble (b : ByteStream) : Res (ℚ × ByteStream) := do
  let (j, b) ← stdinGet b
  .ok ((j.toNat : ℚ) / 4294967295, b)

/-- GSL's `gsl_rng_uniform_int(rng,n)` (used in diehard_craps.c:31) for a generator with the limits 0 and `UINT_MAX` of
rng_dev_random.c:57-64: draws are divided by `scale` until the quotient is below `n`.  (GSL's text, not dieharder's.) -/
def devUniformInt (n : Nat) : (fuel : Nat) → ByteStream → Res (Nat × ByteStream)
  | 0, _ => .loop
  | fuel + 1, b => do
    let (j, b) ← devGet b
    let k := j.toNat / (4294967295 / n)
    if k ≥ n then devUniformInt n fuel b else .ok (k, b)

end Dh
