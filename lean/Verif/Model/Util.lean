import Mathlib.Data.Rat.Floor
import Verif.Model.Tally
/-
Small routines: the bit width of a generator (choose_rng.c), line splitting (parse.c), histogram.c.
-/
namespace Dh

/-! ### dieharder/choose_rng.c -/

/-- The loop of dieharder/choose_rng.c:266-271 (the same code is in rng_uvag.c:153-158) on
`(rmax, rmax_mask, rmax_bits)`; `fuel` bounds the number of iterations. -/
def rmaxLoop : (fuel : Nat) → (rmax rmaxMask : UInt) → (rmaxBits : Nat) → Res (UInt × Nat)
  | 0, _, _, _ => .loop
  | fuel + 1, rmax, rmaxMask, rmaxBits =>
    if rmax = 0 then .ok (rmaxMask, rmaxBits)
    else rmaxLoop fuel (rmax >>> 1) ((rmaxMask <<< 1) + 1) (rmaxBits + 1)

/-- dieharder/choose_rng.c:262-271: `(rmax_mask, rmax_bits)` for a generator whose `gsl_rng_max` is `max`.  The
maximum is an `unsigned long`; `random_max` is an `unsigned int` (include/dieharder/libdieharder.h:298).  33
iterations are enough for the model to leave the loop. -/
def rmaxSetup (max : Nat) : Res (UInt × Nat) :=
  rmaxLoop 33 (BitVec.ofNat 32 max) 0 0

/-! ### libdieharder/parse.c -/

/-- Characters are bytes; a string is given by its bytes before the terminating zero. -/
abbrev Str := List (BitVec 8)

/-- The delimiters, parse.c:39-45. -/
def isDelim (c : BitVec 8) : Bool := c = 32 || c = 9 || c = 44 || c = 10 || c = 13 || c = 58

/-- `strtok` of the C library on the rest of a string: skip delimiters; no token if nothing is left; otherwise
the token runs up to the next delimiter, and the search continues after that. -/
def strtok (s : Str) : Option (Str × Str) :=
  match s.dropWhile isDelim with
  | [] => none
  | c :: t => some ((c :: t).takeWhile (fun x => !isDelim x), ((c :: t).dropWhile (fun x => !isDelim x)).drop 1)

/-- `PBUF`, include/dieharder/parse.h:15. -/
def PBUF : Nat := 128

/-- `PK`, include/dieharder/parse.h:16. -/
def PK : Nat := 1024

/-- `strncpy(buf, s, PBUF)`: the contents of `buf`, which has `PBUF` bytes. -/
def strncpyBuf (s : Str) : List (BitVec 8) := s.take PBUF ++ List.replicate (PBUF - s.length) 0

/-- The loop of parse.c:57-65 and the `memset` of 68: fields are stored from `i` on.  Each iteration consumes
at least one character, so `fuel` can be the length of the string. -/
def splitLoop : (fuel : Nat) → (s : Str) → (i : Nat) → List (List (BitVec 8)) → Res (Nat × List (List (BitVec 8)))
  | 0, _, _, _ => .loop
  | fuel + 1, s, i, buf =>
    if i < PK - 1 then
      match strtok s with
      | none => do
        let buf ← wr buf i (List.replicate PBUF 0)
        pure (i, buf)
      | some (tok, rest) => do
        let buf ← wr buf i (strncpyBuf tok)
        splitLoop fuel rest (i + 1) buf
    else do
      let buf ← wr buf i (List.replicate PBUF 0)
      pure (i, buf)

/-- `split`, parse.c:25-76: the return value and `splitbuf`. -/
def split (line : Str) (buf : List (List (BitVec 8))) : Res (Nat × List (List (BitVec 8))) :=
  match strtok line with
  | none => .ok (0, buf)
  | some (tok, rest) => do
    let buf ← wr buf 0 (strncpyBuf tok)
    splitLoop (line.length + 1) rest 1 buf

/-- `chop`, parse.c:134-142: drops the last character; on the empty string it writes before the buffer. -/
def chop (s : Str) : Res Str := if s = [] then .ub else .ok s.dropLast

/-- The C string that starts at the beginning of the bytes `b`, if it ends within them. -/
def cstring (b : List (BitVec 8)) : Option Str :=
  if 0 ∈ b then some (b.takeWhile (· ≠ 0)) else none

/-! ### libdieharder/histogram.c -/

/-- Conversion of a double to `int`: rounding towards zero, undefined if the result does not fit. -/
def toInt (q : ℚ) : Res Int :=
  let z : Int := if 0 ≤ q then ⌊q⌋ else -⌊-q⌋
  if -2 ^ 31 ≤ z ∧ z < 2 ^ 31 then .ok z else .ub

/-- The loop of histogram.c:49-57 (and dieharder/output.c:598-606) with `(bin, binmax)`. -/
def histLoop (binscale : ℚ) (nbins : Nat) : List ℚ → List Nat → Nat → Res (List Nat × Nat)
  | [], bin, binmax => .ok (bin, binmax)
  | x :: xs, bin, binmax => do
    let hindex ← toInt (x / binscale)
    let hindex := if hindex < 0 then 0 else hindex
    let hindex := if hindex ≥ nbins then (nbins : Int) - 1 else hindex
    let bin ← bump bin hindex.toNat
    let b ← rd bin hindex.toNat
    histLoop binscale nbins xs bin (if b > binmax then b else binmax)

/-- `histogram`, histogram.c:30-57, and `output_histogram`, dieharder/output.c:571-606: the bins and the largest
of them.  Doubles are rationals. -/
def histogram (input : List ℚ) (min max : ℚ) (nbins : Nat) : Res (List Nat × Nat) :=
  histLoop ((max - min) / nbins) nbins input (List.replicate nbins 0) 0

end Dh
