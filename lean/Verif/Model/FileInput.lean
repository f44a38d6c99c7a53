import Mathlib.Data.Nat.Digits.Defs
import Verif.Model.Util
import Verif.Model.BitString
/-
Random numbers in files: libdieharder/rng_file_input.c, libdieharder/rng_file_input_raw.c and the writer
dieharder/output_rnds.c.

A file is the list of its bytes, an open stream (`FILE *`) the bytes that have not been read yet.  Opening and stating the file
succeed.  Messages (`verbose`, stderr) are left out.  `off_t` counters are integers without bound, `int` is checked.
-/
namespace Dh

/-! ### The C library -/

/-- `fgets` of at most `n` characters: up to and with the first newline. -/
def lineOf : Nat → Str → Str × Str
  | 0, r => ([], r)
  | _ + 1, [] => ([], [])
  | n + 1, c :: r => if c = 10 then ([c], r) else (c :: (lineOf n r).1, (lineOf n r).2)

/-- `fgets(inbuf, K, fp)` with `K` 1024 (include/dieharder/libdieharder.h:75): the line and the rest, or end of file. -/
def fgets (r : Str) : Option (Str × Str) := if r = [] then none else some (lineOf 1023 r)

/-- A buffer with these bytes as a C string. -/
def cstr (l : Str) : Str := l.takeWhile (· ≠ 0)

/-- `isspace`. -/
def isSpace (c : BitVec 8) : Bool := c = 32 || (decide (9 ≤ c.toNat) && decide (c.toNat ≤ 13))

/-- The value of a digit in bases up to 16. -/
def digitVal (c : BitVec 8) : Nat :=
  if 48 ≤ c.toNat ∧ c.toNat ≤ 57 then c.toNat - 48
  else if 97 ≤ c.toNat ∧ c.toNat ≤ 102 then c.toNat - 87
  else if 65 ≤ c.toNat ∧ c.toNat ≤ 70 then c.toNat - 55
  else 99

/-- Is this a digit of the base? -/
def isDigit (base : Nat) (c : BitVec 8) : Bool := decide (digitVal c < base)

/-- The number written by the digits. -/
def digitsVal (base : Nat) (ds : Str) : Nat := ds.foldl (fun a c => base * a + digitVal c) 0

/-- An optional sign: is it a minus, and what follows. -/
def sign : Str → Bool × Str
  | c :: s => if c = 45 then (true, s) else if c = 43 then (false, s) else (false, c :: s)
  | [] => (false, [])

/-- The optional `0x` of base 16. -/
def hexPrefix (base : Nat) : Str → Str
  | 48 :: c :: s => if base = 16 ∧ (c = 120 ∨ c = 88) then s else 48 :: c :: s
  | s => s

/-- `sscanf(s, "%u", &iret)` (`%o`, `%x`) as used in rng_file_input.c:107-110, 132-135, 141-150.  At the end of the string it
returns `EOF`, which the code does not tell from success, and `iret` is then used uninitialised; without a digit it returns 0
and the code exits; a number that does not fit is undefined. -/
def scanUInt (base : Nat) (s : Str) : Res UInt :=
  let s := s.dropWhile isSpace
  if s = [] then .ub else
  let (neg, s) := sign s
  let ds := (hexPrefix base s).takeWhile (isDigit base)
  if ds = [] then .exit else
  if digitsVal base ds < 2 ^ 32 then
    .ok (if neg then -BitVec.ofNat 32 (digitsVal base ds) else BitVec.ofNat 32 (digitsVal base ds))
  else .ub

/-- `atoi`: no digits give 0, a number that does not fit an `int` is undefined. -/
def atoi (s : Str) : Res Int :=
  let s := s.dropWhile isSpace
  let (neg, s) := sign s
  let v : Int := digitsVal 10 (s.takeWhile (isDigit 10))
  let v := if neg then -v else v
  if -2 ^ 31 ≤ v ∧ v < 2 ^ 31 then .ok v else .ub

/-- The exponent of a floating point number: `e`, an optional sign, digits. -/
def scanExp : Str → Int
  | c :: s =>
    if c = 101 ∨ c = 69 then
      let (neg, s) := sign s
      let v : Int := digitsVal 10 (s.takeWhile (isDigit 10))
      if neg then -v else v
    else 0
  | [] => 0

/-- The fraction: the digits after a point, and what follows. -/
def scanFrac : Str → Str × Str
  | c :: s => if c = 46 then (s.takeWhile (isDigit 10), s.dropWhile (isDigit 10)) else ([], c :: s)
  | [] => ([], [])

/-- `sscanf(s, "%lg", &f)` as used in rng_file_input.c:122-125: decimal notation, rounded by `rnd`.  Hexadecimal notation,
infinities and NaNs are not modelled. -/
def scanDouble (rnd : ℚ → ℚ) (s : Str) : Res ℚ :=
  let s := s.dropWhile isSpace
  if s = [] then .ub else
  let (neg, s) := sign s
  let ip := s.takeWhile (isDigit 10)
  let (fp, s) := scanFrac (s.dropWhile (isDigit 10))
  if ip ++ fp = [] then .exit else
  let v : ℚ := (digitsVal 10 (ip ++ fp) : ℚ) * (10 : ℚ) ^ (scanExp s - fp.length)
  .ok (rnd (if neg then -v else v))

/-- `(uint) f`: towards zero, undefined if the result does not fit. -/
def toUInt (q : ℚ) : Res UInt :=
  if -1 < q ∧ q < 2 ^ 32 then .ok (BitVec.ofInt 32 (if 0 ≤ q then ⌊q⌋ else 0)) else .ub

/-! ### libdieharder/rng_file_input.c -/

/-- `file_input_state_t` (include/dieharder/libdieharder.h:275-281) with the globals `filetype`, `filenumbits` and `splitbuf`. -/
structure FileS where
  fp : Option Str
  flen : Int
  rptr : Int
  rtot : Int
  rewindCnt : UInt
  ftype : BitVec 8
  numbits : Int
  sbuf : List (List (BitVec 8))
  deriving DecidableEq, Repr

/-- The `switch` of rng_file_input.c:101-166 on a line.  For type `b` the array is the line with its terminator (what follows is
uninitialised), characters are taken as unsigned. -/
def convertLine (rnd : ℚ → ℚ) (ty : BitVec 8) (numbits : Int) (l : Str) : Res UInt :=
  if ty = 100 ∨ ty = 105 ∨ ty = 117 then scanUInt 10 (cstr l)
  else if ty = 101 ∨ ty = 69 ∨ ty = 102 ∨ ty = 70 ∨ ty = 103 then do
    let f ← scanDouble rnd (cstr l)
    let u ← toUInt f
    .ok (u * 0xffffffff#32)
  else if ty = 111 then scanUInt 8 (cstr l)
  else if ty = 120 ∨ ty = 88 then scanUInt 16 (cstr l)
  else if ty = 98 then bit2uint ((l ++ [0]).map fun (b : BitVec 8) => Char.ofNat b.toNat) (BitVec.ofInt 32 numbits).toNat
  else .exit

/-- One header line that is not a comment, rng_file_input.c:317-352, and the new `cnt`. -/
def headerLine (cnt : Nat) (l : Str) (st : FileS) : Res (Nat × FileS) := do
  let l ← chop (cstr l)
  let (numfields, sbuf) ← split l st.sbuf
  if numfields ≠ 2 then .exit else do
  let st := { st with sbuf := sbuf }
  let f0 ← rd sbuf 0
  let f1 ← rd sbuf 1
  if f0.take 4 = [116, 121, 112, 101] then do
    let c ← rd f1 0
    .ok (cnt + 1, { st with ftype := c })
  else if f0.take 5 = [99, 111, 117, 110, 116] then
    match cstring f1 with
    | none => .ub
    | some s => do
      let v ← atoi s
      .ok (cnt + 1, { st with flen := v })
  else if f0.take 6 = [110, 117, 109, 98, 105, 116] then
    match cstring f1 with
    | none => .ub
    | some s => do
      let v ← atoi s
      .ok (cnt + 1, { st with numbits := v })
  else .ok (cnt, st)

/-- The loop over the header, rng_file_input.c:291-354.  Every round reads at least one character. -/
def headerLoop : (fuel : Nat) → (cnt : Nat) → FileS → Res FileS
  | 0, _, _ => .loop
  | fuel + 1, cnt, st =>
    if cnt < 3 then
      match st.fp with
      | none => .ub
      | some r =>
        match fgets r with
        | none => .exit
        | some (l, r) => do
          let st := { st with fp := some r }
          let c ← rd (l ++ [0]) 0
          let (cnt, st) ← (if c = 35 then .ok (cnt, st) else headerLine cnt l st : Res (Nat × FileS))
          headerLoop fuel cnt st
    else .ok st

/-- `file_input_set`, rng_file_input.c:205-358. -/
def fileSet (file : Str) (s : BitVec 64) (st : FileS) : Res FileS :=
  let st := if st.fp ≠ none ∧ s ≠ 0 then { st with fp := none } else st
  if st.fp = none then
    let st := { st with fp := some file, rptr := 0 }
    let st := if s ≠ 0 then { st with rtot := 0, rewindCnt := 0 } else st
    headerLoop (file.length + 1) 0 st
  else if st.rptr ≥ st.flen then
    headerLoop (file.length + 1) 0 { st with fp := some file, rptr := 0, rewindCnt := st.rewindCnt + 1 }
  else .ok st

/-- `file_input_get`, rng_file_input.c:77-192. -/
def fileGet (rnd : ℚ → ℚ) (file : Str) (st : FileS) : Res (UInt × FileS) :=
  match st.fp with
  | none => .exit
  | some r =>
    match fgets r with
    | none => .exit
    | some (l, r) => do
      let v ← convertLine rnd st.ftype st.numbits l
      let st := { st with fp := some r, rptr := st.rptr + 1, rtot := st.rtot + 1 }
      let st ← (if st.rptr = st.flen then fileSet file 0 st else .ok st : Res FileS)
      .ok (v, st)

/-- `file_input_get_rewind_cnt`, rng_file_input.c:49-62. -/
def rewindReport (rewindCnt : UInt) (rptr : Int) : UInt := if rewindCnt ≠ 0 ∧ rptr = 0 then rewindCnt - 1 else rewindCnt

/-- The state of `gsl_rng_alloc` (zeroed) before its first call of `file_input_set`; the globals are arbitrary. -/
def fileAlloc (ty : BitVec 8) (nb : Int) (sbuf : List (List (BitVec 8))) : FileS := ⟨none, 0, 0, 0, 0, ty, nb, sbuf⟩

/-! ### libdieharder/rng_file_input_raw.c -/

/-- `file_input_state_t` and the static `first` of rng_file_input_raw.c:104. -/
structure RawS where
  fp : Option Str
  flen : Nat
  rptr : Nat
  rtot : Nat
  rewindCnt : UInt
  first : Bool
  deriving DecidableEq, Repr

/-- `file_input_raw_set`, rng_file_input_raw.c:101-239, for a regular file. -/
def rawSet (file : Str) (s : BitVec 64) (st : RawS) : Res RawS := do
  let st ← (if st.first then
      if file.length / 4 < 16 then .exit else .ok { st with fp := none, flen := file.length / 4, first := false }
    else .ok st : Res RawS)
  let st := if st.fp ≠ none ∧ s ≠ 0 then { st with fp := none } else st
  if st.fp = none then
    let st := { st with fp := some file, rptr := 0 }
    .ok (if s ≠ 0 then { st with rtot := 0, rewindCnt := 0 } else st)
  else if st.flen ≠ 0 ∧ st.rptr ≥ st.flen then
    .ok { st with fp := some file, rptr := 0, rewindCnt := st.rewindCnt + 1 }
  else .ok st

/-- `file_input_raw_get`, rng_file_input_raw.c:40-83: `fread` of a little-endian `unsigned int`. -/
def rawGet (file : Str) (st : RawS) : Res (UInt × RawS) :=
  match st.fp with
  | none => .exit
  | some (a :: b :: c :: d :: r) => do
    let v := BitVec.ofNat 32 (a.toNat + 256 * b.toNat + 65536 * c.toNat + 16777216 * d.toNat)
    let st := { st with fp := some r, rptr := st.rptr + 1, rtot := st.rtot + 1 }
    let st ← (if st.flen ≠ 0 ∧ st.rptr = st.flen then rawSet file 0 st else .ok st : Res RawS)
    .ok (v, st)
  | some _ => .exit

/-- The state of `gsl_rng_alloc` before its first call of `file_input_raw_set`. -/
def rawAlloc (first : Bool) : RawS := ⟨none, 0, 0, 0, 0, first⟩

/-! ### dieharder/output_rnds.c -/

/-- The decimal digits of a number, as `printf` writes them. -/
def decStr (n : Nat) : Str := if n = 0 then [48] else (Nat.digits 10 n).reverse.map fun d => BitVec.ofNat 8 (48 + d)

/-- `%10u`. -/
def pad10 (s : Str) : Str := List.replicate (10 - s.length) 32 ++ s

/-- `#===...` of output_rnds.c:118, 120. -/
def ruleLine : Str := 35 :: List.replicate 66 61 ++ [10]

/-- The header of output_rnds.c:118-121 (128-131): generator name, seed, type letter, count. -/
def outHeader (name : Str) (seed : Nat) (ty : BitVec 8) (count : Nat) : Str :=
  ruleLine ++
  ([35, 32, 103, 101, 110, 101, 114, 97, 116, 111, 114, 32] ++ name ++ [32, 32, 115, 101, 101, 100, 32, 61, 32] ++ decStr seed ++ [10]) ++
  ruleLine ++
  ([116, 121, 112, 101, 58, 32, ty, 10] ++ [99, 111, 117, 110, 116, 58, 32] ++ decStr count ++ [10] ++
    [110, 117, 109, 98, 105, 116, 58, 32, 51, 50, 10])

/-- `-O 1`, output_rnds.c:117-126, of the values `vs` (there are `tsamples` of them). -/
def outUInt (name : Str) (seed : Nat) (vs : List UInt) : Str :=
  outHeader name seed 100 vs.length ++ (vs.map fun v => pad10 (decStr v.toNat) ++ [10]).flatten

/-- `%0.10f` of a nonnegative number whose ten-digit rounding is `m / 10^10`. -/
def fixed10 (m : Nat) : Str := decStr (m / 10 ^ 10) ++ [46] ++
  (List.replicate (10 - (decStr (m % 10 ^ 10)).length) 48 ++ decStr (m % 10 ^ 10))

/-- `-O 2`, output_rnds.c:127-136, of numbers whose ten-digit roundings are `ms`. -/
def outFloat (name : Str) (seed : Nat) (ms : List Nat) : Str :=
  outHeader name seed 102 ms.length ++ (ms.map fun m => fixed10 m ++ [10]).flatten

/-- `-O 0`, output_rnds.c:75-116 with `tsamples > 0`: the four bytes of each value, little-endian. -/
def outRaw (vs : List UInt) : Str :=
  (vs.map fun v => [v.extractLsb' 0 8, v.extractLsb' 8 8, v.extractLsb' 16 8, v.extractLsb' 24 8]).flatten

end Dh
