import Verif.Model.UintRand
/-
Models of the bit string helpers of libdieharder/bits.c: `dumpbits`, `cycle`, `get_bit`,
`get_int_bit`, `bit2uint`, `fill_uint_buffer`.
-/
namespace Dh

/-- The printing loop of `dumpbits`, bits.c:189-196; the characters printed (the case
`verbose == -1` is left out). -/
def dumpLoop (x : UInt) : (todo : Nat) → (mask : UInt) → List Char
  | 0, _ => []
  | todo + 1, mask => (if mask &&& x ≠ 0 then '1' else '0') :: dumpLoop x todo (mask >>> 1)

/-- `dumpbits`, bits.c:178-198: the characters printed.  For `nbits = 0` the expression
`(unsigned int)pow(2,nbits-1)` converts 2^(2^32-1) (infinity) to an integer, which is undefined. -/
def dumpbits (x : UInt) (nbits : Nat) : Res (List Char) :=
  let nbits := if nbits > 32 then 32 else nbits
  if nbits = 0 then .ub else .ok (dumpLoop x nbits (BitVec.ofNat 32 (2 ^ (nbits - 1))))

/-- The loop of `bit2uint`, bits.c:376-385; `abit[i] - '0'` is a (possibly negative) `int` added to
an `unsigned int`. -/
def bit2uintLoop (abit : List Char) : (todo i : Nat) → UInt → Res UInt
  | 0, _, result => .ok result
  | todo + 1, i, result => do
    let c ← rd abit i
    bit2uintLoop abit todo (i + 1) ((result <<< 1) + BitVec.ofInt 32 ((c.toNat : Int) - 48))

/-- `bit2uint`, bits.c:363-394; `abit` is the array of characters (with its terminator, if any). -/
def bit2uint (abit : List Char) (blen : Nat) : Res UInt := bit2uintLoop abit blen 0 0

/-- `cycle`, bits.c:226-271 (printing left out): the new value of `*data`.  For `nbits = 0` the loop
runs `2^32 - 1` times. -/
def cycle (data : UInt) (nbits : Nat) : UInt :=
  let k := if nbits = 0 then 2 ^ 32 - 1 else nbits - 1
  let rmask := onesLoop k
  let lmask := shlLoop 1 k
  let result := data &&& rmask
  let rbit := 1 &&& result
  (result >>> 1) + rbit * lmask

/-- `get_bit`, bits.c:277-302.  `conv` is the value of `(int)pow(2,31)` (294) as an `unsigned int`:
the conversion overflows `int`, so that the C standard leaves it undefined; x86 conversion
instructions give `0x80000000`, saturating ones `0x7fffffff`. -/
def getBit (conv : UInt) (rmaxBits : Nat) (data : List UInt) (n : Nat) : Res Nat := do
  if rmaxBits = 0 then .ub else
  let offset := (32 - rmaxBits) + n % rmaxBits
  let mask ← shr conv offset
  let w ← rd data (n / rmaxBits)
  .ok (if mask &&& w ≠ 0 then 1 else 0)

/-- `get_int_bit`, bits.c:304-335; `1 << 32` is undefined. -/
def getIntBit (i : UInt) (n : Nat) : Res Nat :=
  if n > 32 then .exit
  else do
    let mask ← shl 1 n
    .ok (if mask &&& i ≠ 0 then 1 else 0)

/-- The mask loop of `fill_uint_buffer`, bits.c:414-418. -/
def fillMask : Nat → UInt
  | 0 => 0
  | k + 1 => (fillMask k <<< 1) + 1

/-- The loop of `fill_uint_buffer`, bits.c:423-462: words from the draws `pos`, `pos+1`, ... -/
def fillLoop (bdelta : Nat) (src : Src) : (todo pos : Nat) → Res (List UInt)
  | 0, _ => .ok []
  | todo + 1, pos => do
    let tmp1 ← shl (src pos) bdelta
    let tmp2 := src (pos + 1) &&& fillMask bdelta
    let rest ← fillLoop bdelta src todo (pos + 2)
    .ok ((tmp1 + tmp2) :: rest)

/-- `fill_uint_buffer`, bits.c:396-464. -/
def fillUintBuffer (rmaxBits : Nat) (src : Src) (buflength : Nat) : Res (List UInt) :=
  fillLoop (32 - rmaxBits) src buflength 0

end Dh
