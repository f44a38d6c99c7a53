import Verif.Basic
/-
Model of the word-level bit routines of libdieharder/bits.c.
-/
namespace Dh

/-- The mask-building loop `mask = mask << 1; mask++;` executed `k` times starting
from `mask = 1` (bits.c:56-62, bits.c:517-522, bits.c:238-244). -/
def onesLoop : Nat → UInt
  | 0 => 1
  | k + 1 => (onesLoop k <<< 1) + 1

/-- `for(b=0;b<k;b++) x = x >> 1;` (bits.c:103). -/
def shrLoop (x : UInt) : Nat → UInt
  | 0 => x
  | k + 1 => (shrLoop x k) >>> 1

/-- `for(b=0;b<k;b++) x = x << 1;` (bits.c:143-145). -/
def shlLoop (x : UInt) : Nat → UInt
  | 0 => x
  | k + 1 => (shlLoop x k) <<< 1

/-- The `while(blen > rlen)` loop of `get_bit_ntuple`, bits.c:123-163.  `ioffset` is
the C `int`, kept as a natural number because it is only decremented when positive
(bits.c:129-130).  `fuel` bounds the number of iterations. -/
def ntupleLoop (rmaxBits : Nat) (bs : List UInt) (bslen blen : Nat) :
    (fuel : Nat) → (ioffset rlen : Nat) → (result : UInt) → Res UInt
  | fuel, ioffset, rlen, result =>
    if blen > rlen then
      match fuel with
      | 0 => .loop
      | fuel + 1 => do
        let ioffset' := if ioffset = 0 then bslen - 1 else ioffset - 1
        let carry ← rd bs ioffset'
        ntupleLoop rmaxBits bs bslen blen fuel ioffset' (rlen + rmaxBits)
          (result + shlLoop carry rlen)
    else .ok result

/-- `get_bit_ntuple`, bits.c:40-173.  `rmaxBits` is the global `rmax_bits`.
`bslen`, `blen`, `boffset` are `unsigned int`s; they are natural numbers here
(callers pass values below 2^31, so that `ioffset` is an ordinary `int`).
`blen = 0` makes the mask loop run 2^32-1 times (`blen-1` wraps), bits.c:58.
A zero `rmax_bits` is a division by zero (bits.c:82).  `ioffset` is negative, and the
access out of bounds, when `boffset/rmax_bits >= bslen` (bits.c:82-83). -/
def getBitNtuple (rmaxBits : Nat) (bs : List UInt) (bslen blen boffset : Nat) : Res UInt := do
  let blen := if blen > 32 then 32 else blen
  let nmask := onesLoop (if blen = 0 then 2 ^ 32 - 1 else blen - 1)
  if rmaxBits = 0 then .ub else
  if bslen < boffset / rmaxBits + 1 then .ub else
  let ioffset := bslen - boffset / rmaxBits - 1
  let result ← rd bs ioffset
  let boff := boffset % rmaxBits
  let result := shrLoop result boff
  let r ← ntupleLoop rmaxBits bs bslen blen 32 ioffset (rmaxBits - boff) result
  .ok (r &&& nmask)

/-- `b_umask`, bits.c:503-532.  `bstart`, `bstop` are `unsigned int`s. -/
def bUmask (bstart bstop : UInt) : Res UInt :=
  if bstop > 31 ∨ bstop < bstart then .exit
  else
    let blen := bstop.toNat - bstart.toNat + 1
    shl (onesLoop (blen - 1)) (32 - blen - bstart.toNat)

/-- `b_window`, bits.c:549-579.  `shift` is the `int` difference of two values in
0..31. -/
def bWindow (input bstart bstop boffset : UInt) : Res UInt :=
  if bstop > 31 ∨ bstop < bstart then .exit
  else if boffset > 31 then .exit
  else do
    let shift : Int := bstart.toNat - boffset.toNat
    let mask ← bUmask bstart bstop
    let output := input &&& mask
    if shift > 0 then shl output shift.toNat
    else shr output (-shift).toNat

/-- `b_rotate_left`, bits.c:584-599 (printing not modelled). -/
def bRotateLeft (input shift : UInt) : Res UInt := do
  let tmp ← bWindow input 0 (shift - 1) (32 - shift)
  let input ← shl input shift.toNat
  .ok (input + tmp)

/-- `b_rotate_right`, bits.c:604-629. -/
def bRotateRight (input shift : UInt) : Res UInt :=
  if shift = 0 then .ok input
  else do
    let tmp ← bWindow input (32 - shift) 31 0
    let input ← shr input shift.toNat
    .ok (input + tmp)

/-- `get_bit_ntuple_from_uint`'s wrap loop, static_get_bits.c:219-223. -/
def ntupleUintLoop (width : Nat) (bitstr : UInt) (nbits : Nat) :
    (fuel : Nat) → (len : Nat) → (result : UInt) → Res UInt
  | fuel, len, result =>
    if len < nbits then
      match fuel with
      | 0 => .loop
      | fuel + 1 => do
        let c ← shl bitstr len
        ntupleUintLoop width bitstr nbits fuel (len + width) (result ||| c)
    else .ok result

/-- `get_bit_ntuple_from_uint`, static_get_bits.c:204-225. -/
def getBitNtupleFromUint (rmaxBits : Nat) (bitstr : UInt) (nbits : Nat) (mask : UInt)
    (boffset : Nat) : Res UInt := do
  if rmaxBits = 0 then .ub else
  let boffset := boffset % rmaxBits
  let result ← shr bitstr boffset
  if boffset + nbits ≤ rmaxBits then .ok (result &&& mask)
  else
    let r ← ntupleUintLoop rmaxBits bitstr nbits 32 (rmaxBits - boffset) result
    .ok (r &&& mask)

/-- `get_bit_ntuple_from_whole_uint`, static_get_bits.c:238-257. -/
def getBitNtupleFromWholeUint (bitstr : UInt) (nbits : Nat) (mask : UInt)
    (boffset : Nat) : Res UInt := do
  let result ← shr bitstr boffset
  if boffset + nbits ≤ 32 then .ok (result &&& mask)
  else
    let r ← ntupleUintLoop 32 bitstr nbits 32 (32 - boffset) result
    .ok (r &&& mask)

end Dh
