import Verif.Model.UintRand
/-
Model of `get_rand_bits_uint`, libdieharder/static_get_bits.c:25-196.
-/
namespace Dh

/-- The function statics `bit_buffer`, `bits_left_in_bit_buffer`
(static_get_bits.c:28-29) and the number of draws made.  The file is `#include`d, so
that every including test has its own copy; one copy is modelled. -/
structure GBState where
  buf : UInt
  left : Nat
  pos : Nat
  deriving DecidableEq, Repr

/-- Zero initialised statics. -/
def GBState.init : GBState := ⟨0, 0, 0⟩

/-- `while(1)` loop, static_get_bits.c:158-194; `r` is `rmax_bits`. -/
def gbLoop (r : Nat) (src : Src) (mask : UInt) :
    (fuel : Nat) → (nbits : Nat) → (bits : UInt) → (pos : Nat) → Res (UInt × GBState)
  | 0, _, _, _ => .loop
  | fuel + 1, nbits, bits, pos => do
    let buf := src pos
    if r ≥ nbits then
      let c ← shr buf (r - nbits)
      .ok ((bits ||| c) &&& mask, ⟨buf, r - nbits, pos + 1⟩)
    else
      let nbits := nbits - r
      let c ← shl buf nbits
      gbLoop r src mask fuel nbits (bits ||| c) (pos + 1)

/-- `get_rand_bits_uint`, static_get_bits.c:25-196 (debugging output omitted).
`1u << nbits` (41) is undefined for `nbits >= 32`. -/
def getRandBitsUint (r : Nat) (src : Src) (nbits : Nat) (mask : UInt) (s : GBState) :
    Res (UInt × GBState) := do
  let mask ← (if mask = 0 then do
      let m ← shl 1 nbits
      pure (m - 1)
    else pure mask : Res UInt)
  let mask := if nbits = 32 then BitVec.allOnes 32 else mask
  if nbits > 32 then .exit else
  if nbits = r then .ok (src s.pos, { s with pos := s.pos + 1 }) else
  if s.left ≥ nbits then
    let left := s.left - nbits
    let c ← shr s.buf left
    .ok (c &&& mask, { s with left := left })
  else
    let nbits := nbits - s.left
    let bits ← (if nbits = 32 then .ok 0 else shl s.buf nbits : Res UInt)
    gbLoop r src mask 33 nbits bits s.pos

/-- A history of requests; each request names its width and mask. -/
def getRandBitsUints (r : Nat) (src : Src) :
    List (Nat × UInt) → GBState → Res (List UInt × GBState)
  | [], s => .ok ([], s)
  | (n, m) :: ns, s => do
    let (x, s) ← getRandBitsUint r src n m s
    let (xs, s) ← getRandBitsUints r src ns s
    .ok (x :: xs, s)

end Dh
