import Verif.Basic
/-
Specifications of the bit routines, independent of the model.
-/
namespace Dh.Spec

/-- Bit `k` of the cyclic bit string made of `r`-bit words, least significant bit of
the *last* word first; `k` is taken modulo the total length. -/
def cyclicBit (r : Nat) (bs : List UInt) (k : Nat) : Bool :=
  (bs.reverse.getD ((k / r) % bs.length) 0).getLsbD (k % r)

/-- Position `p` of a word counted from the most significant bit (position 0). -/
def msb (x : UInt) (p : Nat) : Bool := decide (p < 32) && x.getLsbD (31 - p)

end Dh.Spec

namespace Dh.Spec

/-- Bit `k` of the cyclic string made of the 32-bit words of `ws`, most significant bit
of word 0 first. -/
def msbStream (ws : List UInt) (k : Nat) : Bool :=
  msb (ws.getD ((k / 32) % ws.length) 0) (k % 32)

/-- Bit `t` counted from the right end (least significant bit of the last word) of a
vector of 32-bit words. -/
def rightBit (ws : List UInt) (t : Nat) : Bool :=
  (ws.reverse.getD (t / 32) 0).getLsbD (t % 32)

end Dh.Spec

namespace Dh.Spec

/-- Bit `k` of the concatenation of `r`-bit values, least significant bit first. -/
def lsbStream (r : Nat) (src : Nat → UInt) (k : Nat) : Bool :=
  (src (k / r)).getLsbD (k % r)

/-- The number whose bit `i` is bit `k+i` of a bit stream, for `i < n` (`n ≤ 32`). -/
def takeBits (s : Nat → Bool) (k : Nat) : Nat → UInt
  | 0 => 0
  | n + 1 => takeBits s k n ||| (if s (k + n) then BitVec.twoPow 32 n else 0)

theorem takeBits_getLsbD (s : Nat → Bool) (k n i : Nat) :
    (takeBits s k n).getLsbD i = (decide (i < n) && decide (i < 32) && s (k + i)) := by
  induction n with
  | zero => simp [takeBits]
  | succ n ih =>
    have h1 : (if s (k + n) then BitVec.twoPow 32 n else 0).getLsbD i
        = (s (k + n) && decide (n < 32) && decide (n = i)) := by
      cases hs : s (k + n)
      · simp
      · simp only [if_true, BitVec.getLsbD_twoPow]; simp
    rw [takeBits, BitVec.getLsbD_or, ih, h1]
    by_cases hin : n = i
    · subst hin
      by_cases h32 : n < 32 <;> simp [h32]
    · have : i < n + 1 ↔ i < n := by omega
      simp only [hin, this]; simp

end Dh.Spec

namespace Dh.Spec

/-- The numbers read from consecutive, non-overlapping segments of a bit stream: widths
`ns`, starting at bit `k`. -/
def segments (s : Nat → Bool) (k : Nat) : List Nat → List UInt
  | [] => []
  | n :: ns => takeBits s k n :: segments s (k + n) ns

end Dh.Spec
