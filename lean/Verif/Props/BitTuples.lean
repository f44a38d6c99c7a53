import Verif.Proof.Bits2
import Verif.Proof.Rotate
import Verif.Proof.NtupleUint
import Verif.Proof.NtupleCyclic2
/-
C01, C02, C03, C04, C08: the pure bit routines.
-/
namespace Dh
open Spec

/-- **C01.** `get_bit_ntuple` returns the number whose bit `i` (for `i < min blen 32`) is bit
`boffset + i` of the cyclic bit string made of the `rmax_bits`-bit words, least significant
bit of the last word first; all higher bits are zero. -/
theorem C01_get_bit_ntuple (r : Nat) (bs : List UInt) (blen boffset : Nat) (hr : 0 < r) (hr32 : r ≤ 32)
    (hw : ∀ x ∈ bs, ∀ i, r ≤ i → x.getLsbD i = false) (hb : 0 < blen) (ho : boffset < bs.length * r) :
    ∃ v, getBitNtuple r bs bs.length blen boffset = .ok v ∧
      ∀ i < 32, v.getLsbD i = (decide (i < min blen 32) && cyclicBit r bs (boffset + i)) := by
  obtain ⟨v, h1, h2⟩ := getBitNtuple_spec r bs blen boffset hr hr32 hw hb ho
  exact ⟨v, h1, fun i _ => h2 i⟩

/-- 4-bit words, a 6-bit request that wraps around the end of the string. -/
example : getBitNtuple 4 [0xA, 0x5, 0x3] 3 6 9 = .ok 0x1D := by decide +kernel

/-- **C02.** `b_umask` has ones exactly at the positions `start..stop` counted from the most
significant bit when `start ≤ stop ≤ 31`, and otherwise does not return. -/
theorem C02_b_umask (start stop : UInt) :
    (start.toNat ≤ stop.toNat ∧ stop.toNat ≤ 31 →
      ∃ v, bUmask start stop = .ok v ∧
        ∀ p < 32, msb v p = decide (start.toNat ≤ p ∧ p ≤ stop.toNat)) ∧
    (¬ (start.toNat ≤ stop.toNat ∧ stop.toNat ≤ 31) → bUmask start stop = .exit) := by
  constructor
  · rintro ⟨h, h31⟩
    obtain ⟨v, hv, hb⟩ := bUmask_ok start stop h h31
    refine ⟨v, hv, fun p hp => ?_⟩
    unfold msb
    rw [hb]
    simp only [hp, decide_true, Bool.true_and]
    congr 1
    apply propext
    omega
  · intro h
    exact bUmask_exit start stop (by omega)

example : bUmask 4 11 = .ok 0x0FF00000 := by decide +kernel
example : bUmask 4 32 = .exit := by decide +kernel

/-- **C02.** `b_window(x,start,stop,off)` moves bits `start..stop` of `x` (counted from the
most significant bit) so that they begin at position `off`, clears everything else, and does
not return for a reversed or out-of-range window or offset. -/
theorem C02_b_window (x start stop off : UInt) :
    (start.toNat ≤ stop.toNat ∧ stop.toNat ≤ 31 ∧ off.toNat ≤ 31 →
      ∃ v, bWindow x start stop off = .ok v ∧
        (∀ k, start.toNat + k ≤ stop.toNat → off.toNat + k < 32 →
          msb v (off.toNat + k) = msb x (start.toNat + k)) ∧
        (∀ p < 32, (p < off.toNat ∨ stop.toNat < start.toNat + (p - off.toNat)) → msb v p = false)) ∧
    (¬ (start.toNat ≤ stop.toNat ∧ stop.toNat ≤ 31 ∧ off.toNat ≤ 31) →
      bWindow x start stop off = .exit) := by
  constructor
  · rintro ⟨h, h31, ho⟩
    obtain ⟨v, hv, hb⟩ := bWindow_ok x start stop off h h31 ho
    refine ⟨v, hv, ?_, ?_⟩
    · intro k hk hk2
      rw [hb _ hk2]
      have e : off.toNat + k - off.toNat = k := by omega
      simp [e, hk]
    · intro p hp hz
      rw [hb p hp]
      have : ¬ (off.toNat ≤ p ∧ start.toNat + (p - off.toNat) ≤ stop.toNat) := by omega
      simp only [this]; simp
  · intro h
    exact bWindow_exit x start stop off (by omega)

example : bWindow 0x12345678 8 15 0 = .ok 0x34000000 := by decide +kernel
example : bWindow 0x12345678 8 15 28 = .ok 0x3 := by decide +kernel
example : bWindow 0x12345678 8 15 32 = .exit := by decide +kernel

/-- **C03.** `b_rotate_right` rotates right by every amount 0..31, `b_rotate_left` rotates
left by every amount 1..31 and does not return for amount 0, and rotating right undoes
rotating left whenever the latter returns.  (`BitVec.rotateLeft` is the library rotation.) -/
theorem C03_rotations (x s : UInt) (hs : s.toNat ≤ 31) :
    bRotateRight x s = .ok (x.rotateRight s.toNat) ∧
    (s ≠ 0 → bRotateLeft x s = .ok (x.rotateLeft s.toNat)) ∧
    bRotateLeft x 0 = .exit ∧
    (∀ y, bRotateLeft x s = .ok y → bRotateRight y s = .ok x) := by
  have hl : s ≠ 0 → bRotateLeft x s = .ok (x.rotateLeft s.toNat) := by
    intro h
    apply bRotateLeft_ok x s _ hs
    rcases Nat.eq_zero_or_pos s.toNat with h0 | h0
    · exact absurd (BitVec.eq_of_toNat_eq (by simpa using h0)) h
    · exact h0
  refine ⟨bRotateRight_ok x s hs, hl, bRotateLeft_zero x, ?_⟩
  intro y hy
  by_cases h : s = 0
  · subst h; rw [bRotateLeft_zero] at hy; cases hy
  · rw [hl h] at hy
    cases hy
    rw [bRotateRight_ok _ s hs, rotateRight_rotateLeft x s.toNat hs]

example : bRotateLeft 0x80000003 4 = .ok 0x00000038 := by decide +kernel
example : bRotateRight 0x80000003 4 = .ok 0x38000000 := by decide +kernel

/-- **C04.** `get_ntuple_cyclic` leaves in `output`, right justified, the `n` bits
starting at bit `offset` of the cyclic bit string of the input words (bit `t` from the right
end of `output` is bit `offset+n-1-t` of the string, everything further left is zero).
The remaining requests are those of `C04_aborts`, for which the code exits. -/
theorem C04_get_ntuple_cyclic (input : List UInt) (jlen n offset : Nat) (hlen : 0 < input.length)
    (hn : 0 < n) (hfit : n ≤ 32 * jlen) (hsmall : offset + n < 2 ^ 32)
    (hok : n ≤ 32 ∨ offset % 32 = 0 ∨ (offset + n) % 32 ≤ offset % 32) :
    ∃ out, getNtupleCyclic input input.length jlen n offset = .ok out ∧ out.length = jlen ∧
      ∀ t, rightBit out t = (decide (t < n) && msbStream input (offset + n - 1 - t)) := by
  obtain ⟨out, h1, h2⟩ := (getNtupleCyclic_raw input jlen n offset hlen hn hfit hsmall).1
    (by unfold CyclicAborts; omega)
  refine ⟨out, h1, h2.1, ?_⟩
  intro t
  rw [h2.rightBit hfit t]
  rfl

/-- A 40-bit request across three words: fits in two output words. -/
example : getNtupleCyclic [0x12345678, 0x9ABCDEF0, 0x0F1E2D3C] 3 2 40 28 =
    .ok [0x89, 0xABCDEF00] := by decide +kernel

/-- **C04, the remaining requests.** Every request for more than 32 bits whose window
starts strictly inside a word and ends in a later word at a larger bit position makes
`get_ntuple_cyclic` terminate the program, although it fits in `output`. -/
theorem C04_aborts (input : List UInt) (jlen n offset : Nat) (hlen : 0 < input.length)
    (hfit : n ≤ 32 * jlen) (hsmall : offset + n < 2 ^ 32)
    (hbad : 32 < n ∧ 0 < offset % 32 ∧ offset % 32 < (offset + n) % 32) :
    getNtupleCyclic input input.length jlen n offset = .exit :=
  (getNtupleCyclic_raw input jlen n offset hlen (by omega) hfit hsmall).2 hbad

example : getNtupleCyclic [0x12345678, 0x9ABCDEF0, 0x0F1E2D3C] 3 2 34 1 = .exit := by decide +kernel

/-- **C08.** `get_bit_ntuple_from_uint(x, n, mask, off)` returns bits `off, ..., off+n-1` of
`x` cyclically modulo the generator width. -/
theorem C08_get_bit_ntuple_from_uint (r : Nat) (x mask : UInt) (n off : Nat) (hr : 0 < r) (hr32 : r ≤ 32)
    (hn : n ≤ 32) (hx : ∀ i, r ≤ i → x.getLsbD i = false)
    (hm : ∀ i, mask.getLsbD i = decide (i < n)) :
    ∃ v, getBitNtupleFromUint r x n mask off = .ok v ∧
      ∀ i < 32, v.getLsbD i = (decide (i < n) && x.getLsbD ((off + i) % r)) :=
  let ⟨v, h1, h2⟩ := getBitNtupleFromUint_spec r x mask n off hr hr32 hn hx hm
  ⟨v, h1, fun i _ => h2 i⟩

/-- Width 7 from a 5-bit generator: wraps. -/
example : getBitNtupleFromUint 5 0b10110 7 0x7F 3 = .ok 0b1011010 := by decide +kernel

/-- **C08.** `get_bit_ntuple_from_whole_uint` is the same modulo 32. -/
theorem C08_get_bit_ntuple_from_whole_uint (x mask : UInt) (n off : Nat) (hn : n ≤ 32) (hoff : off < 32)
    (hm : ∀ i, mask.getLsbD i = decide (i < n)) :
    ∃ v, getBitNtupleFromWholeUint x n mask off = .ok v ∧
      ∀ i < 32, v.getLsbD i = (decide (i < n) && x.getLsbD ((off + i) % 32)) :=
  let ⟨v, h1, h2⟩ := getBitNtupleFromWholeUint_spec x mask n off hn hoff hm
  ⟨v, h1, fun i _ => h2 i⟩

example : getBitNtupleFromWholeUint 0x80000001 5 0x1F 30 = .ok 0b00110 := by decide +kernel

end Dh
