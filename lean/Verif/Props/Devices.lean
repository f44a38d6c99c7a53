import Mathlib.Tactic.Linarith
import Mathlib.Tactic.NormNum
import Mathlib.Algebra.Order.Field.Rat
import Mathlib.Algebra.Order.Field.Basic
import Verif.Model.Devices
/-
C90: the generators that read a device or the standard input.
-/
set_option linter.unusedSimpArgs false
namespace Dh

namespace Spec

/-- The number with the given base-256 digits, least significant first. -/
def bytesValue : List (BitVec 8) → Nat
  | [] => 0
  | b :: l => b.toNat + 256 * bytesValue l

/-- Draw number `t` of a device: the eight bytes from `8 t`. -/
def devDraw (b : ByteStream) (t : Nat) : Nat := bytesValue ((b.drop (8 * t)).take 8)

end Spec
open Spec

theorem bytesValue_lt : ∀ l : List (BitVec 8), bytesValue l < 256 ^ l.length
  | [] => by simp [bytesValue]
  | b :: l => by
    have := bytesValue_lt l
    have := b.isLt
    rw [bytesValue, List.length_cons, Nat.pow_succ]
    omega

theorem bytesValue_append : ∀ l m : List (BitVec 8), bytesValue (l ++ m) = bytesValue l + 256 ^ l.length * bytesValue m
  | [], m => by simp [bytesValue]
  | b :: l, m => by
    rw [List.cons_append, bytesValue, bytesValue, bytesValue_append l m, List.length_cons, Nat.pow_succ, Nat.mul_add, Nat.mul_comm (256 ^ l.length) 256,
      Nat.mul_assoc]
    omega

theorem leBytes_value (n : Nat) : ∀ l : List (BitVec 8), 8 * l.length ≤ n → (leBytes n l).toNat = bytesValue l
  | [], _ => by simp [leBytes, bytesValue]
  | b :: l, h => by
    rw [List.length_cons] at h
    have ih := leBytes_value n l (by omega)
    have hb := b.isLt
    have hl := bytesValue_lt l
    have hp : 256 ^ l.length * 256 ≤ 2 ^ n := by
      rw [show 256 ^ l.length * 256 = 2 ^ (8 * (l.length + 1)) by rw [Nat.mul_add, Nat.pow_add, Nat.pow_mul]]
      exact Nat.pow_le_pow_right (by omega) (by omega)
    have e1 : (b.setWidth n).toNat = b.toNat := by
      rw [BitVec.toNat_setWidth, Nat.mod_eq_of_lt]
      have : 256 ≤ 2 ^ n := by
        have : 1 ≤ 256 ^ l.length := Nat.one_le_pow _ _ (by omega)
        omega
      omega
    have e2 : (leBytes n l <<< 8).toNat = 2 ^ 8 * bytesValue l := by
      rw [BitVec.toNat_shiftLeft, ih, Nat.shiftLeft_eq, Nat.mod_eq_of_lt (by omega)]
      omega
    rw [leBytes, BitVec.toNat_or, e1, e2, bytesValue, Nat.or_comm, ← Nat.two_pow_add_eq_or_of_lt (by omega)]
    omega

theorem bytesValue_zero : ∀ l : List (BitVec 8), bytesValue l = 0 ↔ ∀ x ∈ l, x = 0
  | [] => by simp [bytesValue]
  | b :: l => by
    have := bytesValue_zero l
    simp only [bytesValue, List.mem_cons, forall_eq_or_imp, ← this]
    constructor
    · intro h
      exact ⟨BitVec.eq_of_toNat_eq (by simp; omega), by omega⟩
    · rintro ⟨rfl, h⟩
      simp [h]

/-- **C90.** A device generator uses eight bytes of the device for every draw. -/
theorem C90_draw (b : ByteStream) (h : 8 ≤ b.length) : ∃ j, devGet b = .ok (j, b.drop 8) ∧ j.toNat = devDraw b 0 := by
  refine ⟨_, by rw [devGet, if_neg (by omega)], ?_⟩
  rw [leBytes_value _ _ (by rw [List.length_take]; omega)]
  rfl

theorem take_eight (b : ByteStream) : b.take 8 = b.take 4 ++ (b.drop 4).take 4 := by
  rw [← List.take_add]

/-- **C90.** The draw is at most the advertised maximum `UINT_MAX` only if the last four of the eight bytes are zero. -/
theorem C90_maximum (b : ByteStream) (h : 8 ≤ b.length) : devDraw b 0 ≤ 4294967295 ↔ ∀ x ∈ (b.drop 4).take 4, x = 0 := by
  have h1 := bytesValue_lt (b.take 4)
  have hl : (b.take 4).length = 4 := by rw [List.length_take]; omega
  rw [hl] at h1
  rw [devDraw, Nat.mul_zero, List.drop_zero, take_eight, bytesValue_append, hl, ← bytesValue_zero]
  omega

/-- **C90.** So the "uniform deviate" is `draw / UINT_MAX`, and exceeds 1 unless the last four bytes are zero. -/
theorem C90_double (b : ByteStream) (h : 8 ≤ b.length) : ∃ v : ℚ, devGetDouble b = .ok (v, b.drop 8) ∧ v = (devDraw b 0 : ℚ) / 4294967295 ∧
    (v ≤ 1 ↔ ∀ x ∈ (b.drop 4).take 4, x = 0) := by
  obtain ⟨j, h1, h2⟩ := C90_draw b h
  refine ⟨(j.toNat : ℚ) / 4294967295, by simp only [devGetDouble, h1, Res.bind_ok], by rw [h2], ?_⟩
  rw [← C90_maximum b h, h2, div_le_one (by norm_num)]
  exact_mod_cast Iff.rfl

/-- **C90.** A test that keeps draws in an `unsigned int` sees the first four of the eight bytes; the others are lost. -/
theorem C90_uint (b : ByteStream) (h : 8 ≤ b.length) : ∃ j, devGetUint b = .ok (j, b.drop 8) ∧ j.toNat = bytesValue (b.take 4) := by
  obtain ⟨j, h1, h2⟩ := C90_draw b h
  refine ⟨j.setWidth 32, by simp only [devGetUint, h1, Res.bind_ok], ?_⟩
  have h3 := bytesValue_lt (b.take 4)
  have hl : (b.take 4).length = 4 := by rw [List.length_take]; omega
  rw [hl] at h3
  rw [BitVec.toNat_setWidth, h2, devDraw, Nat.mul_zero, List.drop_zero, take_eight, bytesValue_append, hl]
  omega

/-- **C90.** The seed has no effect: after it the first draw is made of the next eight bytes of the device. -/
theorem C90_seed (b : ByteStream) (s : BitVec 64) (h : 8 ≤ b.length) :
    (∃ j, (devSet (some b) s >>= devGet) = .ok (j, b.drop 8) ∧ j.toNat = devDraw b 0) ∧ (devSet none s >>= devGet) = .exit :=
  ⟨C90_draw b h, rfl⟩

/-- **C90.** The end of the device is not noticed: the value of the draw is undefined. -/
theorem C90_end (b : ByteStream) (h : b.length < 8) : devGet b = .ub := by rw [devGet, if_pos h]

theorem devDraw_drop (b : ByteStream) (t : Nat) : devDraw (b.drop 8) t = devDraw b (t + 1) := by
  rw [devDraw, devDraw, List.drop_drop]
  congr 3
  omega

theorem devUniformInt_succ (n fuel : Nat) (b : ByteStream) (h : 8 ≤ b.length) : devUniformInt n (fuel + 1) b =
    if n ≤ devDraw b 0 / (4294967295 / n) then devUniformInt n fuel (b.drop 8) else .ok (devDraw b 0 / (4294967295 / n), b.drop 8) := by
  obtain ⟨j, h1, h2⟩ := C90_draw b h
  rw [devUniformInt, h1]
  simp only [Res.bind_ok, h2]

/-- **C90.** A uniform integer below `n` (a die of the craps test) comes from the first draw below `n * (UINT_MAX / n)`. -/
theorem C90_uniform_int (n : Nat) (hn : 1 ≤ n) (hm : n ≤ 4294967295) : ∀ (t fuel : Nat) (b : ByteStream), 8 * (t + 1) ≤ b.length → t < fuel →
    (∀ s < t, n * (4294967295 / n) ≤ devDraw b s) → devDraw b t < n * (4294967295 / n) →
    devUniformInt n fuel b = .ok (devDraw b t / (4294967295 / n), b.drop (8 * (t + 1)))
  | 0, fuel + 1, b, hb, _, _, h => by
    have hs : 0 < 4294967295 / n := Nat.div_pos hm (by omega)
    rw [devUniformInt_succ n fuel b (by omega), if_neg]
    rw [Nat.not_le, Nat.div_lt_iff_lt_mul hs]
    exact h
  | t + 1, fuel + 1, b, hb, hf, h1, h2 => by
    have hs : 0 < 4294967295 / n := Nat.div_pos hm (by omega)
    rw [devUniformInt_succ n fuel b (by omega), if_pos ((Nat.le_div_iff_mul_le hs).2 (h1 0 (by omega))),
      C90_uniform_int n hn hm t fuel (b.drop 8) (by rw [List.length_drop]; omega) (by omega) (fun s hs => by rw [devDraw_drop]; exact h1 (s + 1) (by omega))
        (by rw [devDraw_drop]; exact h2), devDraw_drop, List.drop_drop]
    congr 3
    omega

/-- **C90.** As long as in every draw one of the last four bytes is not zero, the search goes on: of the `2^64` values of a draw fewer than
`2^32` end it. -/
theorem C90_hang (n : Nat) (hn : 1 ≤ n) (hm : n ≤ 4294967295) : ∀ (fuel : Nat) (b : ByteStream), 8 * fuel ≤ b.length →
    (∀ s < fuel, ∃ x ∈ (b.drop (8 * s + 4)).take 4, x ≠ 0) → devUniformInt n fuel b = .loop
  | 0, b, _, _ => rfl
  | fuel + 1, b, hb, h => by
    have hs : 0 < 4294967295 / n := Nat.div_pos hm (by omega)
    have h0 : 4294967295 < devDraw b 0 := by
      by_contra hc
      have := (C90_maximum b (by omega)).1 (by omega)
      obtain ⟨x, hx, hx0⟩ := h 0 (by omega)
      exact hx0 (this x hx)
    rw [devUniformInt_succ n fuel b (by omega), if_pos, C90_hang n hn hm fuel (b.drop 8) (by rw [List.length_drop]; omega)]
    · intro s hs
      have := h (s + 1) (by omega)
      rwa [List.drop_drop, show 8 + (8 * s + 4) = 8 * (s + 1) + 4 by omega]
    · rw [Nat.le_div_iff_mul_le hs]
      have := Nat.mul_div_le 4294967295 n
      omega

/-- **C90.** The standard input: four bytes per draw, and the program ends when there are fewer. -/
theorem C90_stdin (b : ByteStream) : (4 ≤ b.length → ∃ j, stdinGet b = .ok (j, b.drop 4) ∧ j.toNat = bytesValue (b.take 4)) ∧
    (b.length < 4 → stdinGet b = .exit) := by
  constructor
  · intro h
    exact ⟨_, by rw [stdinGet, if_neg (by omega)], leBytes_value _ _ (by rw [List.length_take]; omega)⟩
  · intro h
    rw [stdinGet, if_pos h]

/-- **C90.** Its uniform deviate is between 0 and 1, and equal to 1 for four bytes 255. -/
theorem C90_stdin_double (b : ByteStream) (h : 4 ≤ b.length) : ∃ v : ℚ, stdinGetDouble b = .ok (v, b.drop 4) ∧ 0 ≤ v ∧ v ≤ 1 ∧
    (v = 1 ↔ bytesValue (b.take 4) = 4294967295) := by
  obtain ⟨j, h1, h2⟩ := (C90_stdin b).1 h
  have h3 := j.isLt
  refine ⟨(j.toNat : ℚ) / 4294967295, by simp only [stdinGetDouble, h1, Res.bind_ok], by positivity, ?_, ?_⟩
  · rw [div_le_one (by norm_num)]
    exact_mod_cast (by omega : j.toNat ≤ 4294967295)
  · rw [div_eq_one_iff_eq (by norm_num), ← h2]
    exact_mod_cast Iff.rfl

example : devGet [1, 2, 3, 4, 5, 6, 7, 8, 9] = .ok (0x0807060504030201, [9]) ∧ devGetUint [1, 2, 3, 4, 5, 6, 7, 8, 9] = .ok (0x04030201, [9]) ∧
    stdinGet [1, 2, 3, 4, 5] = .ok (0x04030201, [5]) ∧ devUniformInt 6 100 (List.replicate 800 1) = .loop ∧
    devUniformInt 6 2 [0, 0, 0, 0, 0, 0, 0, 1, 0, 0, 0, 0x80, 0, 0, 0, 0] = .ok (3, []) := by decide +kernel

end Dh
