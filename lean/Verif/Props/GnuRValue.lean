import Verif.Props.GnuR
/-
C54, continued: the numbers that the generators of R deliver, in exact arithmetic.
-/
namespace Dh

/-- **C54.** In exact arithmetic Wichmann-Hill delivers the fractional part of the sum of the three quotients; where that part is zero it
delivers a positive number below `2^-32` instead. -/
theorem C54_wh_value (i1 i2 i3 : UInt) :
    whValue id i1 i2 i3 = if Int.fract ((i1.toNat : ℚ) / 30269 + (i2.toNat : ℚ) / 30307 + (i3.toNat : ℚ) / 30323) = 0 then i2_32m1 / 2
      else Int.fract ((i1.toNat : ℚ) / 30269 + (i2.toNat : ℚ) / 30307 + (i3.toNat : ℚ) / 30323) := by
  set x : ℚ := (i1.toNat : ℚ) / 30269 + (i2.toNat : ℚ) / 30307 + (i3.toNat : ℚ) / 30323 with hx
  have h0 := Int.fract_nonneg x
  have h1 := Int.fract_lt_one x
  have e : whValue id i1 i2 i3 = rFixup id (Int.fract x) := rfl
  rw [e, rFixup]
  simp only [id]
  by_cases h : Int.fract x = 0
  · rw [if_pos h.le, if_pos h]; ring
  · rw [if_neg (by intro h2; exact h (le_antisymm h2 h0)), if_neg h, if_neg (by linarith)]

/-- A word times a literal, replaced at the two ends, is within `2^-32` of the quotient. -/
theorem wordValue_near (w : UInt) (c : ℚ) (m : Nat) (hm : 0 < m) (hw : w.toNat ≤ m) (hc : |c * m - 1| ≤ 1 / 2 ^ 40) :
    |wordValue id w c - (w.toNat : ℚ) / m| ≤ 1 / 2 ^ 32 := by
  have hm' : (0 : ℚ) < m := by exact_mod_cast hm
  have hw' : (w.toNat : ℚ) ≤ m := by exact_mod_cast hw
  have hw0 : (0 : ℚ) ≤ w.toNat := Nat.cast_nonneg _
  set q : ℚ := (w.toNat : ℚ) / m with hq
  have hq0 : 0 ≤ q := div_nonneg hw0 hm'.le
  have hq1 : q ≤ 1 := (div_le_one hm').2 hw'
  have e : (w.toNat : ℚ) * c - q = q * (c * m - 1) := by rw [hq]; field_simp
  have hd : |(w.toNat : ℚ) * c - q| ≤ 1 / 2 ^ 40 := by
    rw [e, abs_mul, abs_of_nonneg hq0]
    calc q * |c * m - 1| ≤ 1 * |c * m - 1| := mul_le_mul_of_nonneg_right hq1 (abs_nonneg _)
      _ ≤ _ := by rw [one_mul]; exact hc
  rw [abs_le] at hd ⊢
  rw [wordValue, rFixup]
  simp only [id]
  have hi : i2_32m1 = 2328306437080797 / 10 ^ 25 := rfl
  split
  · rw [hi]; constructor <;> norm_num at hd ⊢ <;> linarith
  · split
    · rw [hi]; constructor <;> norm_num at hd ⊢ <;> linarith
    · constructor <;> norm_num at hd ⊢ <;> linarith

/-- **C54.** In exact arithmetic the number made of a word is within `2^-32` of `w / (2^32 - 1)` (multicarry, super-duper), of `w / 2^32`
(Mersenne twister) and, for a word below `2^30`, of `w / 2^30` (the two generators of Knuth). -/
theorem C54_word_value (w : UInt) :
    |wordValue id w i2_32m1 - (w.toNat : ℚ) / ((2 ^ 32 - 1 : Nat) : ℚ)| ≤ 1 / 2 ^ 32 ∧
      |wordValue id w (23283064365386963 / 10 ^ 26) - (w.toNat : ℚ) / ((2 ^ 32 : Nat) : ℚ)| ≤ 1 / 2 ^ 32 ∧
      (w.toNat < 2 ^ 30 → |wordValue id w ktScale - (w.toNat : ℚ) / ((2 ^ 30 : Nat) : ℚ)| ≤ 1 / 2 ^ 32) := by
  have := w.isLt
  refine ⟨wordValue_near w _ _ (by norm_num) (by omega) ?_, wordValue_near w _ _ (by norm_num) (by omega) ?_,
    fun h => wordValue_near w _ _ (by norm_num) (by omega) ?_⟩
  · rw [i2_32m1, abs_le]; constructor <;> norm_num
  · rw [abs_le]; constructor <;> norm_num
  · rw [ktScale, abs_le]; constructor <;> norm_num

example : whValue id 1 1 30000 = 1 / 30269 + 1 / 30307 + 30000 / 30323 := by
  rw [C54_wh_value, show (1 : UInt).toNat = 1 from rfl, show (30000 : UInt).toNat = 30000 from rfl,
    show Int.fract _ = (1 / 30269 + 1 / 30307 + 30000 / 30323 : ℚ) from by
      rw [Int.fract_eq_iff]
      exact ⟨by norm_num, by norm_num, 0, by norm_num⟩, if_neg (by norm_num)]

example : ((do let v ← rngInit .wichmannHill 1 dummyvec; rUnifs id .wichmannHill 2 v) : Res (List ℚ × List UInt)).map Prod.fst =
    .ok [3608262102969 / 27817185604309, 27323172592098 / 27817185604309] := by decide +kernel

end Dh
