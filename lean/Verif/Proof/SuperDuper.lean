import Verif.Proof.LinRel
import Verif.Proof.Mwc
/-
The Tausworthe component of super-duper: x^32 + x^15 + 1 is a product of primitive factors of degrees 11 and 21.
-/
namespace Dh
open Spec

/-- The step on words. -/
def sdStep (u : UInt) : UInt := lshX 17 (rshX 15 u)

theorem sdStep_xor (u v : UInt) : sdStep (u ^^^ v) = sdStep u ^^^ sdStep v := by
  rw [sdStep, sdStep, sdStep, rshX_xor, lshX_xor]

set_option maxRecDepth 100000 in
theorem sd_all (w : UInt) : sdStep^[4292868097] w = w :=
  fixed_of_check sdStep sdStep_xor _ (by norm_num) (by decide +kernel) w

set_option maxRecDepth 100000 in
theorem sd_23 (w : UInt) (h : sdStep^[186646439] w = w) : sdStep^[2097151] w = w :=
  rel_of_check sdStep sdStep_xor [0, 0, 0, 0, 0, 0, 0, 0, 0, 0, 0, 0, 0, 0, 0, 0, 0, 0, 0, 0, 0, 2706540517, 1118113739, 605591667, 1211183334, 2422366668, 549766040, 1099532081, 574720391, 1149440782, 676635129, 1353270258]
    _ _ (by norm_num) (by norm_num) (by decide +kernel) w h

set_option maxRecDepth 100000 in
theorem sd_89 (w : UInt) (h : sdStep^[48234473] w = w) : sdStep^[2097151] w = w :=
  rel_of_check sdStep sdStep_xor [0, 0, 0, 0, 0, 0, 0, 0, 0, 0, 0, 0, 0, 0, 0, 0, 0, 0, 0, 0, 0, 2121273997, 4242547994, 2276481208, 257995120, 515990240, 1031980481, 2063960963, 2289763723, 284560151, 1604060323, 3208120646]
    _ _ (by norm_num) (by norm_num) (by decide +kernel) w h

set_option maxRecDepth 100000 in
theorem sd_7 (w : UInt) (h : sdStep^[613266871] w = w) : sdStep^[2047] w = w :=
  rel_of_check sdStep sdStep_xor [0, 0, 0, 0, 0, 0, 0, 0, 0, 0, 0, 4253227212, 4211487129, 193952767, 387905535, 3552507699, 2810048102, 3011036160, 2607976652, 3412474197, 1800366695, 723373059, 1446746119, 1374955714, 1584089416, 3168178833, 2217623023, 140278751, 280557503, 561115007, 3210790451, 2126613606]
    _ _ (by norm_num) (by norm_num) (by decide +kernel) w h

set_option maxRecDepth 100000 in
theorem sd_127 (w : UInt) (h : sdStep^[33802111] w = w) : sdStep^[2047] w = w :=
  rel_of_check sdStep sdStep_xor [0, 0, 0, 0, 0, 0, 0, 0, 0, 0, 0, 2927801056, 1560634817, 344488291, 688976583, 4238563183, 4182159070, 1544548189, 379415643, 2209901143, 2851235406, 4251352700, 4207738104, 1528515344, 414459073, 828918146, 3427934693, 2560902091, 826836886, 1653673772, 1805692088, 3611384176]
    _ _ (by norm_num) (by norm_num) (by decide +kernel) w h

set_option maxRecDepth 100000 in
theorem sd_337 (w : UInt) (h : sdStep^[12738481] w = w) : sdStep^[2047] w = w :=
  rel_of_check sdStep sdStep_xor [0, 0, 0, 0, 0, 0, 0, 0, 0, 0, 0, 1529565823, 3059131647, 931535744, 1863071488, 2234727551, 174487807, 1340580736, 3303282047, 3538122880, 4276986751, 2800751744, 1306536193, 3236626557, 3674034820, 3053102344, 819861614, 1639723228, 3279446456, 2263925616, 1456133279, 2912266559]
    _ _ (by norm_num) (by norm_num) (by decide +kernel) w h

set_option maxRecDepth 100000 in
theorem sd_one (w : UInt) (h : sdStep w = w) : w = 0 :=
  zero_of_check sdStep sdStep_xor [32769, 65538, 131076, 262152, 524304, 1048608, 2097216, 4194432, 8388864, 16777728, 33555456, 67110912, 134221824, 268443648, 536887296, 1073741824, 2147483648, 1, 2, 4, 8, 16, 32, 64, 128, 256, 512, 1024, 2048, 4096, 8192, 16384]
    1 (by norm_num) (by decide +kernel) w h

/-- Common periods. -/
theorem fixed_mul {f : UInt → UInt} {w : UInt} {m n : Nat} (hd : m ∣ n) (h : f^[m] w = w) : f^[n] w = w := by
  obtain ⟨k, rfl⟩ := hd
  rw [Function.iterate_mul]
  exact Function.iterate_fixed h k

theorem primes_2047 (p : Nat) (hp : p.Prime) (h : p ∣ 2047) : p = 23 ∨ p = 89 := by
  rw [show 2047 = 23 * 89 by norm_num] at h
  rcases (Nat.Prime.dvd_mul hp).1 h with h | h
  · exact Or.inl ((Nat.prime_dvd_prime_iff_eq hp (by norm_num)).1 h)
  · exact Or.inr ((Nat.prime_dvd_prime_iff_eq hp (by norm_num)).1 h)

theorem primes_2097151 (p : Nat) (hp : p.Prime) (h : p ∣ 2097151) : p = 7 ∨ p = 127 ∨ p = 337 := by
  rw [show 2097151 = 7 * (7 * (127 * 337)) by norm_num] at h
  rcases (Nat.Prime.dvd_mul hp).1 h with h | h
  · exact Or.inl ((Nat.prime_dvd_prime_iff_eq hp (by norm_num)).1 h)
  · rcases (Nat.Prime.dvd_mul hp).1 h with h | h
    · exact Or.inl ((Nat.prime_dvd_prime_iff_eq hp (by norm_num)).1 h)
    · rcases (Nat.Prime.dvd_mul hp).1 h with h | h
      · exact Or.inr (Or.inl ((Nat.prime_dvd_prime_iff_eq hp (by norm_num)).1 h))
      · exact Or.inr (Or.inr ((Nat.prime_dvd_prime_iff_eq hp (by norm_num)).1 h))

/-- Words fixed by two powers with coprime exponents. -/
theorem sd_both (w : UInt) (h1 : sdStep^[2047] w = w) (h2 : sdStep^[2097151] w = w) : w = 0 := by
  apply sd_one
  have h3 := Function.isPeriodicPt_iff_minimalPeriod_dvd.1 (show Function.IsPeriodicPt sdStep 2047 w from h1)
  have h4 := Function.isPeriodicPt_iff_minimalPeriod_dvd.1 (show Function.IsPeriodicPt sdStep 2097151 w from h2)
  have h5 := Nat.dvd_gcd h3 h4
  rw [show Nat.gcd 2047 2097151 = 1 by norm_num] at h5
  have := Function.isPeriodicPt_iff_minimalPeriod_dvd.2 h5
  exact this

/-- The periods of the Tausworthe component. -/
theorem sd_period (w : UInt) (hw : w ≠ 0) : Function.minimalPeriod sdStep w =
    if sdStep^[2047] w = w then 2047 else if sdStep^[2097151] w = w then 2097151 else 4292868097 := by
  split
  · rename_i h
    refine minimalPeriod_eq_of_primes sdStep w _ (by norm_num) h fun p hp hd e => hw (sd_both w h ?_)
    rcases primes_2047 p hp hd with rfl | rfl
    · exact sd_23 w (fixed_mul (by norm_num) e)
    · exact sd_89 w (fixed_mul (by norm_num) e)
  · rename_i h
    split
    · rename_i h2
      refine minimalPeriod_eq_of_primes sdStep w _ (by norm_num) h2 fun p hp hd e => h ?_
      rcases primes_2097151 p hp hd with rfl | rfl | rfl
      · exact sd_7 w (fixed_mul (by norm_num) e)
      · exact sd_127 w (fixed_mul (by norm_num) e)
      · exact sd_337 w (fixed_mul (by norm_num) e)
    · rename_i h2
      refine minimalPeriod_eq_of_primes sdStep w _ (by norm_num) (sd_all w) fun p hp hd e => ?_
      rw [show 4292868097 = 2047 * 2097151 by norm_num] at hd
      rcases (Nat.Prime.dvd_mul hp).1 hd with hd | hd
      · rcases primes_2047 p hp hd with rfl | rfl
        · exact h2 (sd_23 w e)
        · exact h2 (sd_89 w e)
      · rcases primes_2097151 p hp hd with rfl | rfl | rfl
        · exact h (sd_7 w e)
        · exact h (sd_127 w e)
        · exact h (sd_337 w e)

end Dh
