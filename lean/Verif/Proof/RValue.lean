import Mathlib.Tactic.Linarith
import Mathlib.Tactic.FieldSimp
import Mathlib.Data.Rat.Floor
import Mathlib.Data.Nat.ModEq
import Mathlib.Tactic.NormNum.GCD
import Verif.Props.GnuR
/-
The numbers delivered by the generators of R determine the words they are made of, for every rounding of doubles.
-/
namespace Dh
open Spec

/-- The error of a rounding on the grid of the multiples of `2^-e`. -/
theorem Spec.Rounding.near {rnd : ℚ → ℚ} (h : Rounding rnd) (e : Nat) (he : e ≤ 1000) {x : ℚ} (h0 : 0 ≤ x) (h1 : x * 2 ^ e ≤ 2 ^ 53 - 1) :
    |rnd x - x| ≤ 1 / 2 ^ e := by
  have hp : (0 : ℚ) < 2 ^ e := by positivity
  have hf := Int.floor_le (x * 2 ^ e)
  have hf' := Int.lt_floor_add_one (x * 2 ^ e)
  have hn0 : 0 ≤ ⌊x * 2 ^ e⌋ := Int.floor_nonneg.2 (by positivity)
  have hn1 : ⌊x * 2 ^ e⌋ + 1 ≤ 2 ^ 53 := by
    have : ((⌊x * 2 ^ e⌋ + 1 : ℤ) : ℚ) ≤ ((2 ^ 53 : ℤ) : ℚ) := by push_cast; linarith
    exact_mod_cast this
  generalize ⌊x * 2 ^ e⌋ = n at hf hf' hn0 hn1
  have e1 := h.exact n (by rw [abs_of_nonneg hn0]; omega) e he
  have e2 := h.exact (n + 1) (by rw [abs_of_nonneg (by omega)]; exact hn1) e he
  have m1 := h.mono ((n : ℚ) / 2 ^ e) x (by rw [div_le_iff₀ hp]; exact hf)
  have m2 := h.mono x (((n + 1 : ℤ) : ℚ) / 2 ^ e) (by rw [le_div_iff₀ hp]; push_cast; exact hf'.le)
  rw [e1] at m1
  rw [e2] at m2
  push_cast at m2
  rw [add_div] at m2
  have m3 : (n : ℚ) / 2 ^ e ≤ x := by rw [div_le_iff₀ hp]; exact hf
  have m4 : x ≤ (n : ℚ) / 2 ^ e + 1 / 2 ^ e := by rw [← add_div, le_div_iff₀ hp]; exact hf'.le
  rw [abs_le]
  constructor <;> linarith

theorem half_near {rnd : ℚ → ℚ} (h : Rounding rnd) : |rnd (1 / 2 * rnd i2_32m1) - i2_32m1 / 2| ≤ 1 / 2 ^ 60 := by
  have h1 := h.near 70 (by norm_num) (x := i2_32m1) (by unfold i2_32m1; norm_num) (by unfold i2_32m1; norm_num)
  have hi : i2_32m1 = 2328306437080797 / 10 ^ 25 := rfl
  rw [hi] at h1 ⊢
  rw [abs_le] at h1
  have h2 := h.near 70 (by norm_num) (x := 1 / 2 * rnd (2328306437080797 / 10 ^ 25)) (by norm_num at h1 ⊢; linarith) (by norm_num at h1 ⊢; linarith)
  rw [abs_le] at h2 ⊢
  constructor <;> norm_num at h1 h2 ⊢ <;> linarith

theorem top_near {rnd : ℚ → ℚ} (h : Rounding rnd) : |rnd (1 - rnd (1 / 2 * rnd i2_32m1)) - (1 - i2_32m1 / 2)| ≤ 1 / 2 ^ 50 := by
  have h1 := half_near h
  have hi : i2_32m1 = 2328306437080797 / 10 ^ 25 := rfl
  generalize rnd (1 / 2 * rnd i2_32m1) = t at h1
  rw [hi] at h1 ⊢
  rw [abs_le] at h1
  have h2 := h.near 52 (by norm_num) (x := 1 - t) (by norm_num at h1 ⊢; linarith) (by norm_num at h1 ⊢; linarith)
  rw [abs_le] at h2 ⊢
  constructor <;> norm_num at h1 h2 ⊢ <;> linarith

/-- What `fixup` makes of a number `y` near `x`. -/
theorem fixup_near {rnd : ℚ → ℚ} (h : Rounding rnd) {y : ℚ} (hy : 1 / 2 ^ 60 ≤ y) : rFixup rnd y = y ∨
    (1 - 1 / 2 ^ 60 ≤ y ∧ |rFixup rnd y - (1 - i2_32m1 / 2)| ≤ 1 / 2 ^ 50) := by
  have hpos : 0 < y := lt_of_lt_of_le (by norm_num) hy
  unfold rFixup
  rw [if_neg (not_le.2 hpos)]
  split
  · rename_i h1
    right
    refine ⟨?_, top_near h⟩
    by_contra hc
    have := h.inv_pow 60 (by norm_num) (x := 1 - y) (by linarith)
    norm_num at this h1
    linarith
  · exact Or.inl rfl

/-- The numbers made of words grow with the words. -/
theorem wordValue_strict {rnd : ℚ → ℚ} (h : Rounding rnd) {c : ℚ} (hc0 : 2 / 10 ^ 10 ≤ c) (hc1 : c ≤ 1 / 10 ^ 9) {v w : UInt} (hvw : v.toNat < w.toNat)
    (hw : (w.toNat : ℚ) * c ≤ 1 + 1 / 10 ^ 9) (hw1 : ((w.toNat : ℚ) - 1) * c ≤ 1 - 2 / 10 ^ 10) : wordValue rnd v c < wordValue rnd w c := by
  have hi : i2_32m1 = 2328306437080797 / 10 ^ 25 := rfl
  have hc := h.near 82 (by norm_num) (x := c) (by norm_num at hc0 ⊢; linarith) (by norm_num at hc1 ⊢; linarith)
  have key : ∀ u : UInt, (u.toNat : ℚ) * c ≤ 1 + 1 / 10 ^ 9 → |rnd ((u.toNat : ℚ) * rnd c) - u.toNat * c| ≤ 1 / 2 ^ 49 := by
    intro u hu
    have hu1 : (u.toNat : ℚ) ≤ 2 ^ 32 := by exact_mod_cast u.isLt.le
    have hu0 : (0 : ℚ) ≤ u.toNat := Nat.cast_nonneg _
    have h1 : |(u.toNat : ℚ) * rnd c - u.toNat * c| ≤ 1 / 2 ^ 50 := by
      rw [← mul_sub, abs_mul, abs_of_nonneg hu0]
      calc (u.toNat : ℚ) * |rnd c - c| ≤ 2 ^ 32 * (1 / 2 ^ 82) := mul_le_mul hu1 hc (abs_nonneg _) (by positivity)
        _ = _ := by norm_num
    have h0 : 0 ≤ (u.toNat : ℚ) * rnd c := by
      rw [abs_le] at hc
      exact mul_nonneg hu0 (by norm_num at hc hc0 ⊢; linarith)
    have hx1 : (u.toNat : ℚ) * rnd c ≤ 2 := by
      rw [abs_le] at h1
      norm_num at h1 hu ⊢; linarith
    generalize (u.toNat : ℚ) * rnd c = x at *
    have h2 := h.near 51 (by norm_num) (x := x) h0 (by norm_num at hx1 ⊢; linarith)
    rw [abs_le] at h1 h2 ⊢
    constructor <;> norm_num at h1 h2 ⊢ <;> linarith
  have hvq : (v.toNat : ℚ) + 1 ≤ w.toNat := by exact_mod_cast hvw
  have hcp : 0 < c := lt_of_lt_of_le (by norm_num) hc0
  have hvc : (v.toNat : ℚ) * c ≤ 1 - 2 / 10 ^ 10 := le_trans (mul_le_mul_of_nonneg_right (by linarith) hcp.le) hw1
  have hgap : (v.toNat : ℚ) * c + c ≤ w.toNat * c := by nlinarith
  have kw := key w hw
  have kv := key v (by norm_num at hvc ⊢; linarith)
  rw [wordValue, wordValue]
  have hv0 : (0 : ℚ) ≤ (v.toNat : ℚ) * c := mul_nonneg (Nat.cast_nonneg _) hcp.le
  by_cases hz : v.toNat = 0
  · -- the lowest word
    have e : rnd ((v.toNat : ℚ) * rnd c) = 0 := by rw [hz]; simp [h.zero]
    have e2 : rFixup rnd (rnd ((v.toNat : ℚ) * rnd c)) = rnd (1 / 2 * rnd i2_32m1) := by rw [e, rFixup, if_pos (le_refl _)]
    rw [e2]
    have hh := half_near h
    rw [hi] at hh
    generalize rnd ((w.toNat : ℚ) * rnd c) = y at kw
    generalize (w.toNat : ℚ) * c = x at *
    generalize (v.toNat : ℚ) * c = x' at *
    rw [abs_le] at kw
    rw [hi]
    have hy : 1 / 2 ^ 60 ≤ y := by norm_num at kw hc0 ⊢; linarith
    rcases fixup_near h hy with hf | ⟨h1, hf⟩
    · rw [hf]
      rw [abs_le] at hh
      norm_num at kw hc0 hh ⊢; linarith
    · rw [hi] at hf
      rw [abs_le] at hh hf
      norm_num at kw hc0 hh hf ⊢; linarith
  · have hz1 : (1 : ℚ) ≤ v.toNat := by exact_mod_cast Nat.one_le_iff_ne_zero.2 hz
    have hvc1 : c ≤ (v.toNat : ℚ) * c := by nlinarith
    generalize rnd ((w.toNat : ℚ) * rnd c) = y at kw
    generalize rnd ((v.toNat : ℚ) * rnd c) = y' at kv
    generalize (w.toNat : ℚ) * c = x at *
    generalize (v.toNat : ℚ) * c = x' at *
    rw [abs_le] at kw kv
    have hy : 1 / 2 ^ 60 ≤ y := by norm_num at kw hc0 ⊢; linarith
    have hy' : 1 / 2 ^ 60 ≤ y' := by norm_num at kv hc0 ⊢; linarith
    rcases fixup_near h hy' with hf' | ⟨h1', -⟩
    · rw [hf']
      rcases fixup_near h hy with hf | ⟨h1, hf⟩
      · rw [hf]
        norm_num at kw kv hc0 ⊢; linarith
      · rw [hi] at hf
        rw [abs_le] at hf
        norm_num at kw kv hc0 hf hvc ⊢; linarith
    · exfalso
      norm_num at kv h1' hvc; linarith

/-- Different words give different numbers: multicarry and super-duper. -/
theorem wordValue_inj {rnd : ℚ → ℚ} (h : Rounding rnd) (v w : UInt) : wordValue rnd v i2_32m1 = wordValue rnd w i2_32m1 ↔ v = w := by
  refine ⟨fun e => ?_, fun e => by rw [e]⟩
  have hi : i2_32m1 = 2328306437080797 / 10 ^ 25 := rfl
  have key : ∀ v w : UInt, v.toNat < w.toNat → wordValue rnd v i2_32m1 < wordValue rnd w i2_32m1 := by
    intro v w hvw
    have hw : (w.toNat : ℚ) ≤ 4294967295 := by
      have : w.toNat ≤ 4294967295 := by have := w.isLt; omega
      exact_mod_cast this
    refine wordValue_strict h (by rw [hi]; norm_num) (by rw [hi]; norm_num) hvw ?_ ?_ <;> rw [hi] <;> norm_num <;> linarith
  rcases lt_trichotomy v.toNat w.toNat with hl | hl | hl
  · exact absurd e (key v w hl).ne
  · exact BitVec.eq_of_toNat_eq hl
  · exact absurd e (key w v hl).ne'

/-- Different words of 30 bits give different numbers: the generators of Knuth. -/
theorem wordValue_inj_kt {rnd : ℚ → ℚ} (h : Rounding rnd) (v w : UInt) (hv : v.toNat < 2 ^ 30) (hw : w.toNat < 2 ^ 30) :
    wordValue rnd v ktScale = wordValue rnd w ktScale ↔ v = w := by
  refine ⟨fun e => ?_, fun e => by rw [e]⟩
  have hi : ktScale = 931322574615479 / 10 ^ 24 := rfl
  have key : ∀ v w : UInt, w.toNat < 2 ^ 30 → v.toNat < w.toNat → wordValue rnd v ktScale < wordValue rnd w ktScale := by
    intro v w hw hvw
    have hw : (w.toNat : ℚ) ≤ 1073741823 := by
      have : w.toNat ≤ 1073741823 := by omega
      exact_mod_cast this
    refine wordValue_strict h (by rw [hi]; norm_num) (by rw [hi]; norm_num) hvw ?_ ?_ <;> rw [hi] <;> norm_num <;> linarith
  rcases lt_trichotomy v.toNat w.toNat with hl | hl | hl
  · exact absurd e (key v w hw hl).ne
  · exact BitVec.eq_of_toNat_eq hl
  · exact absurd e (key w v hv hl).ne'

/-! ### Wichmann-Hill -/

/-- The numerator of the sum of the three quotients. -/
def whNum (a b c : Nat) : Nat := a * (30307 * 30323) + b * (30269 * 30323) + c * (30269 * 30307)

theorem whNum_mod (a b c : Nat) : whNum a b c % 30269 = a * (30307 * 30323) % 30269 ∧ whNum a b c % 30307 = b * (30269 * 30323) % 30307 ∧
    whNum a b c % 30323 = c * (30269 * 30307) % 30323 := by
  unfold whNum
  omega

/-- The number delivered is near the fractional part. -/
theorem whValue_near {rnd : ℚ → ℚ} (h : Rounding rnd) {i1 i2 i3 : UInt} (h1 : 0 < i1.toNat ∧ i1.toNat < 30269) (h2 : 0 < i2.toNat ∧ i2.toNat < 30307)
    (h3 : 0 < i3.toNat ∧ i3.toNat < 30323) :
    |whValue rnd i1 i2 i3 - ((whNum i1.toNat i2.toNat i3.toNat % 27817185604309 : ℕ) : ℚ) / 27817185604309| ≤ 1 / 10 ^ 14 := by
  set a := i1.toNat with ha
  set b := i2.toNat with hb
  set c := i3.toNat with hc
  have hR := Nat.div_add_mod (whNum a b c) 27817185604309
  have hr0 : 0 < whNum a b c % 27817185604309 := by
    rcases Nat.eq_zero_or_pos (whNum a b c % 27817185604309) with e | e
    · exfalso
      have e1 : whNum a b c % 30269 = 0 := by
        rw [← Nat.mod_mod_of_dvd _ (show 30269 ∣ 27817185604309 by norm_num), e]
      rw [(whNum_mod a b c).1] at e1
      have hd := Nat.Coprime.dvd_of_dvd_mul_right (by norm_num : Nat.Coprime 30269 (30307 * 30323)) (Nat.dvd_of_mod_eq_zero e1)
      exact absurd (Nat.le_of_dvd h1.1 hd) (not_le.2 h1.2)
    · exact e
  have hr1 := Nat.mod_lt (whNum a b c) (show 27817185604309 > 0 by norm_num)
  have hsum : (a : ℚ) / 30269 + (b : ℚ) / 30307 + (c : ℚ) / 30323 =
      ((whNum a b c / 27817185604309 : ℕ) : ℚ) + ((whNum a b c % 27817185604309 : ℕ) : ℚ) / 27817185604309 := by
    have : (whNum a b c : ℚ) = 27817185604309 * ((whNum a b c / 27817185604309 : ℕ) : ℚ) + ((whNum a b c % 27817185604309 : ℕ) : ℚ) := by
      exact_mod_cast hR.symm
    have e2 : (whNum a b c : ℚ) = a * (30307 * 30323) + b * (30269 * 30323) + c * (30269 * 30307) := by
      unfold whNum; push_cast; ring
    have e3 : (a : ℚ) / 30269 + (b : ℚ) / 30307 + (c : ℚ) / 30323 = (whNum a b c : ℚ) / 27817185604309 := by
      rw [e2]; field_simp; ring
    rw [e3, this, add_div, mul_div_cancel_left₀ _ (by norm_num)]
  generalize hq : whNum a b c / 27817185604309 = q at *
  generalize whNum a b c % 27817185604309 = r at *
  have hrq0 : (1 : ℚ) ≤ r := by exact_mod_cast hr0
  have hrq1 : (r : ℚ) ≤ 27817185604308 := by exact_mod_cast (by omega : r ≤ 27817185604308)
  have n1 := h.near 51 (by norm_num) (x := (a : ℚ) / 30269) (by positivity) (by
    have : (a : ℚ) < 30269 := by exact_mod_cast h1.2
    norm_num; linarith)
  have n2 := h.near 51 (by norm_num) (x := (b : ℚ) / 30307) (by positivity) (by
    have : (b : ℚ) < 30307 := by exact_mod_cast h2.2
    norm_num; linarith)
  have n3 := h.near 51 (by norm_num) (x := (c : ℚ) / 30323) (by positivity) (by
    have : (c : ℚ) < 30323 := by exact_mod_cast h3.2
    norm_num; linarith)
  have p1 : (a : ℚ) / 30269 ≤ 1 := (div_le_one (by norm_num)).2 (by exact_mod_cast h1.2.le)
  have p2 : (b : ℚ) / 30307 ≤ 1 := (div_le_one (by norm_num)).2 (by exact_mod_cast h2.2.le)
  have p3 : (c : ℚ) / 30323 ≤ 1 := (div_le_one (by norm_num)).2 (by exact_mod_cast h3.2.le)
  have z1 : 0 ≤ rnd ((a : ℚ) / 30269) := (h.unit (by positivity) p1).1
  have z2 : 0 ≤ rnd ((b : ℚ) / 30307) := (h.unit (by positivity) p2).1
  have z3 : 0 ≤ rnd ((c : ℚ) / 30323) := (h.unit (by positivity) p3).1
  have y1 : rnd ((a : ℚ) / 30269) ≤ 1 := (h.unit (by positivity) p1).2
  have y2 : rnd ((b : ℚ) / 30307) ≤ 1 := (h.unit (by positivity) p2).2
  have y3 : rnd ((c : ℚ) / 30323) ≤ 1 := (h.unit (by positivity) p3).2
  unfold whValue
  simp only [← ha, ← hb, ← hc]
  generalize rnd ((a : ℚ) / 30269) = x1 at *
  generalize rnd ((b : ℚ) / 30307) = x2 at *
  generalize rnd ((c : ℚ) / 30323) = x3 at *
  have n4 := h.near 51 (by norm_num) (x := x1 + x2) (by linarith) (by norm_num; linarith)
  have z4 : 0 ≤ rnd (x1 + x2) := by have := h.mono 0 (x1 + x2) (by linarith); rwa [h.zero] at this
  generalize rnd (x1 + x2) = x4 at *
  rw [abs_le] at n1 n2 n3 n4
  have n5 := h.near 51 (by norm_num) (x := x4 + x3) (by linarith) (by norm_num at n4 ⊢; linarith)
  generalize rnd (x4 + x3) = x5 at *
  rw [abs_le] at n5
  have hx5 : |x5 - ((q : ℚ) + (r : ℚ) / 27817185604309)| ≤ 1 / 2 ^ 48 := by
    rw [← hsum, abs_le]
    constructor <;> norm_num at n1 n2 n3 n4 n5 ⊢ <;> linarith
  rw [abs_le] at hx5
  have hr2 : 1 / 27817185604309 ≤ (r : ℚ) / 27817185604309 := div_le_div_of_nonneg_right hrq0 (by norm_num)
  have hr3 : (r : ℚ) / 27817185604309 ≤ 1 - 1 / 27817185604309 := by
    rw [div_le_iff₀ (by norm_num)]; norm_num; linarith
  generalize (r : ℚ) / 27817185604309 = t at *
  have hfl : ⌊x5⌋ = (q : ℤ) := by
    rw [Int.floor_eq_iff]
    push_cast
    constructor <;> norm_num at hx5 hr2 hr3 ⊢ <;> linarith
  rw [hfl]
  push_cast
  have n6 := h.near 51 (by norm_num) (x := x5 - q) (by norm_num at hx5 hr2 ⊢; linarith) (by norm_num at hx5 hr3 ⊢; linarith)
  generalize rnd (x5 - (q : ℚ)) = x6 at *
  rw [abs_le] at n6
  rcases fixup_near h (y := x6) (by norm_num at hx5 hr2 n6 ⊢; linarith) with hf | ⟨hf, -⟩
  · rw [hf, abs_le]
    constructor <;> norm_num at hx5 n6 ⊢ <;> linarith
  · exfalso
    norm_num at hx5 hr3 n6 hf; linarith

/-- Different states give different numbers: Wichmann-Hill. -/
theorem whValue_inj {rnd : ℚ → ℚ} (h : Rounding rnd) {i1 i2 i3 j1 j2 j3 : UInt} (h1 : 0 < i1.toNat ∧ i1.toNat < 30269)
    (h2 : 0 < i2.toNat ∧ i2.toNat < 30307) (h3 : 0 < i3.toNat ∧ i3.toNat < 30323) (g1 : 0 < j1.toNat ∧ j1.toNat < 30269)
    (g2 : 0 < j2.toNat ∧ j2.toNat < 30307) (g3 : 0 < j3.toNat ∧ j3.toNat < 30323) (e : whValue rnd i1 i2 i3 = whValue rnd j1 j2 j3) :
    i1 = j1 ∧ i2 = j2 ∧ i3 = j3 := by
  have n1 := whValue_near h h1 h2 h3
  have n2 := whValue_near h g1 g2 g3
  rw [e] at n1
  have key : whNum i1.toNat i2.toNat i3.toNat % 27817185604309 = whNum j1.toNat j2.toNat j3.toNat % 27817185604309 := by
    generalize whNum i1.toNat i2.toNat i3.toNat % 27817185604309 = r at *
    generalize whNum j1.toNat j2.toNat j3.toNat % 27817185604309 = r' at *
    rw [abs_le] at n1 n2
    by_contra hne
    rcases Nat.lt_or_gt_of_ne hne with hl | hl
    · have : (r : ℚ) + 1 ≤ r' := by exact_mod_cast hl
      norm_num at n1 n2
      linarith
    · have : (r' : ℚ) + 1 ≤ r := by exact_mod_cast hl
      norm_num at n1 n2
      linarith
  have m : ∀ p, p ∣ 27817185604309 → whNum i1.toNat i2.toNat i3.toNat % p = whNum j1.toNat j2.toNat j3.toNat % p := fun p hp => by
    rw [← Nat.mod_mod_of_dvd _ hp, key, Nat.mod_mod_of_dvd _ hp]
  have m1 := m 30269 (by norm_num)
  have m2 := m 30307 (by norm_num)
  have m3 := m 30323 (by norm_num)
  obtain ⟨a1, a2, a3⟩ := whNum_mod i1.toNat i2.toNat i3.toNat
  obtain ⟨b1, b2, b3⟩ := whNum_mod j1.toNat j2.toNat j3.toNat
  rw [a1, b1] at m1
  rw [a2, b2] at m2
  rw [a3, b3] at m3
  refine ⟨BitVec.eq_of_toNat_eq ?_, BitVec.eq_of_toNat_eq ?_, BitVec.eq_of_toNat_eq ?_⟩
  · have : Nat.ModEq 30269 i1.toNat j1.toNat := Nat.ModEq.cancel_right_of_coprime (by norm_num) m1
    rwa [Nat.ModEq, Nat.mod_eq_of_lt h1.2, Nat.mod_eq_of_lt g1.2] at this
  · have : Nat.ModEq 30307 i2.toNat j2.toNat := Nat.ModEq.cancel_right_of_coprime (by norm_num) m2
    rwa [Nat.ModEq, Nat.mod_eq_of_lt h2.2, Nat.mod_eq_of_lt g2.2] at this
  · have : Nat.ModEq 30323 i3.toNat j3.toNat := Nat.ModEq.cancel_right_of_coprime (by norm_num) m3
    rwa [Nat.ModEq, Nat.mod_eq_of_lt h3.2, Nat.mod_eq_of_lt g3.2] at this

end Dh
