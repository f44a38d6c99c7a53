import Mathlib.Algebra.Order.Chebyshev
import Verif.Props.SerialMean
import Verif.Props.OrderPower
import Verif.Props.RunsPower
/-
C141: sts_serial finds every predictor of the next bit.
-/
namespace Dh
namespace Spec

/-- At how many positions `t` of the cyclic bit string the bit that follows the `m` bits from `t` on is what `g` predicts from these `m` bits. -/
def hits (ws : List UInt) (m : Nat) (g : List Bool → Bool) : Nat :=
  (List.range (32 * ws.length)).countP fun t => msbStream ws (t + m) == g ((List.range m).map fun i => msbStream ws (t + i))

/-- At how many positions `t` the bits at both ends of a window of `m + 2` bits differ if and only if `g` says so of the `m` bits between them. -/
def endHits (ws : List UInt) (m : Nat) (g : List Bool → Bool) : Nat :=
  (List.range (32 * ws.length)).countP fun t =>
    (msbStream ws t ^^ msbStream ws (t + m + 1)) == g ((List.range m).map fun i => msbStream ws (t + 1 + i))

/-- The positions of the p-values for `m + 1` bits in the results of sts_serial: of the first difference (`1 ≤ m`) and of the second (`2 ≤ m`). -/
def firstAt (m : Nat) : Nat := max 1 (2 * m - 2)
@[inherit_doc firstAt] def secondAt (m : Nat) : Nat := 2 * m - 1

end Spec
open Spec

/-- The value of the window of `m` bits at position `t`. -/
def winVal (ws : List UInt) : Nat → Nat → Nat
  | 0, _ => 0
  | m + 1, t => 2 * winVal ws m t + (msbStream ws (t + m)).toNat

theorem winVal_lt (ws : List UInt) (t : Nat) : ∀ m, winVal ws m t < 2 ^ m
  | 0 => by simp [winVal]
  | m + 1 => by
    have := winVal_lt ws t m
    have hb : (msbStream ws (t + m)).toNat ≤ 1 := Bool.toNat_le _
    rw [winVal, pow_succ]
    omega

theorem winVal_testBit (ws : List UInt) (t : Nat) : ∀ m i, i < m → (winVal ws m t).testBit (m - 1 - i) = msbStream ws (t + i)
  | 0, _, h => by omega
  | m + 1, i, h => by
    rw [winVal]
    by_cases hi : i = m
    · subst hi
      rw [show i + 1 - 1 - i = 0 by omega, Nat.testBit_zero]
      cases msbStream ws (t + i) <;> simp
    · rw [show m + 1 - 1 - i = (m - 1 - i) + 1 by omega, Nat.testBit_succ, ← winVal_testBit ws t m i (by omega)]
      congr 1
      have hb : (msbStream ws (t + m)).toNat ≤ 1 := Bool.toNat_le _
      omega

theorem occurs_iff (ws : List UInt) (m v t : Nat) (hv : v < 2 ^ m) : occurs ws m v t = true ↔ winVal ws m t = v := by
  rw [occurs, List.all_eq_true]
  simp only [List.mem_range, beq_iff_eq]
  constructor
  · intro h
    refine Nat.eq_of_testBit_eq fun j => ?_
    by_cases hj : j < m
    · have := h (m - 1 - j) (by omega)
      rw [← winVal_testBit ws t m _ (by omega), show m - 1 - (m - 1 - j) = j by omega] at this
      exact this
    · rw [Nat.testBit_lt_two_pow ((winVal_lt ws t m).trans_le (Nat.pow_le_pow_right (by norm_num) (by omega))),
        Nat.testBit_lt_two_pow (hv.trans_le (Nat.pow_le_pow_right (by norm_num) (by omega)))]
  · rintro rfl i hi
    exact (winVal_testBit ws t m i hi).symm

theorem msbStream_period (ws : List UInt) (t : Nat) : msbStream ws (t + 32 * ws.length) = msbStream ws t := by
  rw [msbStream, msbStream, show (t + 32 * ws.length) / 32 = t / 32 + ws.length by omega, Nat.add_mod_right, Nat.add_mul_mod_self_left]

theorem winVal_period (ws : List UInt) (t : Nat) : ∀ m, winVal ws m (t + 32 * ws.length) = winVal ws m t
  | 0 => rfl
  | m + 1 => by rw [winVal, winVal, winVal_period ws t m, show t + 32 * ws.length + m = t + m + 32 * ws.length by omega, msbStream_period ws]

theorem winVal_front (ws : List UInt) (t : Nat) : ∀ m, winVal ws (m + 1) t = (msbStream ws t).toNat * 2 ^ m + winVal ws m (t + 1)
  | 0 => by simp [winVal]
  | m + 1 => by
    rw [winVal, winVal_front ws t m, winVal, show t + 1 + m = t + (m + 1) by omega]
    ring

theorem sum_shift (F : Nat → ℝ) (N : Nat) (h : ∀ t, F (t + N) = F t) : ∑ t ∈ Finset.range N, F (t + 1) = ∑ t ∈ Finset.range N, F t := by
  have h1 := Finset.sum_range_succ F N
  have h2 := Finset.sum_range_succ' F N
  have h3 := h 0
  rw [zero_add] at h3
  rw [h1] at h2
  linarith

theorem sum_even_odd (F : Nat → ℝ) : ∀ K, ∑ v ∈ Finset.range (2 * K), F v = ∑ v ∈ Finset.range K, (F (2 * v) + F (2 * v + 1))
  | 0 => by simp
  | K + 1 => by
    rw [show 2 * (K + 1) = 2 * K + 1 + 1 by ring, Finset.sum_range_succ, Finset.sum_range_succ, sum_even_odd F K, Finset.sum_range_succ]
    ring

theorem patternCount_sum (ws : List UInt) (m v : Nat) (hv : v < 2 ^ m) :
    (patternCount ws m v : ℝ) = ∑ t ∈ Finset.range (32 * ws.length), if winVal ws m t = v then (1 : ℝ) else 0 := by
  rw [patternCount, List.countP_congr (q := fun t => decide (winVal ws m t = v)) fun t _ => by
    rw [decide_eq_true_iff]; exact occurs_iff ws m v t hv]
  generalize 32 * ws.length = N
  induction N with
  | zero => simp
  | succ N ih =>
    rw [List.range_succ, List.countP_append, Nat.cast_add, ih, Finset.sum_range_succ, List.countP_singleton]
    by_cases h : winVal ws m N = v <;> simp [h]

/-- A bit as a sign. -/
noncomputable def sgn (b : Bool) : ℝ := if b then 1 else -1

/-- How much more often the pattern `v` is followed by a one than by a zero. -/
noncomputable def lean1 (ws : List UInt) (m v : Nat) : ℝ := (patternCount ws (m + 1) (2 * v + 1) : ℝ) - patternCount ws (m + 1) (2 * v)

theorem lean1_sum (ws : List UInt) (m v : Nat) (hv : v < 2 ^ m) :
    lean1 ws m v = ∑ t ∈ Finset.range (32 * ws.length), if winVal ws m t = v then sgn (msbStream ws (t + m)) else 0 := by
  rw [lean1, patternCount_sum _ _ _ (by rw [pow_succ]; omega), patternCount_sum _ _ _ (by rw [pow_succ]; omega), ← Finset.sum_sub_distrib]
  refine Finset.sum_congr rfl fun t _ => ?_
  rw [winVal]
  by_cases h : winVal ws m t = v
  · cases hb : msbStream ws (t + m) <;> simp [h, sgn]
  · have hb : (msbStream ws (t + m)).toNat ≤ 1 := Bool.toNat_le _
    rw [if_neg (by omega), if_neg (by omega), if_neg h, sub_zero]

theorem count_back (ws : List UInt) (m v : Nat) (hv : v < 2 ^ m) :
    (patternCount ws m v : ℝ) = patternCount ws (m + 1) (2 * v) + patternCount ws (m + 1) (2 * v + 1) := by
  rw [patternCount_sum _ m _ hv, patternCount_sum _ _ _ (by rw [pow_succ]; omega), patternCount_sum _ _ _ (by rw [pow_succ]; omega), ← Finset.sum_add_distrib]
  refine Finset.sum_congr rfl fun t _ => ?_
  rw [winVal]
  by_cases h : winVal ws m t = v
  · cases hb : msbStream ws (t + m) <;> simp [h]
  · have hb : (msbStream ws (t + m)).toNat ≤ 1 := Bool.toNat_le _
    rw [if_neg h, if_neg (by omega), if_neg (by omega), add_zero]

theorem lean1_front (ws : List UInt) (m u : Nat) (hu : u < 2 ^ m) : lean1 ws m u = lean1 ws (m + 1) u + lean1 ws (m + 1) (2 ^ m + u) := by
  rw [lean1_sum _ _ _ hu, lean1_sum _ _ _ (by rw [pow_succ]; omega), lean1_sum _ _ _ (by rw [pow_succ]; omega), ← Finset.sum_add_distrib,
    ← sum_shift _ _ fun t => by rw [winVal_period ws, show t + 32 * ws.length + m = t + m + 32 * ws.length by omega, msbStream_period ws]]
  refine Finset.sum_congr rfl fun t _ => ?_
  have hw := winVal_lt ws (t + 1) m
  rw [winVal_front, show t + 1 + m = t + (m + 1) by omega]
  cases msbStream ws t
  · rw [show Bool.toNat false * 2 ^ m = 0 by simp, zero_add, if_neg (show ¬ winVal ws m (t + 1) = 2 ^ m + u by omega), add_zero]
  · rw [show Bool.toNat true * 2 ^ m = 2 ^ m by simp, if_neg (show ¬ 2 ^ m + winVal ws m (t + 1) = u by omega), zero_add]
    simp only [Nat.add_left_cancel_iff]

theorem count_total (ws : List UInt) (m : Nat) : ∑ v ∈ Finset.range (2 ^ m), (patternCount ws m v : ℝ) = 32 * ws.length := by
  rw [Finset.sum_congr rfl fun v hv => patternCount_sum ws m v (Finset.mem_range.1 hv), Finset.sum_comm]
  rw [Finset.sum_congr rfl fun t _ => by
    rw [Finset.sum_ite_eq, if_pos (Finset.mem_range.2 (winVal_lt ws t m))]]
  simp

theorem serialPsi_squares (ws : List UInt) (h0 : 0 < ws.length) (m : Nat) :
    serialPsi ws m = 2 ^ m / (32 * ws.length : ℝ) * ∑ v ∈ Finset.range (2 ^ m), (patternCount ws m v : ℝ) ^ 2 - 32 * ws.length := by
  have hN : (32 * ws.length : ℝ) ≠ 0 := by
    have : (ws.length : ℝ) ≠ 0 := by exact_mod_cast h0.ne'
    positivity
  have hp : (2 : ℝ) ^ m ≠ 0 := by positivity
  have ht := count_total ws m
  rw [serialPsi]
  generalize (32 * ws.length : ℝ) = N at *
  have : ∀ v, ((patternCount ws m v : ℝ) - N / 2 ^ m) ^ 2 / (N / 2 ^ m) = 2 ^ m / N * (patternCount ws m v : ℝ) ^ 2 - 2 * (patternCount ws m v : ℝ) + N / 2 ^ m := fun v => by
    field_simp
    ring
  rw [Finset.sum_congr rfl fun v _ => this v, Finset.sum_add_distrib, Finset.sum_sub_distrib, ← Finset.mul_sum, ← Finset.mul_sum, ht, Finset.sum_const, Finset.card_range,
    nsmul_eq_mul]
  push_cast
  field_simp
  ring

/-- C141: the first difference of the statistics is a sum of squares, one for every pattern of `m` bits: of the numbers of times that it is followed by a one and by a
zero, the difference. -/
theorem C141_first (ws : List UInt) (h0 : 0 < ws.length) (m : Nat) :
    serialPsi ws (m + 1) - serialPsi ws m =
      2 ^ m / (32 * ws.length : ℝ) * ∑ v ∈ Finset.range (2 ^ m), ((patternCount ws (m + 1) (2 * v + 1) : ℝ) - patternCount ws (m + 1) (2 * v)) ^ 2 := by
  have e1 := sum_even_odd (fun v => (patternCount ws (m + 1) v : ℝ) ^ 2) (2 ^ m)
  rw [← pow_succ'] at e1
  have e2 : ∑ v ∈ Finset.range (2 ^ m), (patternCount ws m v : ℝ) ^ 2 =
      ∑ v ∈ Finset.range (2 ^ m), ((patternCount ws (m + 1) (2 * v) : ℝ) + patternCount ws (m + 1) (2 * v + 1)) ^ 2 :=
    Finset.sum_congr rfl fun v hv => by rw [count_back ws m v (Finset.mem_range.1 hv)]
  rw [serialPsi_squares ws h0, serialPsi_squares ws h0, e1, e2, sub_sub_sub_cancel_right, pow_succ (2 : ℝ) m, mul_div_right_comm, mul_assoc, ← mul_sub, Finset.mul_sum,
    ← Finset.sum_sub_distrib]
  congr 1
  refine Finset.sum_congr rfl fun v _ => ?_
  ring

/-- C141: the second difference as well: patterns of `m` bits between two bits that are equal or different. -/
theorem C141_second (ws : List UInt) (h0 : 0 < ws.length) (m : Nat) :
    serialPsi ws (m + 2) - 2 * serialPsi ws (m + 1) + serialPsi ws m =
      2 ^ m / (32 * ws.length : ℝ) * ∑ u ∈ Finset.range (2 ^ m),
        (((patternCount ws (m + 2) (2 * u) : ℝ) + patternCount ws (m + 2) (2 ^ (m + 1) + 2 * u + 1)) -
          (patternCount ws (m + 2) (2 * u + 1) + patternCount ws (m + 2) (2 ^ (m + 1) + 2 * u))) ^ 2 := by
  have h1 := C141_first ws h0 m
  have h2 := C141_first ws h0 (m + 1)
  rw [show serialPsi ws (m + 2) - 2 * serialPsi ws (m + 1) + serialPsi ws m = (serialPsi ws (m + 1 + 1) - serialPsi ws (m + 1)) - (serialPsi ws (m + 1) - serialPsi ws m) by ring, h1, h2]
  rw [show (2 : Nat) ^ (m + 1) = 2 ^ m + 2 ^ m by ring, Finset.sum_range_add, pow_succ (2 : ℝ) m, ← Finset.sum_add_distrib, mul_div_right_comm, mul_assoc, ← mul_sub, Finset.mul_sum,
    ← Finset.sum_sub_distrib]
  congr 1
  refine Finset.sum_congr rfl fun u hu => ?_
  have h := lean1_front ws m u (Finset.mem_range.1 hu)
  rw [lean1, lean1, lean1] at h
  rw [h, show m + 1 + 1 = m + 2 from rfl, show 2 * (2 ^ m + u) = 2 ^ m + 2 ^ m + 2 * u by ring]
  ring

theorem hits_sum (N : Nat) (f : Nat → Bool) : 2 * ((List.range N).countP f : ℝ) - N = ∑ t ∈ Finset.range N, sgn (f t) := by
  induction N with
  | zero => simp
  | succ N ih =>
    rw [List.range_succ, List.countP_append, Finset.sum_range_succ, ← ih, List.countP_singleton]
    cases f N <;> simp [sgn] <;> ring

theorem sgn_beq (a b : Bool) : sgn (a == b) = sgn b * sgn a := by cases a <;> cases b <;> simp [sgn]
theorem sgn_xor (a b : Bool) : sgn (a ^^ b) = - (sgn a * sgn b) := by cases a <;> cases b <;> simp [sgn]
theorem sgn_sq (a : Bool) : sgn a ^ 2 = 1 := by cases a <;> simp [sgn]

/-- What a predictor says of a pattern that is given as a number. -/
def onPattern (m : Nat) (g : List Bool → Bool) (v : Nat) : Bool := g ((List.range m).map fun i => v.testBit (m - 1 - i))

theorem onPattern_win (ws : List UInt) (m : Nat) (g : List Bool → Bool) (t : Nat) :
    onPattern m g (winVal ws m t) = g ((List.range m).map fun i => msbStream ws (t + i)) := by
  rw [onPattern]
  congr 1
  refine List.map_congr_left fun i hi => ?_
  rw [winVal_testBit ws t m i (List.mem_range.1 hi)]

/-- Grouping by the value of a window, and Cauchy's inequality. -/
theorem group_le (N m : Nat) (W : Nat → Nat) (hW : ∀ t, W t < 2 ^ m) (σ : Nat → Bool) (F : Nat → ℝ) :
    (∑ t ∈ Finset.range N, sgn (σ (W t)) * F t) ^ 2 ≤ 2 ^ m * ∑ v ∈ Finset.range (2 ^ m), (∑ t ∈ Finset.range N, if W t = v then F t else 0) ^ 2 := by
  have h1 : ∑ t ∈ Finset.range N, sgn (σ (W t)) * F t = ∑ v ∈ Finset.range (2 ^ m), sgn (σ v) * ∑ t ∈ Finset.range N, if W t = v then F t else 0 := by
    simp only [Finset.mul_sum]
    rw [Finset.sum_comm]
    refine Finset.sum_congr rfl fun t _ => ?_
    simp only [mul_ite, mul_zero]
    rw [Finset.sum_ite_eq, if_pos (Finset.mem_range.2 (hW t))]
  rw [h1]
  refine (sq_sum_le_card_mul_sum_sq).trans (le_of_eq ?_)
  rw [Finset.card_range]
  push_cast
  congr 1
  refine Finset.sum_congr rfl fun v _ => ?_
  rw [mul_pow, sgn_sq, one_mul]

/-- C141: whatever rule `g` predicts the next bit from the `m` bits before it, the first difference is at least the square of (right minus wrong predictions) by the number
of bits. -/
theorem C141_next (ws : List UInt) (h0 : 0 < ws.length) (m : Nat) (g : List Bool → Bool) :
    (2 * (hits ws m g : ℝ) - 32 * ws.length) ^ 2 / (32 * ws.length) ≤ serialPsi ws (m + 1) - serialPsi ws m := by
  have hN : (0 : ℝ) < 32 * ws.length := by
    have : (0 : ℝ) < ws.length := by exact_mod_cast h0
    positivity
  have hs := hits_sum (32 * ws.length) fun t => msbStream ws (t + m) == g ((List.range m).map fun i => msbStream ws (t + i))
  push_cast at hs
  rw [C141_first ws h0, hits, hs, div_mul_eq_mul_div]
  refine div_le_div_of_nonneg_right ?_ hN.le
  simp only [sgn_beq, ← onPattern_win]
  refine (group_le (32 * ws.length) m (fun t => winVal ws m t) (fun t => winVal_lt ws t m) (onPattern m g) fun t => sgn (msbStream ws (t + m))).trans (le_of_eq ?_)
  congr 1
  refine Finset.sum_congr rfl fun v hv => ?_
  rw [← lean1_sum ws m v (Finset.mem_range.1 hv), lean1]

/-- C141: the same for the second difference and rules that predict whether the bits on both sides of `m` bits are different. -/
theorem C141_ends (ws : List UInt) (h0 : 0 < ws.length) (m : Nat) (g : List Bool → Bool) :
    (2 * (endHits ws m g : ℝ) - 32 * ws.length) ^ 2 / (32 * ws.length) ≤ serialPsi ws (m + 2) - 2 * serialPsi ws (m + 1) + serialPsi ws m := by
  have hN : (0 : ℝ) < 32 * ws.length := by
    have : (0 : ℝ) < ws.length := by exact_mod_cast h0
    positivity
  have hs := hits_sum (32 * ws.length) fun t => (msbStream ws t ^^ msbStream ws (t + m + 1)) == g ((List.range m).map fun i => msbStream ws (t + 1 + i))
  push_cast at hs
  rw [C141_second ws h0, endHits, hs, div_mul_eq_mul_div]
  refine div_le_div_of_nonneg_right ?_ hN.le
  simp only [sgn_beq, ← onPattern_win]
  refine (group_le (32 * ws.length) m (fun t => winVal ws m (t + 1)) (fun t => winVal_lt ws (t + 1) m) (onPattern m g)
    fun t => sgn (msbStream ws t ^^ msbStream ws (t + m + 1))).trans (le_of_eq ?_)
  congr 1
  refine Finset.sum_congr rfl fun u hu => ?_
  have hu' := Finset.mem_range.1 hu
  have e : ((patternCount ws (m + 2) (2 * u) : ℝ) + patternCount ws (m + 2) (2 ^ (m + 1) + 2 * u + 1)) -
          (patternCount ws (m + 2) (2 * u + 1) + patternCount ws (m + 2) (2 ^ (m + 1) + 2 * u)) = -(lean1 ws (m + 1) u - lean1 ws (m + 1) (2 ^ m + u)) := by
    rw [lean1, lean1, show 2 * (2 ^ m + u) = 2 ^ (m + 1) + 2 * u by ring]
    ring
  rw [e, neg_sq, lean1_sum _ _ _ (by rw [pow_succ]; omega), lean1_sum _ _ _ (by rw [pow_succ]; omega), ← Finset.sum_sub_distrib]
  congr 1
  refine Finset.sum_congr rfl fun t _ => ?_
  have hw := winVal_lt ws (t + 1) m
  rw [winVal_front, sgn_xor, show t + (m + 1) = t + m + 1 by omega]
  cases msbStream ws t
  · rw [show Bool.toNat false * 2 ^ m = 0 by simp, zero_add, if_neg (show ¬ winVal ws m (t + 1) = 2 ^ m + u by omega)]
    by_cases h : winVal ws m (t + 1) = u <;> cases msbStream ws (t + m + 1) <;> simp [h, sgn]
  · rw [show Bool.toNat true * 2 ^ m = 2 ^ m by simp, if_neg (show ¬ 2 ^ m + winVal ws m (t + 1) = u by omega)]
    by_cases h : winVal ws m (t + 1) = u <;> simp [h, sgn]

theorem serialAt (gaussP gammaQ : ℝ → ℝ → ℝ) (ws : List UInt) (h0 : 0 < ws.length) :
    ∃ ps, stsSerialTest gaussP gammaQ ws = .ok ps ∧ ps.length = 30 ∧
      (∀ m, 1 ≤ m → m ≤ 15 → ps.getD (firstAt m) 0 = gammaQ (2 ^ m / 2) ((serialPsi ws (m + 1) - serialPsi ws m) / 2)) ∧
      ∀ m, 1 ≤ m → m ≤ 14 → ps.getD (secondAt (m + 1)) 0 =
        gammaQ (2 ^ m / 2) ((serialPsi ws (m + 2) - 2 * serialPsi ws (m + 1) + serialPsi ws m) / 2) := by
  refine ⟨_, C84_statistics gaussP gammaQ ws h0, rfl, fun m h1 h2 => ?_, fun m h1 h2 => ?_⟩
  · interval_cases m <;> rfl
  · interval_cases m <;> rfl

/-- The p-value of a statistic that is at least `c` on `2^m` degrees of freedom. -/
theorem serialP_low (m : Nat) (x c : ℝ) (hc : c ≤ x) (h : 32 + 1.3863 * 2 ^ m ≤ c) : 0 ≤ gammaTail (2 ^ m / 2) (x / 2) ∧ gammaTail (2 ^ m / 2) (x / 2) ≤ 0.0004 := by
  have hp : (0 : ℝ) < 2 ^ m := by positivity
  have ha : (0 : ℝ) < 2 ^ m / 2 := by positivity
  have hx : 0 ≤ x / 2 := by linarith
  refine ⟨(C138_tail ha).2.1 _ hx, ((C138_chernoff ha hx (1 / 2) (by norm_num)).1 (by norm_num)).trans ?_⟩
  rw [show (1 : ℝ) / (1 - 1 / 2) = 2 by norm_num, Real.rpow_def_of_pos (by norm_num), ← Real.exp_add]
  have hl := Real.log_two_lt_d9
  have h8 : Real.log 2 * (2 ^ m / 2) + -(1 / 2 * (x / 2)) ≤ -8 := by
    have := mul_le_mul_of_nonneg_right hl.le ha.le
    linarith
  rw [add_comm]
  refine (Real.exp_le_exp.2 h8).trans ?_
  have := exp_neg_8
  norm_num at this ⊢
  exact this

/-- C141: sts_serial fails, by the first difference for `m + 1` bits, on every generator for which, in every sample, some rule predicts the next bit from the `m` before it
with enough of an advantage. -/
theorem C141_predictable (gaussP : ℝ → ℝ → ℝ) (m : Nat) (h1 : 1 ≤ m) (h15 : m ≤ 15) (psamples : Nat) (wss : Nat → List UInt) (h0 : ∀ i, 0 < (wss i).length)
    (g : Nat → List Bool → Bool) (h : ∀ i, (32 + 1.3863 * 2 ^ m) * (32 * (wss i).length) ≤ (2 * (hits (wss i) m (g i) : ℝ) - 32 * (wss i).length) ^ 2) :
    ∃ ps : Nat → List ℝ, (∀ i, stsSerialTest gaussP gammaTail (wss i) = .ok (ps i)) ∧
      FailsLow ((List.range psamples).map fun i => (ps i).getD (firstAt m) 0) := by
  choose ps a1 a2 a3 a4 using fun i => serialAt gaussP gammaTail (wss i) (h0 i)
  refine ⟨ps, a1, C137_low _ fun p hp => ?_⟩
  obtain ⟨i, -, rfl⟩ := List.mem_map.1 hp
  have hN : (0 : ℝ) < 32 * (wss i).length := by
    have : (0 : ℝ) < (wss i).length := by exact_mod_cast h0 i
    positivity
  rw [a3 i m h1 h15]
  exact serialP_low m _ _ (C141_next (wss i) (h0 i) m (g i)) ((le_div_iff₀ hN).2 (h i))

/-- C141: and by the second difference for `m + 2` bits if some rule predicts from `m` bits whether the bits on both sides of them differ. -/
theorem C141_predictable_ends (gaussP : ℝ → ℝ → ℝ) (m : Nat) (h1 : 1 ≤ m) (h14 : m ≤ 14) (psamples : Nat) (wss : Nat → List UInt) (h0 : ∀ i, 0 < (wss i).length)
    (g : Nat → List Bool → Bool) (h : ∀ i, (32 + 1.3863 * 2 ^ m) * (32 * (wss i).length) ≤ (2 * (endHits (wss i) m (g i) : ℝ) - 32 * (wss i).length) ^ 2) :
    ∃ ps : Nat → List ℝ, (∀ i, stsSerialTest gaussP gammaTail (wss i) = .ok (ps i)) ∧
      FailsLow ((List.range psamples).map fun i => (ps i).getD (secondAt (m + 1)) 0) := by
  choose ps a1 a2 a3 a4 using fun i => serialAt gaussP gammaTail (wss i) (h0 i)
  refine ⟨ps, a1, C137_low _ fun p hp => ?_⟩
  obtain ⟨i, -, rfl⟩ := List.mem_map.1 hp
  have hN : (0 : ℝ) < 32 * (wss i).length := by
    have : (0 : ℝ) < (wss i).length := by exact_mod_cast h0 i
    positivity
  rw [a4 i m h1 h14]
  exact serialP_low m _ _ (C141_ends (wss i) (h0 i) m (g i)) ((le_div_iff₀ hN).2 (h i))

/-- C141: so every feedback shift register of at most 15 bits, linear or not, fails with 1500 words or more: bits that are a function `g` of the `m` bits before them. -/
theorem C141_register (gaussP : ℝ → ℝ → ℝ) (m : Nat) (h1 : 1 ≤ m) (h15 : m ≤ 15) (psamples : Nat) (wss : Nat → List UInt) (h0 : ∀ i, 1500 ≤ (wss i).length)
    (g : Nat → List Bool → Bool)
    (h : ∀ i t, t + m < 32 * (wss i).length → msbStream (wss i) (t + m) = g i ((List.range m).map fun j => msbStream (wss i) (t + j))) :
    ∃ ps : Nat → List ℝ, (∀ i, stsSerialTest gaussP gammaTail (wss i) = .ok (ps i)) ∧
      FailsLow ((List.range psamples).map fun i => (ps i).getD (firstAt m) 0) := by
  refine C141_predictable gaussP m h1 h15 psamples wss (fun i => by have := h0 i; omega) g fun i => ?_
  have hi := h0 i
  have hh : 32 * (wss i).length - m ≤ hits (wss i) m (g i) := by
    rw [hits]
    have hsplit : 32 * (wss i).length = (32 * (wss i).length - m) + m := by omega
    have hall : (List.range (32 * (wss i).length - m)).countP (fun t => msbStream (wss i) (t + m) == g i ((List.range m).map fun j => msbStream (wss i) (t + j))) =
        (List.range (32 * (wss i).length - m)).length := by
      refine List.countP_eq_length.2 fun t ht => ?_
      rw [beq_iff_eq]
      exact h i t (by have := List.mem_range.1 ht; omega)
    rw [List.length_range] at hall
    have hr : List.range (32 * (wss i).length) = List.range (32 * (wss i).length - m) ++ (List.range m).map (32 * (wss i).length - m + ·) := by
      rw [← List.range_add, ← hsplit]
    rw [hr, List.countP_append, hall]
    exact Nat.le_add_right _ _
  have hq : (32 * (wss i).length : ℝ) - m ≤ hits (wss i) m (g i) := by
    have : 32 * (wss i).length ≤ hits (wss i) m (g i) + m := by omega
    have : ((32 * (wss i).length : ℕ) : ℝ) ≤ ((hits (wss i) m (g i) + m : ℕ) : ℝ) := by exact_mod_cast this
    push_cast at this
    linarith
  have hm : (m : ℝ) ≤ 15 := by exact_mod_cast h15
  have hp : (2 : ℝ) ^ m ≤ 32768 := by
    calc (2 : ℝ) ^ m ≤ 2 ^ 15 := pow_le_pow_right₀ (by norm_num) h15
      _ = 32768 := by norm_num
  have hN : (48000 : ℝ) ≤ 32 * (wss i).length := by
    have : (1500 : ℝ) ≤ (wss i).length := by exact_mod_cast hi
    linarith
  generalize (32 * (wss i).length : ℝ) = N at *
  have hd : N - 30 ≤ 2 * (hits (wss i) m (g i) : ℝ) - N := by linarith
  calc (32 + 1.3863 * 2 ^ m) * N ≤ 45459 * N := mul_le_mul_of_nonneg_right (by linarith) (by linarith)
    _ ≤ (N - 30) ^ 2 := by nlinarith
    _ ≤ _ := pow_le_pow_left₀ (by linarith) hd 2

/-- C141: a generator in which every pattern of `m` bits is followed by a one exactly as often as by a zero (a whole number of periods of a de Bruijn sequence, for example)
has a p-value of 1, and fails as well. -/
theorem C141_even (gaussP : ℝ → ℝ → ℝ) (m : Nat) (h1 : 1 ≤ m) (h15 : m ≤ 15) (psamples : Nat) (wss : Nat → List UInt) (h0 : ∀ i, 0 < (wss i).length)
    (h : ∀ i, ∀ v < 2 ^ m, patternCount (wss i) (m + 1) (2 * v + 1) = patternCount (wss i) (m + 1) (2 * v)) :
    ∃ ps : Nat → List ℝ, (∀ i, stsSerialTest gaussP gammaTail (wss i) = .ok (ps i)) ∧ (∀ i, (ps i).getD (firstAt m) 0 = 1) ∧
      FailsHigh ((List.range psamples).map fun i => (ps i).getD (firstAt m) 0) := by
  choose ps a1 a2 a3 a4 using fun i => serialAt gaussP gammaTail (wss i) (h0 i)
  have hp : ∀ i, (ps i).getD (firstAt m) 0 = 1 := fun i => by
    rw [a3 i m h1 h15, C141_first _ (h0 i), Finset.sum_eq_zero, mul_zero, zero_div, (C138_tail (by positivity)).1]
    intro v hv
    rw [h i v (Finset.mem_range.1 hv), sub_self]
    norm_num
  refine ⟨ps, a1, hp, C139_high _ fun p hp' => ?_⟩
  obtain ⟨i, -, rfl⟩ := List.mem_map.1 hp'
  rw [hp i]
  norm_num

/-- Every pattern of two bits occurs eight times. -/
example : ∀ v < 2 ^ 1, patternCount [0x33333333] 2 (2 * v + 1) = patternCount [0x33333333] 2 (2 * v) := by decide

/-- Alternating bits: equally many zeros and ones, but each bit is the complement of the one before it. -/
example (gaussP : ℝ → ℝ → ℝ) : ∃ ps : Nat → List ℝ, (∀ i, stsSerialTest gaussP gammaTail (List.replicate (100000 + i) 0x55555555) = .ok (ps i)) ∧
    FailsLow ((List.range 100).map fun i => (ps i).getD 1 0) := by
  refine C141_register gaussP 1 (by norm_num) (by norm_num) 100 (fun i => List.replicate (100000 + i) 0x55555555) (fun i => by rw [List.length_replicate]; omega)
    (fun _ l => !l.getD 0 false) fun i t _ => ?_
  have hb : ∀ k, msbStream (List.replicate (100000 + i) 0x55555555) k = decide (k % 2 = 1) := fun k => by
    have hlt : k / 32 % (List.replicate (100000 + i) (0x55555555 : UInt)).length < 100000 + i := by
      rw [List.length_replicate]
      exact Nat.mod_lt _ (by omega)
    have hw : ∀ p < 32, msb 0x55555555 p = decide (p % 2 = 1) := by decide
    rw [msbStream, List.getD_replicate _ hlt, hw _ (Nat.mod_lt _ (by norm_num))]
    congr 1
    rw [Nat.mod_mod_of_dvd _ (by norm_num)]
  show msbStream (List.replicate (100000 + i) 0x55555555) (t + 1) = _
  rw [hb]
  simp only [List.range_one, List.map_singleton, hb]
  simp only [List.getD_cons_zero, add_zero]
  rcases Nat.mod_two_eq_zero_or_one t with h | h
  · rw [decide_eq_true (show (t + 1) % 2 = 1 by omega), decide_eq_false (show ¬ t % 2 = 1 by omega)]
    rfl
  · rw [decide_eq_false (show ¬ (t + 1) % 2 = 1 by omega), decide_eq_true h]
    rfl

/-- The first differences of a word that is half zeros, half ones: predicting the bit before is right 30 times of 32. -/
example : hits [0x0000FFFF] 1 (fun l => l.getD 0 false) = 30 ∧ endHits [0x0000FFFF] 1 (fun _ => false) = 28 := by decide

end Dh
