import Verif.Proof.Stopping
import Verif.Model.SmallTests
import Mathlib.Algebra.Order.Floor.Ring
import Mathlib.Data.Rat.Floor
import Mathlib.Order.Interval.Finset.Nat
import Mathlib.Algebra.BigOperators.Intervals
/-
The law of the number of steps of a squeeze trial, when every step leads from `k` to a random number from 1 to `k`.
-/
namespace Dh
open Spec

namespace Spec

/-- `k` times the deviate `(a + 1) / L`, rounded up. -/
def sqNext {L : Nat} (k : Nat) (a : Fin L) : Nat := (k * (a.val + 1) + (L - 1)) / L

/-- The number of steps from `k` to 1, at most `left`. -/
def sqSteps {L : Nat} : (left k : Nat) → (s : Nat → Fin L) → Nat
  | 0, _, _ => 0
  | left + 1, k, s => if k = 1 then 0 else 1 + sqSteps left (sqNext k (s 0)) (dropSeq 1 s)

/-- The probability of `j` steps from `k`. -/
def sqLaw : (j k : Nat) → ℚ
  | 0, k => if k = 1 then 1 else 0
  | j + 1, k => if k = 1 then 0 else (∑ i ∈ Finset.Icc 1 k, sqLaw j i) / k

end Spec

theorem sqNext_range {L : Nat} {k : Nat} (hk : 1 ≤ k) (a : Fin L) : 1 ≤ sqNext k a ∧ sqNext k a ≤ k := by
  have ha := a.2
  have hL : 0 < L := by omega
  rw [sqNext]
  constructor
  · rw [Nat.le_div_iff_mul_le hL]
    have : 1 * 1 ≤ k * (a.val + 1) := Nat.mul_le_mul hk (by omega)
    omega
  · rw [← Nat.lt_succ_iff, Nat.div_lt_iff_lt_mul hL, Nat.succ_mul]
    have : k * (a.val + 1) ≤ k * L := Nat.mul_le_mul_left k (by omega)
    omega

theorem sqNext_ceil {L : Nat} (k : Nat) (a : Fin L) : ⌈((k : Int) : ℚ) * (((a.val : ℚ) + 1) / L)⌉ = (sqNext k a : Int) := by
  have ha := a.2
  have hL : 0 < L := by omega
  have hLq : (0 : ℚ) < L := by exact_mod_cast hL
  have h1 : sqNext k a * L ≤ k * (a.val + 1) + (L - 1) := Nat.div_mul_le_self _ _
  have h2 : k * (a.val + 1) + (L - 1) < (sqNext k a + 1) * L := by
    have := Nat.lt_div_mul_add (a := k * (a.val + 1) + (L - 1)) hL
    rw [Nat.add_mul, Nat.one_mul]
    exact this
  rw [Int.ceil_eq_iff, ← mul_div_assoc]
  constructor
  · rw [lt_div_iff₀ hLq]
    have : sqNext k a * L < k * (a.val + 1) + L := by omega
    have h3 : (sqNext k a : ℚ) * L < k * (a.val + 1) + L := by exact_mod_cast this
    push_cast
    linarith
  · rw [div_le_iff₀ hLq]
    have : k * (a.val + 1) ≤ sqNext k a * L := by rw [Nat.add_mul, Nat.one_mul] at h2; omega
    have h3 : (k : ℚ) * (a.val + 1) ≤ sqNext k a * L := by exact_mod_cast this
    push_cast
    exact h3

theorem sqNext_mul {k m : Nat} (hk : 0 < k) (hm : 0 < m) (x : Nat) : (k * (x + 1) + (k * m - 1)) / (k * m) = x / m + 1 := by
  have e : k * (x + 1) + (k * m - 1) = k * (x + m) + (k - 1) := by
    have : 0 < k * m := Nat.mul_pos hk hm
    rw [Nat.mul_add, Nat.mul_add, Nat.mul_one]
    omega
  rw [e, ← Nat.div_div_eq_div_mul, Nat.mul_add_div hk, Nat.div_eq_of_lt (by omega : k - 1 < k), Nat.add_zero, Nat.add_div_right _ hm]

/-- When `k` divides `L`, each of the numbers 1 to `k` is equally probable. -/
theorem sqNext_law {L : Nat} (hL : 0 < L) {k : Nat} (hk : k ∣ L) {i : Nat} (h1 : 1 ≤ i) (h2 : i ≤ k) :
    (mean fun a : Fin L => if sqNext k a = i then (1 : ℝ) else 0) = 1 / k := by
  obtain ⟨m, rfl⟩ := hk
  have hk0 : 0 < k := by omega
  have hm0 : 0 < m := Nat.pos_of_mul_pos_right hL |> fun _ => by
    rcases Nat.eq_zero_or_pos m with rfl | h
    · simp at hL
    · exact h
  rw [mean_indicator, Fintype.card_fin]
  have hc : (Finset.univ.filter fun a : Fin (k * m) => sqNext k a = i).card = m := by
    have : (Finset.univ.filter fun a : Fin (k * m) => sqNext k a = i).card = (Finset.Ico ((i - 1) * m) (i * m)).card := by
      refine Finset.card_bij (fun a _ => a.val) ?_ ?_ ?_
      · intro a ha
        have e := (Finset.mem_filter.1 ha).2
        rw [sqNext, sqNext_mul hk0 hm0] at e
        have e3 : a.val / m = i - 1 := by omega
        rw [Finset.mem_Ico]
        refine ⟨(Nat.le_div_iff_mul_le hm0).1 e3.ge, (Nat.div_lt_iff_lt_mul hm0).1 (by omega)⟩
      · intro a _ b _ e
        exact Fin.ext e
      · intro x hx
        obtain ⟨l, u⟩ := Finset.mem_Ico.1 hx
        have hx2 : x < k * m := lt_of_lt_of_le u (Nat.mul_le_mul_right m h2)
        refine ⟨⟨x, hx2⟩, Finset.mem_filter.2 ⟨Finset.mem_univ _, ?_⟩, rfl⟩
        have e3 : x / m = i - 1 := by
          rw [Nat.div_eq_iff hm0]
          constructor
          · exact l
          · have : i * m = (i - 1) * m + m := by
              conv_lhs => rw [show i = i - 1 + 1 by omega, Nat.add_mul, Nat.one_mul]
            omega
        rw [sqNext]
        change (k * (x + 1) + (k * m - 1)) / (k * m) = i
        rw [sqNext_mul hk0 hm0, e3]
        omega
    rw [this, Nat.card_Ico, ← Nat.sub_mul, show i - (i - 1) = 1 by omega, Nat.one_mul]
  rw [hc]
  have : (m : ℝ) ≠ 0 := by exact_mod_cast hm0.ne'
  have : (k : ℝ) ≠ 0 := by exact_mod_cast hk0.ne'
  push_cast
  field_simp

theorem sqSteps_le {L : Nat} : ∀ (left k : Nat) (s : Nat → Fin L), sqSteps left k s ≤ left
  | 0, _, _ => le_rfl
  | left + 1, k, s => by
    rw [sqSteps]
    split
    · omega
    · have := sqSteps_le left (sqNext k (s 0)) (dropSeq 1 s)
      omega

theorem sqSteps_adapt {L : Nat} : ∀ (left k : Nat) (s s' : Nat → Fin L), (∀ i < sqSteps left k s, s i = s' i) → sqSteps left k s' = sqSteps left k s
  | 0, _, _, _, _ => rfl
  | left + 1, k, s, s', h => by
    rw [sqSteps] at h ⊢
    rw [sqSteps]
    by_cases hk : k = 1
    · rw [if_pos hk, if_pos hk]
    · rw [if_neg hk] at h
      rw [if_neg hk, if_neg hk]
      have h0 := h 0 (by omega)
      rw [← h0, sqSteps_adapt left (sqNext k (s 0)) (dropSeq 1 s) (dropSeq 1 s') fun i hi => h (1 + i) (by omega)]

theorem sqSteps_stops (L left k : Nat) (f : Nat → Nat) : Stops left (sqSteps (L := L) left k) fun s => f (sqSteps left k s) :=
  ⟨sqSteps_le left k, fun s s' h => by
    have := sqSteps_adapt left k s s' h
    exact ⟨this, by rw [this]⟩⟩

theorem sqLaw_mean {L : Nat} (hL : 0 < L) (a0 : Fin L) : ∀ (left k j : Nat), 1 ≤ k → (∀ i, 1 ≤ i → i ≤ k → i ∣ L) → j < left →
    (mean fun ω : Fin left → Fin L => if sqSteps left k (padSeq a0 ω) = j then (1 : ℝ) else 0) = sqLaw j k
  | 0, _, _, _, _, h => absurd h (Nat.not_lt_zero _)
  | left + 1, k, j, hk, hd, hj => by
    haveI : Nonempty (Fin L) := ⟨a0⟩
    by_cases hk1 : k = 1
    · have e : ∀ s : Nat → Fin L, sqSteps (left + 1) k s = 0 := fun s => by rw [sqSteps, if_pos hk1]
      simp only [e]
      rw [mean_const]
      cases j with
      | zero => rw [sqLaw, if_pos hk1]; norm_num
      | succ j => rw [sqLaw, if_pos hk1]; norm_num
    · cases j with
      | zero =>
        have e : ∀ s : Nat → Fin L, ¬ sqSteps (left + 1) k s = 0 := fun s => by rw [sqSteps, if_neg hk1]; omega
        simp only [e, if_false]
        rw [mean_const, sqLaw, if_neg hk1]
        norm_num
      | succ j =>
        have e : ∀ s : Nat → Fin L, (if sqSteps (left + 1) k s = j + 1 then (1 : ℝ) else 0) =
            ∑ i ∈ Finset.Icc 1 k, (if sqNext k (s 0) = i then (1 : ℝ) else 0) * if sqSteps left i (dropSeq 1 s) = j then (1 : ℝ) else 0 := by
          intro s
          simp only [ite_mul, one_mul, zero_mul]
          rw [Finset.sum_ite_eq, if_pos (Finset.mem_Icc.2 (sqNext_range hk _)), sqSteps, if_neg hk1]
          have : (1 + sqSteps left (sqNext k (s 0)) (dropSeq 1 s) = j + 1) ↔ sqSteps left (sqNext k (s 0)) (dropSeq 1 s) = j := by omega
          simp only [this]
        rw [mean_congr fun ω => e _, mean_sum, sqLaw, if_neg hk1, Rat.cast_div, Rat.cast_sum, Finset.sum_div]
        refine Finset.sum_congr rfl fun i hi => ?_
        obtain ⟨i1, i2⟩ := Finset.mem_Icc.1 hi
        have hF : FirstOnly 1 fun s : Nat → Fin L => if sqNext k (s 0) = i then (1 : ℝ) else 0 := fun s s' es => by
          beta_reduce
          rw [es 0 (by omega)]
        have hG : FirstOnly left fun s : Nat → Fin L => if sqSteps left i s = j then (1 : ℝ) else 0 := fun s s' es => by
          beta_reduce
          rw [sqSteps_adapt left i s s' fun q hq => es q (lt_of_lt_of_le hq (sqSteps_le left i s))]
        have hs := mean_split a0 hF hG
        have hcomm : 1 + left = left + 1 := by omega
        have ht : (mean fun ω : Fin (left + 1) → Fin L => (if sqNext k (padSeq a0 ω 0) = i then (1 : ℝ) else 0) * if sqSteps left i (dropSeq 1 (padSeq a0 ω)) = j then (1 : ℝ) else 0) =
            mean fun ω : Fin (1 + left) → Fin L => (if sqNext k (padSeq a0 ω 0) = i then (1 : ℝ) else 0) * if sqSteps left i (dropSeq 1 (padSeq a0 ω)) = j then (1 : ℝ) else 0 := by
          rw [hcomm]
        rw [ht, hs, sqLaw_mean hL a0 left i j i1 (fun q h1 h2 => hd q h1 (by omega)) (by omega)]
        have hone := sqNext_law hL (hd k hk le_rfl) i1 i2
        have h1 := mean_coord (B := Fin L) (n := 1) (t := 0) (by omega) fun a => if sqNext k a = i then (1 : ℝ) else 0
        rw [hone] at h1
        have h2 : (mean fun ω : Fin 1 → Fin L => if sqNext k (padSeq a0 ω 0) = i then (1 : ℝ) else 0) = 1 / k := by
          rw [← h1]
          rfl
        rw [h2]
        push_cast
        ring

end Dh
