import Verif.Proof.SqueezeLaw
import Mathlib.RingTheory.PowerSeries.Derivative
import Mathlib.RingTheory.PowerSeries.NoZeroDivisors
import Mathlib.Analysis.SpecialFunctions.Log.Deriv
import Mathlib.Analysis.Complex.ExponentialBounds
/-
The law of the squeeze steps in closed form: complete homogeneous symmetric functions of 1/2, ..., 1/k, computed from power sums by
Newton's identity.
-/
namespace Dh
open Spec Finset

/-- The complete homogeneous symmetric function of degree `j` of 1/2, ..., 1/k. -/
def hsum : (j k : Nat) → ℚ
  | 0, _ => 1
  | j + 1, k => ∑ i ∈ Icc 2 k, hsum j i / i

/-- The power sum of degree `i` of 1/2, ..., 1/k. -/
def psum (i k : Nat) : ℚ := ∑ m ∈ Icc 2 k, 1 / (m : ℚ) ^ i

theorem hsum_step (j : Nat) {k : Nat} (hk : 1 ≤ k) : hsum (j + 1) (k + 1) = hsum (j + 1) k + hsum j (k + 1) / ((k + 1 : ℕ) : ℚ) := by
  rw [hsum, hsum, Finset.sum_Icc_succ_top (by omega)]

theorem psum_step (i : Nat) {k : Nat} (hk : 1 ≤ k) : psum i (k + 1) = psum i k + 1 / ((k + 1 : ℕ) : ℚ) ^ i := by
  rw [psum, psum, Finset.sum_Icc_succ_top (by omega)]

theorem sqLaw_closed : ∀ (j k : Nat), 2 ≤ k → (k : ℚ) * sqLaw (j + 1) k = hsum j k := by
  intro j
  induction j with
  | zero =>
    intro k hk
    have hk0 : (k : ℚ) ≠ 0 := by exact_mod_cast (by omega : k ≠ 0)
    rw [sqLaw, if_neg (by omega), mul_div_cancel₀ _ hk0, hsum]
    simp only [sqLaw]
    rw [Finset.sum_ite_eq', if_pos (mem_Icc.2 ⟨le_rfl, by omega⟩)]
  | succ j ih =>
    intro k hk
    have hk0 : (k : ℚ) ≠ 0 := by exact_mod_cast (by omega : k ≠ 0)
    rw [sqLaw, if_neg (by omega), mul_div_cancel₀ _ hk0, hsum]
    have e : Icc 1 k = insert 1 (Icc 2 k) := by ext x; simp only [mem_Icc, mem_insert]; omega
    rw [e, Finset.sum_insert (by simp)]
    have h1 : sqLaw (j + 1) 1 = 0 := by rw [sqLaw, if_pos rfl]
    rw [h1, zero_add]
    refine Finset.sum_congr rfl fun i hi => ?_
    have hi2 := (mem_Icc.1 hi).1
    have hi0 : (i : ℚ) ≠ 0 := by exact_mod_cast (by omega : i ≠ 0)
    rw [← ih i hi2, mul_div_cancel_left₀ _ hi0]

open PowerSeries in
theorem newton_series : ∀ k, 1 ≤ k → d⁄dX ℚ (PowerSeries.mk fun j => hsum j k) = (PowerSeries.mk fun i => psum (i + 1) k) * (PowerSeries.mk fun j => hsum j k) := by
  intro k hk
  induction k, hk using Nat.le_induction with
  | base =>
    ext j
    have h1 : ∀ i, psum i 1 = 0 := fun i => by simp [psum]
    have h2 : ∀ j, hsum (j + 1) 1 = 0 := fun j => by simp [hsum]
    have h3 : (PowerSeries.mk fun i => psum (i + 1) 1 : PowerSeries ℚ) = 0 := by
      ext i
      simp [h1]
    rw [h3, zero_mul, PowerSeries.coeff_derivative]
    simp [h2]
  | succ k hk ih =>
    set x : ℚ := 1 / ((k + 1 : ℕ) : ℚ) with hx
    set H : PowerSeries ℚ := PowerSeries.mk fun j => hsum j k with hH
    set H' : PowerSeries ℚ := PowerSeries.mk fun j => hsum j (k + 1) with hH'
    set P : PowerSeries ℚ := PowerSeries.mk fun i => psum (i + 1) k with hP
    set G : PowerSeries ℚ := PowerSeries.mk fun i => x ^ (i + 1) with hG
    have hP' : (PowerSeries.mk fun i => psum (i + 1) (k + 1) : PowerSeries ℚ) = P + G := by
      ext i
      rw [map_add, hP, hG]
      simp only [coeff_mk]
      rw [psum_step _ hk, hx, one_div_pow]
    have hstep : H' = H + PowerSeries.C x * (PowerSeries.X * H') := by
      ext j
      rw [map_add, PowerSeries.coeff_C_mul]
      cases j with
      | zero => simp [hH, hH', hsum]
      | succ j =>
        rw [PowerSeries.coeff_succ_X_mul, hH, hH', coeff_mk, coeff_mk, coeff_mk, hsum_step j hk, hx]
        ring
    have hgeo : G = PowerSeries.C x + PowerSeries.C x * (PowerSeries.X * G) := by
      ext i
      rw [map_add, PowerSeries.coeff_C_mul]
      cases i with
      | zero => simp [hG]
      | succ i =>
        rw [PowerSeries.coeff_succ_X_mul, hG, coeff_mk, coeff_mk, PowerSeries.coeff_C]
        simp only [Nat.succ_ne_zero, if_false]
        ring
    have hd : d⁄dX ℚ H' = d⁄dX ℚ H + PowerSeries.C x * (H' + PowerSeries.X * d⁄dX ℚ H') := by
      conv_lhs => rw [hstep]
      rw [map_add, Derivation.leibniz, Derivation.leibniz, PowerSeries.derivative_C, PowerSeries.derivative_X]
      simp only [smul_eq_mul, smul_zero, add_zero, mul_one, mul_zero]
      ring
    have hne : (1 - PowerSeries.C x * PowerSeries.X : PowerSeries ℚ) ≠ 0 := by
      intro h0
      have := congrArg (PowerSeries.coeff 0) h0
      simp at this
    rw [hP']
    refine mul_left_cancel₀ hne ?_
    have a1 : (1 - PowerSeries.C x * PowerSeries.X) * d⁄dX ℚ H' = d⁄dX ℚ H + PowerSeries.C x * H' := by
      linear_combination hd
    have a2 : (1 - PowerSeries.C x * PowerSeries.X) * H' = H := by linear_combination hstep
    have a3 : (1 - PowerSeries.C x * PowerSeries.X) * G = PowerSeries.C x := by linear_combination hgeo
    rw [a1, ih]
    linear_combination -P * a2 - H' * a3

theorem newton (j : Nat) {k : Nat} (hk : 1 ≤ k) : ((j + 1 : ℕ) : ℚ) * hsum (j + 1) k = ∑ i ∈ range (j + 1), psum (i + 1) k * hsum (j - i) k := by
  have h := congrArg (PowerSeries.coeff j) (newton_series k hk)
  rw [PowerSeries.coeff_derivative, PowerSeries.coeff_mul, Finset.Nat.sum_antidiagonal_eq_sum_range_succ_mk] at h
  simp only [PowerSeries.coeff_mk] at h
  rw [← h]
  push_cast
  ring

end Dh
