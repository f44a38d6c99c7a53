import Mathlib.NumberTheory.LSeries.Dirichlet
import Mathlib.NumberTheory.LSeries.HurwitzZetaValues
import Mathlib.NumberTheory.Harmonic.Bounds
import Mathlib.NumberTheory.ArithmeticFunction.Moebius
import Mathlib.Analysis.Real.Pi.Bounds
import Mathlib.Analysis.PSeries
import Mathlib.Analysis.Complex.ExponentialBounds
import Mathlib.Data.Nat.Totient
/-
The number of pairs with a given greatest common divisor: counting by Moebius inversion, with an explicit error term.
-/
namespace Dh
open ArithmeticFunction Finset
open scoped ArithmeticFunction.Moebius

/-- The pairs of numbers from 1 to `N` with greatest common divisor `k`. -/
def gcdPairs (N k : Nat) : Finset (Nat × Nat) := ((Icc 1 N) ×ˢ (Icc 1 N)).filter fun p => Nat.gcd p.1 p.2 = k

theorem gcdPairs_scale (N k : Nat) (hk : 1 ≤ k) : (gcdPairs N k).card = (gcdPairs (N / k) 1).card := by
  symm
  refine Finset.card_bij (fun p _ => (k * p.1, k * p.2)) ?_ ?_ ?_
  · rintro ⟨a, b⟩ h
    simp only [gcdPairs, mem_filter, mem_product, mem_Icc] at h ⊢
    obtain ⟨⟨⟨h1, h2⟩, h3, h4⟩, h5⟩ := h
    have e1 := (Nat.le_div_iff_mul_le (by omega : 0 < k)).1 h2
    have e2 := (Nat.le_div_iff_mul_le (by omega : 0 < k)).1 h4
    refine ⟨⟨⟨Nat.mul_pos hk h1, by rw [Nat.mul_comm]; exact e1⟩, Nat.mul_pos hk h3, by rw [Nat.mul_comm]; exact e2⟩, ?_⟩
    rw [Nat.gcd_mul_left, h5, Nat.mul_one]
  · rintro ⟨a, b⟩ _ ⟨c, d⟩ _ h
    rw [Prod.mk.injEq] at h
    exact Prod.ext (Nat.eq_of_mul_eq_mul_left hk h.1) (Nat.eq_of_mul_eq_mul_left hk h.2)
  · rintro ⟨a, b⟩ h
    simp only [gcdPairs, mem_filter, mem_product, mem_Icc] at h
    obtain ⟨⟨⟨h1, h2⟩, h3, h4⟩, h5⟩ := h
    obtain ⟨a', rfl⟩ : k ∣ a := h5 ▸ Nat.gcd_dvd_left a b
    obtain ⟨b', rfl⟩ : k ∣ b := h5 ▸ Nat.gcd_dvd_right _ b
    have ha : 1 ≤ a' := Nat.pos_of_ne_zero (by rintro rfl; omega)
    have hb : 1 ≤ b' := Nat.pos_of_ne_zero (by rintro rfl; omega)
    refine ⟨(a', b'), ?_, rfl⟩
    simp only [gcdPairs, mem_filter, mem_product, mem_Icc]
    refine ⟨⟨⟨ha, (Nat.le_div_iff_mul_le (by omega)).2 (by rw [Nat.mul_comm]; exact h2)⟩, hb,
      (Nat.le_div_iff_mul_le (by omega)).2 (by rw [Nat.mul_comm]; exact h4)⟩, ?_⟩
    rw [Nat.gcd_mul_left] at h5
    exact Nat.eq_of_mul_eq_mul_left hk (by rw [h5, Nat.mul_one])

theorem sum_moebius (n : Nat) (hn : 1 ≤ n) : ∑ d ∈ n.divisors, (μ d : ℤ) = if n = 1 then 1 else 0 := by
  have h := congrArg (fun f : ArithmeticFunction ℤ => f n) moebius_mul_coe_zeta
  simp only [coe_mul_zeta_apply, one_apply] at h
  exact h

theorem card_dvd (M d : Nat) : ((Icc 1 M).filter fun a => d ∣ a).card = M / d := by
  rw [← Nat.Ioc_filter_dvd_card_eq_div M d]
  rfl

/-- The coprime pairs by Moebius inversion. -/
theorem coprime_count (M : Nat) : ((gcdPairs M 1).card : ℤ) = ∑ d ∈ Icc 1 M, μ d * ((M / d : Nat) : ℤ) ^ 2 := by
  have e1 : ((gcdPairs M 1).card : ℤ) = ∑ p ∈ (Icc 1 M) ×ˢ (Icc 1 M), ∑ d ∈ Icc 1 M, if d ∣ p.1 ∧ d ∣ p.2 then (μ d : ℤ) else 0 := by
    rw [gcdPairs, Finset.card_filter, Nat.cast_sum]
    refine Finset.sum_congr rfl fun p hp => ?_
    rw [mem_product, mem_Icc, mem_Icc] at hp
    have hg : 1 ≤ Nat.gcd p.1 p.2 := Nat.gcd_pos_of_pos_left _ (by omega)
    rw [← Finset.sum_filter]
    have : (Icc 1 M).filter (fun d => d ∣ p.1 ∧ d ∣ p.2) = (Nat.gcd p.1 p.2).divisors := by
      ext d
      rw [mem_filter, mem_Icc, Nat.mem_divisors, Nat.dvd_gcd_iff]
      constructor
      · exact fun h => ⟨h.2, by omega⟩
      · intro h
        exact ⟨⟨Nat.pos_of_dvd_of_pos h.1.1 (by omega), (Nat.le_of_dvd (by omega) h.1.1).trans hp.1.2⟩, h.1⟩
    rw [this, sum_moebius _ hg]
    simp
  rw [e1, Finset.sum_comm]
  refine Finset.sum_congr rfl fun d _ => ?_
  rw [← Finset.sum_filter, Finset.sum_const, nsmul_eq_mul, Finset.filter_product, Finset.card_product, card_dvd]
  push_cast
  ring

/-- The sum of `μ(d)/d^2` is `6/π^2`. -/
theorem moebius_series : HasSum (fun d : ℕ => (μ d : ℝ) / (d : ℝ) ^ 2) (6 / Real.pi ^ 2) := by
  have h2 : (1 : ℝ) < (2 : ℂ).re := by norm_num
  have hs := (LSeriesSummable_moebius_iff.2 h2)
  have hL : LSeries (fun n => ((μ n : ℤ) : ℂ)) 2 = 6 / (Real.pi : ℂ) ^ 2 := by
    have h := LSeries_zeta_mul_Lseries_moebius h2
    rw [LSeries_zeta_eq_riemannZeta h2, riemannZeta_two] at h
    have hpi : (Real.pi : ℂ) ≠ 0 := by exact_mod_cast Real.pi_ne_zero
    field_simp at h ⊢
    linear_combination h
  have h3 : HasSum (fun n : ℕ => LSeries.term (fun n => ((μ n : ℤ) : ℂ)) 2 n) (6 / (Real.pi : ℂ) ^ 2) := by
    rw [← hL]
    exact hs.hasSum
  have h4 : ∀ n : ℕ, LSeries.term (fun n => ((μ n : ℤ) : ℂ)) 2 n = (((μ n : ℝ) / (n : ℝ) ^ 2 : ℝ) : ℂ) := by
    intro n
    rcases Nat.eq_zero_or_pos n with rfl | hn
    · simp
    · rw [LSeries.term_of_ne_zero hn.ne']
      push_cast
      congr 1
      exact_mod_cast Complex.cpow_natCast (n : ℂ) 2
  simp only [h4] at h3
  have h5 : (6 / (Real.pi : ℂ) ^ 2) = ((6 / Real.pi ^ 2 : ℝ) : ℂ) := by push_cast; rfl
  rw [h5] at h3
  exact_mod_cast h3

theorem abs_moebius (d : ℕ) : |(μ d : ℝ)| ≤ 1 := by exact_mod_cast abs_moebius_le_one (n := d)

/-- Tail of the sum of inverse squares. -/
theorem inv_sq_tail (m : Nat) (hm : 1 ≤ m) : Summable (fun i : ℕ => 1 / ((i + (m + 1) : ℕ) : ℝ) ^ 2) ∧
    (∑' i : ℕ, 1 / ((i + (m + 1) : ℕ) : ℝ) ^ 2) ≤ 1 / (m : ℝ) := by
  have hm' : (0 : ℝ) < m := by exact_mod_cast hm
  have hs : Summable (fun i : ℕ => 1 / ((i + (m + 1) : ℕ) : ℝ) ^ 2) :=
    (summable_nat_add_iff (f := fun n : ℕ => 1 / (n : ℝ) ^ 2) (m + 1)).2 (Real.summable_one_div_nat_pow.2 (by norm_num))
  refine ⟨hs, hs.tsum_le_of_sum_range_le fun n => ?_⟩
  have : ∀ n : ℕ, ∑ i ∈ range n, 1 / ((i + (m + 1) : ℕ) : ℝ) ^ 2 ≤ 1 / (m : ℝ) - 1 / ((m + n : ℕ) : ℝ) := by
    intro n
    induction n with
    | zero => simp
    | succ n ih =>
      rw [Finset.sum_range_succ]
      have hq : (0 : ℝ) < (m + n : ℕ) := by exact_mod_cast (by omega : 0 < m + n)
      have key : 1 / ((n + (m + 1) : ℕ) : ℝ) ^ 2 ≤ 1 / ((m + n : ℕ) : ℝ) - 1 / ((m + (n + 1) : ℕ) : ℝ) := by
        have e1 : ((n + (m + 1) : ℕ) : ℝ) = ((m + n : ℕ) : ℝ) + 1 := by push_cast; ring
        have e2 : ((m + (n + 1) : ℕ) : ℝ) = ((m + n : ℕ) : ℝ) + 1 := by push_cast; ring
        rw [e1, e2]
        generalize ((m + n : ℕ) : ℝ) = q at hq
        rw [div_sub_div _ _ hq.ne' (by positivity), div_le_div_iff₀ (by positivity) (by positivity)]
        nlinarith
      linarith
  have h0 : (0 : ℝ) ≤ 1 / ((m + n : ℕ) : ℝ) := by positivity
  linarith [this n]

/-- Coprime pairs: `6/π^2 M^2` with an error of order `M log M`. -/
theorem coprime_error (M : Nat) (hM : 1 ≤ M) : |((gcdPairs M 1).card : ℝ) - 6 / Real.pi ^ 2 * (M : ℝ) ^ 2| ≤ (2 * (harmonic M : ℝ) + 1) * (M : ℝ) := by
  have hM' : (0 : ℝ) < M := by exact_mod_cast hM
  have e1 : ((gcdPairs M 1).card : ℝ) = ∑ d ∈ Icc 1 M, (μ d : ℝ) * ((M / d : Nat) : ℝ) ^ 2 := by
    have := congrArg (fun z : ℤ => (z : ℝ)) (coprime_count M)
    push_cast at this
    exact this
  have hsum := moebius_series
  have hsplit := hsum.summable.sum_add_tsum_nat_add (M + 1)
  rw [hsum.tsum_eq] at hsplit
  have e2 : ∑ d ∈ range (M + 1), (μ d : ℝ) / (d : ℝ) ^ 2 = ∑ d ∈ Icc 1 M, (μ d : ℝ) / (d : ℝ) ^ 2 := by
    rw [Finset.sum_range_succ']
    simp only [Nat.cast_zero, ArithmeticFunction.map_zero, Int.cast_zero, zero_div, add_zero]
    rw [show Icc 1 M = (range M).image (· + 1) by
      ext x
      simp only [mem_Icc, mem_image, mem_range]
      exact ⟨fun h => ⟨x - 1, by omega, by omega⟩, fun ⟨y, h1, h2⟩ => by omega⟩, Finset.sum_image (by intro a _ b _ h; simpa using h)]
  set T := ∑' i : ℕ, (μ (i + (M + 1)) : ℝ) / ((i + (M + 1) : ℕ) : ℝ) ^ 2 with hT
  obtain ⟨hs1, hs2⟩ := inv_sq_tail M hM
  have hTb : |T| ≤ 1 / (M : ℝ) := by
    rw [hT, ← Real.norm_eq_abs]
    refine (tsum_of_norm_bounded hs1.hasSum fun i => ?_).trans hs2
    rw [Real.norm_eq_abs, abs_div, abs_of_nonneg (by positivity : (0 : ℝ) ≤ ((i + (M + 1) : ℕ) : ℝ) ^ 2)]
    exact div_le_div_of_nonneg_right (abs_moebius _) (by positivity)
  have e3 : ((gcdPairs M 1).card : ℝ) - 6 / Real.pi ^ 2 * (M : ℝ) ^ 2 =
      ∑ d ∈ Icc 1 M, (μ d : ℝ) * (((M / d : Nat) : ℝ) ^ 2 - ((M : ℝ) / d) ^ 2) - T * (M : ℝ) ^ 2 := by
    rw [e1, ← hsplit, e2, add_mul, Finset.sum_mul, ← sub_sub, ← Finset.sum_sub_distrib]
    congr 1
    refine Finset.sum_congr rfl fun d _ => ?_
    rw [div_pow]
    ring
  have h1 : |∑ d ∈ Icc 1 M, (μ d : ℝ) * (((M / d : Nat) : ℝ) ^ 2 - ((M : ℝ) / d) ^ 2)| ≤ 2 * (harmonic M : ℝ) * (M : ℝ) := by
    refine (Finset.abs_sum_le_sum_abs _ _).trans ?_
    have hh : (2 * (harmonic M : ℝ) * M) = ∑ d ∈ Icc 1 M, 2 * ((M : ℝ) / d) := by
      rw [harmonic_eq_sum_Icc]
      push_cast
      rw [Finset.mul_sum, Finset.sum_mul]
      refine Finset.sum_congr rfl fun d _ => ?_
      rw [div_eq_mul_inv]
      ring
    rw [hh]
    refine Finset.sum_le_sum fun d hd => ?_
    have hd1 := (mem_Icc.1 hd).1
    have hd0 : (0 : ℝ) < d := by exact_mod_cast hd1
    rw [abs_mul]
    have a1 : ((M / d : Nat) : ℝ) ≤ (M : ℝ) / d := Nat.cast_div_le
    have a2 : (M : ℝ) / d ≤ ((M / d : Nat) : ℝ) + 1 := by
      rw [div_le_iff₀ hd0]
      have := Nat.lt_mul_div_succ M (by omega : 0 < d)
      have h' : (M : ℝ) < d * (((M / d : Nat) : ℝ) + 1) := by exact_mod_cast this
      linarith
    have a0 : (0 : ℝ) ≤ ((M / d : Nat) : ℝ) := Nat.cast_nonneg _
    generalize ((M / d : Nat) : ℝ) = f at a0 a1 a2
    generalize (M : ℝ) / d = x at a1 a2
    have b : |f ^ 2 - x ^ 2| ≤ 2 * x := by
      rw [abs_le]
      constructor <;> nlinarith
    calc |(μ d : ℝ)| * |f ^ 2 - x ^ 2| ≤ 1 * |f ^ 2 - x ^ 2| := mul_le_mul_of_nonneg_right (abs_moebius d) (abs_nonneg _)
      _ ≤ 2 * x := by linarith
  have h2 : |T * (M : ℝ) ^ 2| ≤ (M : ℝ) := by
    rw [abs_mul, abs_of_nonneg (by positivity : (0 : ℝ) ≤ (M : ℝ) ^ 2)]
    calc |T| * (M : ℝ) ^ 2 ≤ 1 / M * (M : ℝ) ^ 2 := mul_le_mul_of_nonneg_right hTb (by positivity)
      _ = M := by field_simp
  rw [e3]
  have := abs_sub (∑ d ∈ Icc 1 M, (μ d : ℝ) * (((M / d : Nat) : ℝ) ^ 2 - ((M : ℝ) / d) ^ 2)) (T * (M : ℝ) ^ 2)
  linarith

/-- Pairs of numbers up to `N < 2^32` with greatest common divisor `k`. -/
theorem gcd_error (N k : Nat) (hk : 1 ≤ k) (hN : 1 ≤ N) (hN2 : N < 2 ^ 32) :
    |((gcdPairs N k).card : ℝ) / (N : ℝ) ^ 2 - 6 / (Real.pi ^ 2 * (k : ℝ) ^ 2)| ≤ 49 / ((k : ℝ) * (N : ℝ)) := by
  have hk' : (0 : ℝ) < k := by exact_mod_cast hk
  have hN' : (0 : ℝ) < N := by exact_mod_cast hN
  have hpi : (3.14 : ℝ) < Real.pi := Real.pi_gt_d2
  have hG : 6 / Real.pi ^ 2 ≤ 0.61 := by
    rw [div_le_iff₀ (by positivity)]
    nlinarith
  have hG0 : 0 < 6 / Real.pi ^ 2 := by positivity
  set G := 6 / Real.pi ^ 2 with hGdef
  have e1 : 6 / (Real.pi ^ 2 * (k : ℝ) ^ 2) = G / (k : ℝ) ^ 2 := by rw [hGdef, div_div]
  rw [e1, gcdPairs_scale N k hk]
  have a1 : ((N / k : Nat) : ℝ) ≤ (N : ℝ) / k := Nat.cast_div_le
  have a2 : (N : ℝ) / k ≤ ((N / k : Nat) : ℝ) + 1 := by
    rw [div_le_iff₀ hk']
    have := Nat.lt_mul_div_succ N (by omega : 0 < k)
    have h' : (N : ℝ) < k * (((N / k : Nat) : ℝ) + 1) := by exact_mod_cast this
    linarith
  have key : |((gcdPairs (N / k) 1).card : ℝ) - G * ((N : ℝ) / k) ^ 2| ≤ 49 * ((N : ℝ) / k) := by
    have hx : (0 : ℝ) < (N : ℝ) / k := by positivity
    rcases Nat.eq_zero_or_pos (N / k) with h0 | h0
    · rw [h0] at a2 ⊢
      have : (gcdPairs 0 1).card = 0 := rfl
      rw [this]
      simp only [Nat.cast_zero, zero_add, zero_sub, abs_neg] at a2 ⊢
      rw [abs_of_nonneg (by positivity)]
      nlinarith
    · have h1 := coprime_error (N / k) h0
      have hM : ((N / k : Nat) : ℝ) ≤ (2 : ℝ) ^ 32 := by
        have : N / k ≤ 2 ^ 32 := (Nat.div_le_self N k).trans hN2.le
        exact_mod_cast this
      have hM0 : (1 : ℝ) ≤ ((N / k : Nat) : ℝ) := by exact_mod_cast h0
      have hH : ((harmonic (N / k) : ℚ) : ℝ) ≤ 23.2 := by
        refine (harmonic_le_one_add_log (N / k)).trans ?_
        have := Real.log_le_log (by linarith) hM
        rw [Real.log_pow] at this
        have h2 := Real.log_two_lt_d9
        push_cast at this
        linarith
      generalize ((N / k : Nat) : ℝ) = f at *
      generalize (N : ℝ) / k = x at *
      have b : |G * f ^ 2 - G * x ^ 2| ≤ 0.61 * (2 * x) := by
        rw [← mul_sub, abs_mul, abs_of_pos hG0]
        refine mul_le_mul hG ?_ (abs_nonneg _) (by norm_num)
        rw [abs_le]
        constructor <;> nlinarith
      have t := abs_sub_le ((gcdPairs (N / k) 1).card : ℝ) (G * f ^ 2) (G * x ^ 2)
      have u : (2 * ((harmonic (N / k) : ℚ) : ℝ) + 1) * f ≤ 47.4 * f := mul_le_mul_of_nonneg_right (by linarith) (by linarith)
      linarith
  have e2 : ((gcdPairs (N / k) 1).card : ℝ) / (N : ℝ) ^ 2 - G / (k : ℝ) ^ 2 =
      (((gcdPairs (N / k) 1).card : ℝ) - G * ((N : ℝ) / k) ^ 2) / (N : ℝ) ^ 2 := by
    field_simp
  rw [e2, abs_div, abs_of_nonneg (by positivity : (0 : ℝ) ≤ (N : ℝ) ^ 2), div_le_iff₀ (by positivity)]
  refine key.trans (le_of_eq ?_)
  field_simp

end Dh
