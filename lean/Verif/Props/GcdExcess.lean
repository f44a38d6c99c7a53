import Verif.Props.GcdMean
/-
C92: how far the mean of the statistic of the gcd test is from its degrees of freedom.
-/
namespace Dh
open Spec Finset

theorem gnorm_close : |6 / Real.pi ^ 2 - (gnorm : ℝ)| ≤ 1 / 10 ^ 19 ∧ (0.6079 : ℝ) < gnorm ∧ (gnorm : ℝ) < 0.608 ∧ (0.60792 : ℝ) ≤ 6 / Real.pi ^ 2 ∧ 6 / Real.pi ^ 2 ≤ 0.60793 := by
  have h1 := Real.pi_gt_d20
  have h2 := Real.pi_lt_d20
  have e : (gnorm : ℝ) = 6 / (3141592653589793238462643 / 1000000000000000000000000 * (3141592653589793238462643 / 1000000000000000000000000)) := by
    simp only [gnorm, gcdPi]
    push_cast
    rfl
  have a1 : 6 / (3.14159265358979323847 : ℝ) ^ 2 ≤ 6 / Real.pi ^ 2 := by
    apply div_le_div_of_nonneg_left (by norm_num) (by positivity)
    exact pow_le_pow_left₀ (by positivity) h2.le 2
  have a2 : 6 / Real.pi ^ 2 ≤ 6 / (3.14159265358979323846 : ℝ) ^ 2 := by
    apply div_le_div_of_nonneg_left (by norm_num) (by norm_num)
    exact pow_le_pow_left₀ (by norm_num) h1.le 2
  refine ⟨?_, ?_, ?_, ?_, ?_⟩
  · rw [abs_le, e]
    constructor
    · refine le_trans ?_ (sub_le_sub_right a1 _)
      norm_num
    · refine le_trans (sub_le_sub_right a2 _) ?_
      norm_num
  · rw [e]; norm_num
  · rw [e]; norm_num
  · refine le_trans ?_ a1
    norm_num
  · refine le_trans a2 ?_
    norm_num

/-- One inner cell. -/
theorem inner_cell (n c : Nat) (hc : 1 ≤ c) (hcg : c < 5112) {p : ℝ} (h0 : 0 ≤ p) (h1 : p ≤ 1) (hp : |p - 6 / (Real.pi ^ 2 * (c : ℝ) ^ 2)| ≤ 49 / ((c : ℝ) * (2 ^ 32 - 1))) :
    1 - p - 82 / (2 ^ 32 - 1) * c ≤ cellMean n p ((gnorm : ℝ) / (c : ℝ) ^ 2) ∧
    cellMean n p ((gnorm : ℝ) / (c : ℝ) ^ 2) ≤ 1 - p + 82 / (2 ^ 32 - 1) * c + n * (4000 / (2 ^ 32 - 1) ^ 2) := by
  obtain ⟨g1, g2, g3, -, -⟩ := gnorm_close
  have hc0 : (1 : ℝ) ≤ c := by exact_mod_cast hc
  have hc1 : (c : ℝ) < 5112 := by exact_mod_cast hcg
  have hcp : (0 : ℝ) < c := by linarith
  set q : ℝ := (gnorm : ℝ) / (c : ℝ) ^ 2 with hq
  have hq0 : 0 < q := by have : (0 : ℝ) < gnorm := by linarith
                         positivity
  have e1 : |p - q| ≤ 49.1 / ((c : ℝ) * (2 ^ 32 - 1)) := by
    have t : |6 / (Real.pi ^ 2 * (c : ℝ) ^ 2) - q| ≤ 0.1 / ((c : ℝ) * (2 ^ 32 - 1)) := by
      have : 6 / (Real.pi ^ 2 * (c : ℝ) ^ 2) - q = (6 / Real.pi ^ 2 - gnorm) / (c : ℝ) ^ 2 := by
        rw [hq]
        field_simp
      rw [this, abs_div, abs_of_pos (by positivity : (0 : ℝ) < (c : ℝ) ^ 2), div_le_div_iff₀ (by positivity) (by positivity)]
      calc |6 / Real.pi ^ 2 - (gnorm : ℝ)| * ((c : ℝ) * (2 ^ 32 - 1)) ≤ (1 : ℝ) / 10 ^ 19 * (c * (2 ^ 32 - 1)) := mul_le_mul_of_nonneg_right g1 (by positivity)
        _ ≤ 0.1 * (c : ℝ) ^ 2 := by nlinarith
    calc |p - q| = |(p - 6 / (Real.pi ^ 2 * (c : ℝ) ^ 2)) + (6 / (Real.pi ^ 2 * (c : ℝ) ^ 2) - q)| := by ring_nf
      _ ≤ _ := abs_add_le _ _
      _ ≤ 49 / ((c : ℝ) * (2 ^ 32 - 1)) + 0.1 / ((c : ℝ) * (2 ^ 32 - 1)) := add_le_add hp t
      _ = 49.1 / ((c : ℝ) * (2 ^ 32 - 1)) := by rw [← add_div]; norm_num
  have e2 : |p - q| / q ≤ 82 / (2 ^ 32 - 1) * c := by
    rw [div_le_iff₀ hq0]
    refine e1.trans ?_
    have : 82 / (2 ^ 32 - 1) * (c : ℝ) * q = 82 * gnorm / (c * (2 ^ 32 - 1)) := by
      rw [hq]
      field_simp
    rw [this, div_le_div_iff_of_pos_right (by positivity)]
    linarith
  have e3 : (p - q) ^ 2 / q ≤ 4000 / (2 ^ 32 - 1) ^ 2 := by
    have t : (p - q) ^ 2 ≤ (49.1 / ((c : ℝ) * (2 ^ 32 - 1))) ^ 2 := by
      rw [← sq_abs]
      exact pow_le_pow_left₀ (abs_nonneg _) e1 2
    rw [div_le_iff₀ hq0]
    refine t.trans ?_
    have : 4000 / (2 ^ 32 - 1) ^ 2 * q = 4000 * gnorm / (c * (2 ^ 32 - 1)) ^ 2 := by
      rw [hq]
      field_simp
    rw [this, div_pow, div_le_div_iff_of_pos_right (by positivity)]
    norm_num
    linarith
  have e4 : cellMean n p q = 1 - p + (p - q) / q * (1 - p) + n * ((p - q) ^ 2 / q) := by
    rw [cellMean]
    field_simp
    ring
  have e5 : |(p - q) / q * (1 - p)| ≤ 82 / (2 ^ 32 - 1) * c := by
    rw [abs_mul, abs_div, abs_of_pos hq0, abs_of_nonneg (by linarith : 0 ≤ 1 - p)]
    calc |p - q| / q * (1 - p) ≤ |p - q| / q * 1 := mul_le_mul_of_nonneg_left (by linarith) (by positivity)
      _ ≤ _ := by rw [mul_one]; exact e2
  have e6 := abs_le.1 e5
  have e7 : (n : ℝ) * ((p - q) ^ 2 / q) ≤ n * (4000 / (2 ^ 32 - 1) ^ 2) := mul_le_mul_of_nonneg_left e3 (Nat.cast_nonneg n)
  have e8 : 0 ≤ (n : ℝ) * ((p - q) ^ 2 / q) := by positivity
  rw [e4]
  constructor <;> linarith [e6.1, e6.2]

/-- The tail of the sum of inverse squares from 100000 on. -/
theorem tail_mass : (6 / Real.pi ^ 2) * ∑ j ∈ Ico (α := ℕ) 1 100000, 1 / (j : ℝ) ^ 2 + (6 / Real.pi ^ 2) / 99999 ≥ 1 ∧
    (6 / Real.pi ^ 2) * ∑ j ∈ Ico (α := ℕ) 1 100000, 1 / (j : ℝ) ^ 2 + (6 / Real.pi ^ 2) / 100000 ≤ 1 := by
  have hz := hasSum_zeta_two
  have hb : ∀ M : ℕ, 100000 ≤ M → ∑ j ∈ range M, 1 / (j : ℝ) ^ 2 = ∑ j ∈ Ico (α := ℕ) 1 100000, 1 / (j : ℝ) ^ 2 + ∑ j ∈ Ico (α := ℕ) 100000 M, 1 / (j : ℝ) ^ 2 := by
    intro M hM
    rw [Finset.sum_Ico_consecutive _ (by norm_num) hM, Finset.range_eq_Ico, Finset.sum_eq_sum_Ico_succ_bot (by omega)]
    simp
  have hlo : ∀ M : ℕ, 100000 ≤ M → (1 : ℝ) / 100000 - 1 / M ≤ ∑ j ∈ Ico (α := ℕ) 100000 M, 1 / (j : ℝ) ^ 2 := by
    intro M hM
    have := inv_sq_ge 100000 M (by norm_num) hM
    have h2 := (Rat.cast_le (K := ℝ)).2 this
    rw [Rat.cast_sum] at h2
    push_cast at h2
    exact h2
  have hhi : ∀ M : ℕ, 100000 ≤ M → ∑ j ∈ Ico (α := ℕ) 100000 M, 1 / (j : ℝ) ^ 2 ≤ (1 : ℝ) / 99999 := by
    intro M hM
    have := inv_sq_le 99999 (M - 1) (by norm_num) (by omega)
    rw [show 99999 + 1 = 100000 by norm_num, show M - 1 + 1 = M by omega] at this
    have h2 := (Rat.cast_le (K := ℝ)).2 this
    rw [Rat.cast_sum] at h2
    push_cast at h2
    have : (0 : ℝ) ≤ 1 / ((M - 1 : ℕ) : ℝ) := by positivity
    linarith
  have ht := hz.tendsto_sum_nat
  have hpi : Real.pi ^ 2 ≠ 0 := by positivity
  set A := ∑ j ∈ Ico (α := ℕ) 1 100000, 1 / (j : ℝ) ^ 2
  have up : Real.pi ^ 2 / 6 ≤ A + 1 / 99999 := by
    refine le_of_tendsto ht ?_
    filter_upwards [Filter.eventually_ge_atTop 100000] with M hM
    rw [hb M hM]
    linarith [hhi M hM]
  have lo : A + 1 / 100000 ≤ Real.pi ^ 2 / 6 := by
    have ht2 : Filter.Tendsto (fun M : ℕ => ∑ j ∈ range M, 1 / (j : ℝ) ^ 2 + 1 / (M : ℝ)) Filter.atTop (nhds (Real.pi ^ 2 / 6 + 0)) :=
      ht.add tendsto_one_div_atTop_nhds_zero_nat
    rw [add_zero] at ht2
    refine ge_of_tendsto ht2 ?_
    filter_upwards [Filter.eventually_ge_atTop 100000] with M hM
    rw [hb M hM]
    linarith [hlo M hM]
  have hG : 0 < 6 / Real.pi ^ 2 := by positivity
  have hone : 6 / Real.pi ^ 2 * (Real.pi ^ 2 / 6) = 1 := by field_simp
  constructor
  · have := mul_le_mul_of_nonneg_left up hG.le
    rw [hone] at this
    linarith
  · have := mul_le_mul_of_nonneg_left lo hG.le
    rw [hone] at this
    linarith

theorem gcdProb_range (g c : Nat) : 0 ≤ gcdProb g c ∧ gcdProb g c ≤ 1 := by
  rw [gcdProb, mean_indicator]
  refine ⟨by positivity, div_le_one_of_le₀ ?_ (by positivity)⟩
  exact_mod_cast Finset.card_le_univ _

theorem gcdProb_inner {g c : Nat} (hc : c < g - 1) : gcdProb g c = mean fun b : NzWord × NzWord => if pairGcd b = c then (1 : ℝ) else 0 := by
  refine mean_congr fun b => ?_
  have : min (pairGcd b) (g - 1) = c ↔ pairGcd b = c := by omega
  simp only [this]

theorem gcdProb_last {g : Nat} (h3 : 3 ≤ g) : gcdProb g (g - 1) = 1 - ∑ k ∈ Ico 1 (g - 1), gcdProb g k := by
  haveI : Nonempty (NzWord × NzWord) := ⟨(⟨0, by norm_num⟩, ⟨0, by norm_num⟩)⟩
  have h : ∑ k ∈ range g, gcdProb g k = 1 := by
    simp only [gcdProb]
    rw [← mean_sum]
    refine Eq.trans (mean_congr fun b => ?_) (mean_const (Ω := NzWord × NzWord) 1)
    rw [Finset.sum_ite_eq, if_pos (Finset.mem_range.2 (by omega))]
  have h0 : gcdProb g 0 = 0 := by
    refine Eq.trans (mean_congr fun b => ?_) (mean_const (Ω := NzWord × NzWord) 0)
    have : 0 < pairGcd b := Nat.gcd_pos_of_pos_left _ (by omega)
    rw [if_neg (by omega)]
  obtain ⟨k, rfl⟩ : ∃ k, g = k + 3 := ⟨g - 3, by omega⟩
  rw [show k + 3 - 1 = k + 2 by omega] at *
  rw [Finset.sum_range_succ, Finset.range_eq_Ico, Finset.sum_eq_sum_Ico_succ_bot (by omega), h0] at h
  linarith

/-- How much more probable the last cell is than the test takes it to be. -/
theorem last_cell {g : Nat} (h3 : 3 ≤ g) (hg : g < 5112) {E : ℝ} (hE : 49 * (1 + Real.log (g : ℝ)) + 1 ≤ E * (2 ^ 32 - 1)) :
    6 / Real.pi ^ 2 / 100000 - E ≤ gcdProb g (g - 1) - gcdHyp g (g - 1) ∧ gcdProb g (g - 1) - gcdHyp g (g - 1) ≤ 6 / Real.pi ^ 2 / 99999 + E := by
  obtain ⟨g1, g2, g3, g4, g5⟩ := gnorm_close
  obtain ⟨t1, t2⟩ := tail_mass
  set G := 6 / Real.pi ^ 2 with hGd
  have hsplit : ∑ j ∈ Ico (α := ℕ) 1 100000, 1 / (j : ℝ) ^ 2 = ∑ j ∈ Ico (α := ℕ) 1 (g - 1), 1 / (j : ℝ) ^ 2 + ∑ j ∈ Ico (α := ℕ) (g - 1) 100000, 1 / (j : ℝ) ^ 2 := by
    rw [Finset.sum_Ico_consecutive _ (by omega) (by omega)]
  set A := ∑ j ∈ Ico (α := ℕ) 1 (g - 1), 1 / (j : ℝ) ^ 2 with hA
  set B := ∑ j ∈ Ico (α := ℕ) (g - 1) 100000, 1 / (j : ℝ) ^ 2 with hB
  rw [hsplit] at t1 t2
  have hQ : ((gcdHyp g (g - 1) : ℚ) : ℝ) = gnorm * B := by
    rw [gcdHyp, if_pos rfl, Rat.cast_sum, hB, Finset.mul_sum]
    refine Finset.sum_congr rfl fun j _ => ?_
    push_cast
    ring
  have hB0 : 0 ≤ B := Finset.sum_nonneg fun j _ => by positivity
  have hB1 : B ≤ 1 := by
    have h2 := inv_sq_le (g - 2) 99999 (by omega) (by omega)
    rw [show g - 2 + 1 = g - 1 by omega, show 99999 + 1 = 100000 by norm_num] at h2
    have h5 := (Rat.cast_le (K := ℝ)).2 h2
    rw [Rat.cast_sum] at h5
    push_cast at h5
    have h6 : (1 : ℝ) / ((g - 2 : ℕ) : ℝ) ≤ 1 := by
      rw [div_le_one (by exact_mod_cast (by omega : 0 < g - 2))]
      exact_mod_cast (by omega : 1 ≤ g - 2)
    have : B ≤ 1 / ((g - 2 : ℕ) : ℝ) - 1 / 99999 := h5
    linarith
  have hP : |∑ k ∈ Ico 1 (g - 1), gcdProb g k - G * A| ≤ 49 / (2 ^ 32 - 1) * (1 + Real.log (g : ℝ)) := by
    rw [hA, Finset.mul_sum, ← Finset.sum_sub_distrib]
    refine (Finset.abs_sum_le_sum_abs _ _).trans ?_
    have : ∀ k ∈ Ico 1 (g - 1), |gcdProb g k - G * (1 / (k : ℝ) ^ 2)| ≤ 49 / (2 ^ 32 - 1) * (k : ℝ)⁻¹ := by
      intro k hk
      obtain ⟨h1, h2⟩ := Finset.mem_Ico.1 hk
      have h := C92_law k h1
      rw [← gcdProb_inner h2] at h
      have e1 : G * (1 / (k : ℝ) ^ 2) = 6 / (Real.pi ^ 2 * (k : ℝ) ^ 2) := by rw [hGd]; field_simp
      have e2 : 49 / (2 ^ 32 - 1) * (k : ℝ)⁻¹ = 49 / ((k : ℝ) * (2 ^ 32 - 1)) := by
        have : (k : ℝ) ≠ 0 := by exact_mod_cast (by omega : k ≠ 0)
        field_simp
      rw [e1, e2]
      exact h
    refine (Finset.sum_le_sum this).trans ?_
    rw [← Finset.mul_sum]
    refine mul_le_mul_of_nonneg_left ?_ (by norm_num)
    have hh := harmonic_le_one_add_log (g - 2)
    have e : ((harmonic (g - 2) : ℚ) : ℝ) = ∑ k ∈ Ico 1 (g - 1), ((k : ℝ))⁻¹ := by
      rw [harmonic_eq_sum_Icc, Rat.cast_sum]
      have : Icc 1 (g - 2) = Ico 1 (g - 1) := by ext k; simp only [mem_Icc, mem_Ico]; omega
      rw [this]
      exact Finset.sum_congr rfl fun k _ => by push_cast; rfl
    rw [e] at hh
    refine hh.trans ?_
    have : Real.log ((g - 2 : ℕ) : ℝ) ≤ Real.log (g : ℝ) := Real.log_le_log (by exact_mod_cast (by omega : 0 < g - 2)) (by exact_mod_cast (by omega : g - 2 ≤ g))
    linarith
  rw [hQ, gcdProb_last h3]
  set S := ∑ k ∈ Ico 1 (g - 1), gcdProb g k
  obtain ⟨p1, p2⟩ := abs_le.1 hP
  obtain ⟨q1, q2⟩ := abs_le.1 g1
  have hE' : 49 / (2 ^ 32 - 1) * (1 + Real.log (g : ℝ)) + 1 / (2 ^ 32 - 1) ≤ E := by
    have e : 49 / (2 ^ 32 - 1) * (1 + Real.log (g : ℝ)) + 1 / (2 ^ 32 - 1) = (49 * (1 + Real.log (g : ℝ)) + 1) / (2 ^ 32 - 1) := by ring
    rw [e, div_le_iff₀ (by norm_num)]
    exact hE
  have r : |(G - gnorm) * B| ≤ 1 / 10 ^ 19 := by
    rw [abs_mul, abs_of_nonneg hB0]
    calc |G - (gnorm : ℝ)| * B ≤ 1 / 10 ^ 19 * 1 := mul_le_mul g1 hB1 hB0 (by norm_num)
      _ = _ := by norm_num
  obtain ⟨r1, r2⟩ := abs_le.1 r
  have small : (1 : ℝ) / 10 ^ 19 ≤ 1 / (2 ^ 32 - 1) := by norm_num
  constructor <;> nlinarith

/-- **C92.** The mean of the statistic between two bounds. -/
theorem gcd_mean_bounds {n g : Nat} (h3 : 3 ≤ g) (hg : g < 5112) (hQ : 0 < (gcdHyp g (g - 1) : ℝ)) (hd : 0 ≤ gcdProb g (g - 1) - gcdHyp g (g - 1)) :
    (g : ℝ) - 3 + gcdProb g 1 + n * (gcdProb g (g - 1) - gcdHyp g (g - 1)) ^ 2 / gcdHyp g (g - 1) - 41 / (2 ^ 32 - 1) * (g : ℝ) ^ 2 ≤
      ∑ c ∈ Ico 2 g, cellMean n (gcdProb g c) (gcdHyp g c) ∧
    ∑ c ∈ Ico 2 g, cellMean n (gcdProb g c) (gcdHyp g c) ≤
      (g : ℝ) - 3 + gcdProb g 1 + (gcdProb g (g - 1) - gcdHyp g (g - 1)) / gcdHyp g (g - 1) +
        n * (gcdProb g (g - 1) - gcdHyp g (g - 1)) ^ 2 / gcdHyp g (g - 1) + 41 / (2 ^ 32 - 1) * (g : ℝ) ^ 2 + n * g * (4000 / (2 ^ 32 - 1) ^ 2) := by
  obtain ⟨k, rfl⟩ : ∃ k, g = k + 3 := ⟨g - 3, by omega⟩
  rw [show k + 3 - 1 = k + 2 by omega] at *
  rw [Finset.sum_Ico_succ_top (by omega : 2 ≤ k + 2)]
  have hP := gcdProb_last h3
  rw [show k + 3 - 1 = k + 2 by omega, Finset.sum_eq_sum_Ico_succ_bot (by omega)] at hP
  have hPr := gcdProb_range (k + 3) (k + 2)
  set P := gcdProb (k + 3) (k + 2)
  set Q : ℝ := (gcdHyp (k + 3) (k + 2) : ℝ)
  have hcell : ∀ c ∈ Ico 2 (k + 2), 1 - gcdProb (k + 3) c - 82 / (2 ^ 32 - 1) * c ≤ cellMean n (gcdProb (k + 3) c) (gcdHyp (k + 3) c) ∧
      cellMean n (gcdProb (k + 3) c) (gcdHyp (k + 3) c) ≤ 1 - gcdProb (k + 3) c + 82 / (2 ^ 32 - 1) * c + n * (4000 / (2 ^ 32 - 1) ^ 2) := by
    intro c hc
    obtain ⟨h1, h2⟩ := mem_Ico.1 hc
    have hr := gcdProb_range (k + 3) c
    have hl := C92_law c (by omega)
    rw [← gcdProb_inner (g := k + 3) (by omega)] at hl
    have := inner_cell n c (by omega) (by omega) hr.1 hr.2 hl
    rw [gcdHyp, if_neg (by omega)]
    push_cast
    exact this
  have hsum : ∑ c ∈ Ico 2 (k + 2), ((c : ℕ) : ℝ) ≤ ((k + 3 : ℕ) : ℝ) ^ 2 / 2 := by
    have : ∀ m : ℕ, ∑ c ∈ Ico 2 (m + 2), ((c : ℕ) : ℝ) ≤ ((m + 3 : ℕ) : ℝ) ^ 2 / 2 := by
      intro m
      induction m with
      | zero => norm_num
      | succ m ih =>
        rw [Finset.sum_Ico_succ_top (by omega)]
        push_cast at ih ⊢
        nlinarith
    exact this k
  have hlast : cellMean n P Q = 1 - P + (P - Q) / Q * (1 - P) + n * (P - Q) ^ 2 / Q := by
    rw [cellMean]
    field_simp
    ring
  have hl1 : 0 ≤ (P - Q) / Q * (1 - P) := mul_nonneg (div_nonneg hd hQ.le) (by linarith [hPr.2])
  have hl2 : (P - Q) / Q * (1 - P) ≤ (P - Q) / Q := by
    have : 0 ≤ (P - Q) / Q := div_nonneg hd hQ.le
    nlinarith [hPr.1]
  have lo := Finset.sum_le_sum fun c hc => (hcell c hc).1
  have hi := Finset.sum_le_sum fun c hc => (hcell c hc).2
  rw [Finset.sum_sub_distrib, Finset.sum_sub_distrib, ← Finset.mul_sum] at lo
  rw [Finset.sum_add_distrib, Finset.sum_add_distrib, Finset.sum_sub_distrib, ← Finset.mul_sum] at hi
  simp only [Finset.sum_const, Nat.card_Ico, nsmul_eq_mul, mul_one] at lo hi
  rw [show k + 2 - 2 = k by omega] at lo hi
  set S := ∑ c ∈ Ico 2 (k + 2), gcdProb (k + 3) c
  rw [hlast]
  have h82 : 82 / (2 ^ 32 - 1) * ∑ c ∈ Ico 2 (k + 2), ((c : ℕ) : ℝ) ≤ 41 / (2 ^ 32 - 1) * ((k + 3 : ℕ) : ℝ) ^ 2 := by
    have := mul_le_mul_of_nonneg_left hsum (by norm_num : (0 : ℝ) ≤ 82 / (2 ^ 32 - 1))
    linarith
  have hng : (k : ℝ) * (n * (4000 / (2 ^ 32 - 1) ^ 2)) ≤ n * ((k + 3 : ℕ) : ℝ) * (4000 / (2 ^ 32 - 1) ^ 2) := by
    have : (0 : ℝ) ≤ n * (4000 / (2 ^ 32 - 1) ^ 2) := mul_nonneg (Nat.cast_nonneg n) (by norm_num)
    push_cast
    nlinarith
  push_cast at *
  constructor <;> linarith

theorem frac_bounds {m d Q dl du ql qu : ℝ} (hm : 0 ≤ m) (h0 : 0 ≤ dl) (h1 : dl ≤ d) (h2 : d ≤ du) (h3 : 0 < ql) (h4 : ql ≤ Q) (h5 : Q ≤ qu) :
    m * dl ^ 2 / qu ≤ m * d ^ 2 / Q ∧ m * d ^ 2 / Q ≤ m * du ^ 2 / ql :=
  ⟨div_le_div₀ (mul_nonneg hm (sq_nonneg d)) (mul_le_mul_of_nonneg_left (pow_le_pow_left₀ h0 h1 2) hm) (h3.trans_le h4) h5,
    div_le_div₀ (mul_nonneg hm (sq_nonneg du)) (mul_le_mul_of_nonneg_left (pow_le_pow_left₀ (h0.trans h1) h2 2) hm) h3 h4⟩

theorem gcdProb_one {g : Nat} (h3 : 3 ≤ g) : |gcdProb g 1 - 6 / Real.pi ^ 2| ≤ 49 / (2 ^ 32 - 1) := by
  have hl := C92_law 1 le_rfl
  rw [← gcdProb_inner (g := g) (by omega)] at hl
  simpa using hl

theorem hyp_last_real {g : Nat} (h3 : 3 ≤ g) (hg : g < 5112) :
    (gnorm : ℝ) * (1 / ((g : ℝ) - 1) - 1 / 100000) ≤ gcdHyp g (g - 1) ∧ (gcdHyp g (g - 1) : ℝ) ≤ gnorm * (1 / ((g : ℝ) - 2) - 1 / 99999) := by
  obtain ⟨h1, h2⟩ := gcdHyp_last h3 (by omega)
  have h3 := (Rat.cast_le (K := ℝ)).2 h1
  have h4 := (Rat.cast_le (K := ℝ)).2 h2
  push_cast at h3 h4
  exact ⟨h3, h4⟩

/-- The table of the default number of samples. -/
theorem gcdSize_default : gcdSize 10000000 = 246 := by
  obtain ⟨h1, h2⟩ := gcdSize_spec 10000000
  have g1 : gnorm < 0.60793 := by norm_num [gnorm, gcdPi]
  have g2 : 0.60792 < gnorm := by norm_num [gnorm, gcdPi]
  have a : gcdSize 10000000 ≤ 246 := by
    by_contra h
    have : (247 : ℚ) ≤ gcdSize 10000000 := by exact_mod_cast (by omega : 247 ≤ gcdSize 10000000)
    push_cast at h1
    nlinarith
  have b : 246 ≤ gcdSize 10000000 := by
    by_contra h
    have : (gcdSize 10000000 : ℚ) ≤ 245 := by exact_mod_cast (by omega : gcdSize 10000000 ≤ 245)
    have h0 : (0 : ℚ) ≤ gcdSize 10000000 := Nat.cast_nonneg _
    push_cast at h2
    nlinarith
  omega

/-- **C92.** With the default number of samples the statistic has 243 degrees of freedom, and its mean over random pairs is more
than that: between 243.75 and 243.77. -/
theorem C92_default (fuel : Nat) : ∃ v : (Fin 10000000 → NzWord × NzWord) → Vtest,
    (∀ ω, gcdRun (fuel + 1) (pairSrc ω) 10000000 = .ok (v ω) ∧ (v ω).ndof = 243) ∧
      243.75 ≤ (mean fun ω => ((v ω).chisq : ℝ)) ∧ (mean fun ω => ((v ω).chisq : ℝ)) ≤ 243.77 := by
  obtain ⟨v, h1, h2⟩ := C92_mean fuel 10000000 (by norm_num) (by rw [gcdSize_default]; norm_num)
  rw [gcdSize_default] at h1 h2
  refine ⟨v, h1, ?_⟩
  rw [h2]
  obtain ⟨-, g2, g3, g4, g5⟩ := gnorm_close
  have hlog : Real.log ((246 : ℕ) : ℝ) ≤ 5.546 := by
    have : Real.log ((246 : ℕ) : ℝ) ≤ Real.log (2 ^ 8) := Real.log_le_log (by norm_num) (by norm_num)
    rw [Real.log_pow] at this
    have h := Real.log_two_lt_d9
    push_cast at this ⊢
    linarith
  obtain ⟨d1, d2⟩ := last_cell (g := 246) (E := 0.000000075) (by norm_num) (by norm_num) (by
    have : 49 * (1 + Real.log ((246 : ℕ) : ℝ)) + 1 ≤ 49 * (1 + 5.546) + 1 := by linarith
    refine this.trans ?_
    norm_num)
  obtain ⟨q1, q2⟩ := hyp_last_real (g := 246) (by norm_num) (by norm_num)
  obtain ⟨p1, p2⟩ := abs_le.1 (gcdProb_one (g := 246) (by norm_num))
  have hQ : 0 < (gcdHyp 246 (246 - 1) : ℝ) := by
    refine lt_of_lt_of_le ?_ q1
    have : (0 : ℝ) < 1 / (((246 : ℕ) : ℝ) - 1) - 1 / 100000 := by norm_num
    have : (0 : ℝ) < gnorm := by linarith
    positivity
  have hd : 0 ≤ gcdProb 246 (246 - 1) - gcdHyp 246 (246 - 1) := by
    refine le_trans ?_ d1
    linarith
  obtain ⟨b1, b2⟩ := gcd_mean_bounds (n := 10000000) (by norm_num : 3 ≤ 246) (by norm_num) hQ hd
  set d := gcdProb 246 (246 - 1) - gcdHyp 246 (246 - 1)
  set Q : ℝ := (gcdHyp 246 (246 - 1) : ℝ)
  have dl : 0.000006004 ≤ d := by
    refine le_trans ?_ d1
    linarith
  have du : d ≤ 0.000006155 := by
    refine d2.trans ?_
    linarith
  have ql : 0.002475 ≤ Q := by
    refine le_trans ?_ q1
    norm_num
    linarith
  have qu : Q ≤ 0.002487 := by
    refine q2.trans ?_
    norm_num
    linarith
  obtain ⟨t1, t2⟩ := frac_bounds (Nat.cast_nonneg 10000000 : (0 : ℝ) ≤ ((10000000 : ℕ) : ℝ)) (by norm_num) dl du (by norm_num) ql qu
  have t3 : d / Q ≤ 0.000006155 / 0.002475 := div_le_div₀ (by norm_num) du (by norm_num) ql
  norm_num at t1 t2 t3 b1 b2 p1 p2 ⊢
  constructor <;> linarith

/-- **C92.** For every number of samples the mean of the statistic is too great, by an amount that grows faster than the number of samples. -/
theorem C92_excess (fuel n : Nat) (hn : n < 2 ^ 32) (h3 : 3 ≤ gcdSize n) : ∃ v : (Fin n → NzWord × NzWord) → Vtest,
    (∀ ω, gcdRun (fuel + 1) (pairSrc ω) n = .ok (v ω) ∧ (v ω).ndof = gcdSize n - 3) ∧
      ((gcdSize n - 3 : ℕ) : ℝ) + 0.6 + 5 / 10 ^ 11 * n * ((gcdSize n : ℝ) - 2) ≤ mean fun ω => ((v ω).chisq : ℝ) := by
  obtain ⟨v, h1, h2⟩ := C92_mean fuel n hn h3
  refine ⟨v, h1, ?_⟩
  rw [h2]
  have hs := (Rat.cast_le (K := ℝ)).2 (gcdSize_spec n).1
  push_cast at hs
  have hl := gcdSize_lt hn
  clear h1 h2 hn
  generalize gcdSize n = g at *
  obtain ⟨-, g2, g3, g4, g5⟩ := gnorm_close
  have hlog : Real.log (g : ℝ) ≤ 9.012 := by
    have : Real.log (g : ℝ) ≤ Real.log (2 ^ 13) := Real.log_le_log (by exact_mod_cast (by omega : 0 < g)) (by
      have : (g : ℝ) < 5112 := by exact_mod_cast hl
      norm_num
      linarith)
    rw [Real.log_pow] at this
    have h := Real.log_two_lt_d9
    push_cast at this
    linarith
  obtain ⟨d1, d2⟩ := last_cell (g := g) (E := 0.0000001145) h3 hl (by
    have : 49 * (1 + Real.log (g : ℝ)) + 1 ≤ 49 * (1 + 9.012) + 1 := by linarith
    refine this.trans ?_
    norm_num)
  obtain ⟨q1, q2⟩ := hyp_last_real h3 hl
  obtain ⟨p1, p2⟩ := abs_le.1 (gcdProb_one h3)
  have hg3 : (3 : ℝ) ≤ g := by exact_mod_cast h3
  have hgl : (g : ℝ) < 5112 := by exact_mod_cast hl
  have hQ : 0 < (gcdHyp g (g - 1) : ℝ) := by
    refine lt_of_lt_of_le ?_ q1
    have h5 : (0 : ℝ) < 1 / ((g : ℝ) - 1) - 1 / 100000 := by
      rw [sub_pos]
      exact one_div_lt_one_div_of_lt (by linarith) (by linarith)
    have : (0 : ℝ) < gnorm := by linarith
    exact mul_pos this h5
  have hd : 0 ≤ gcdProb g (g - 1) - gcdHyp g (g - 1) := by
    refine le_trans ?_ d1
    linarith
  obtain ⟨b1, -⟩ := gcd_mean_bounds (n := n) h3 hl hQ hd
  set d := gcdProb g (g - 1) - gcdHyp g (g - 1)
  set Q : ℝ := (gcdHyp g (g - 1) : ℝ)
  have dl : 0.0000059646 ≤ d := by
    refine le_trans ?_ d1
    linarith
  have qu : Q ≤ 0.608 / ((g : ℝ) - 2) := by
    refine q2.trans ?_
    have : (0 : ℝ) < 1 / ((g : ℝ) - 2) := one_div_pos.2 (by linarith)
    have e : 0.608 / ((g : ℝ) - 2) = 0.608 * (1 / ((g : ℝ) - 2)) := by ring
    rw [e]
    nlinarith
  have t1 : (5.85 : ℝ) / 10 ^ 11 * n * ((g : ℝ) - 2) ≤ (n : ℝ) * d ^ 2 / Q := by
    have a1 : (0.0000059646 : ℝ) ^ 2 ≤ d ^ 2 := pow_le_pow_left₀ (by norm_num) dl 2
    have a2 : (n : ℝ) * 0.0000059646 ^ 2 / (0.608 / ((g : ℝ) - 2)) ≤ (n : ℝ) * d ^ 2 / Q :=
      div_le_div₀ (mul_nonneg (Nat.cast_nonneg n) (sq_nonneg d)) (mul_le_mul_of_nonneg_left a1 (Nat.cast_nonneg n)) hQ qu
    refine le_trans ?_ a2
    have hg2 : (0 : ℝ) < (g : ℝ) - 2 := by linarith
    rw [div_div_eq_mul_div, le_div_iff₀ (by norm_num)]
    have : (0 : ℝ) ≤ n * ((g : ℝ) - 2) := mul_nonneg (Nat.cast_nonneg n) hg2.le
    nlinarith
  have hn164 : 164 * (g : ℝ) ^ 2 ≤ n := by nlinarith
  have slack : 41 / (2 ^ 32 - 1) * (g : ℝ) ^ 2 ≤ 0.85 / 10 ^ 11 * n * ((g : ℝ) - 2) + 0.007 := by
    rcases le_or_gt (g : ℝ) 10 with h | h
    · have : (0 : ℝ) ≤ 0.85 / 10 ^ 11 * n * ((g : ℝ) - 2) := by
        have : (0 : ℝ) ≤ (g : ℝ) - 2 := by linarith
        exact mul_nonneg (mul_nonneg (by norm_num) (Nat.cast_nonneg n)) this
      have : 41 / (2 ^ 32 - 1) * (g : ℝ) ^ 2 ≤ 41 / (2 ^ 32 - 1) * 10 ^ 2 := mul_le_mul_of_nonneg_left (pow_le_pow_left₀ (by linarith) h 2) (by norm_num)
      norm_num at this ⊢
      linarith
    · have a1 : (n : ℝ) * 8 ≤ n * ((g : ℝ) - 2) := mul_le_mul_of_nonneg_left (by linarith) (Nat.cast_nonneg n)
      norm_num at *
      nlinarith
  have hcast : ((g - 3 : ℕ) : ℝ) = (g : ℝ) - 3 := by push_cast [Nat.cast_sub h3]; ring
  rw [hcast]
  norm_num at *
  linarith

/-- Two terms of the tail. -/
example : gcdTail 100 2 5 7 = 7 + 100 * gnorm / 25 + 100 * gnorm / 36 := by norm_num [gcdTail]

/-- A table of size 4 gives the value 2 a quarter of `gnorm` and the value 3 all the rest. -/
example : gcdHyp 4 2 = gnorm / 4 := by norm_num [gcdHyp]

example : pairGcd (⟨11, by norm_num⟩, ⟨17, by norm_num⟩) = 6 := by decide +kernel

/-- With four thousand million samples the table has 4931 cells, and the mean of the statistic is at least 986 above its degrees of freedom. -/
example : ∃ v : (Fin 4000000000 → NzWord × NzWord) → Vtest,
    (∀ ω, gcdRun 1 (pairSrc ω) 4000000000 = .ok (v ω) ∧ (v ω).ndof = 4928) ∧ 4928 + 986 ≤ mean fun ω => ((v ω).chisq : ℝ) := by
  have hs : gcdSize 4000000000 = 4931 := by
    obtain ⟨h1, h2⟩ := gcdSize_spec 4000000000
    have g1 : gnorm < 0.607928 := by norm_num [gnorm, gcdPi]
    have g2 : 0.607927 < gnorm := by norm_num [gnorm, gcdPi]
    have a : gcdSize 4000000000 ≤ 4931 := by
      by_contra h
      have : (4932 : ℚ) ≤ gcdSize 4000000000 := by exact_mod_cast (by omega : 4932 ≤ gcdSize 4000000000)
      push_cast at h1
      nlinarith
    have b : 4931 ≤ gcdSize 4000000000 := by
      by_contra h
      have : (gcdSize 4000000000 : ℚ) ≤ 4930 := by exact_mod_cast (by omega : gcdSize 4000000000 ≤ 4930)
      have h0 : (0 : ℚ) ≤ gcdSize 4000000000 := Nat.cast_nonneg _
      push_cast at h2
      nlinarith
    omega
  obtain ⟨v, h1, h2⟩ := C92_excess 0 4000000000 (by norm_num) (by rw [hs]; norm_num)
  rw [hs] at h1 h2
  refine ⟨v, h1, le_trans ?_ h2⟩
  norm_num

end Dh
