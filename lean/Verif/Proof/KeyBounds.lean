import Verif.Proof.KeyLaw
/-
The numbers of sequences of keys lie between the probabilities for random order times falling and rising factorials.
-/
namespace Dh
open Spec Finset

theorem choose_conv_desc : ∀ (M i j : Nat), ∑ p ∈ antidiagonal M, p.1.choose i * p.2.choose j = (M + 1).choose (i + j + 1)
  | 0, i, j => by
    rcases i with _ | i <;> rcases j with _ | j <;> simp [Nat.choose]
  | M + 1, i, 0 => by
    rw [Nat.sum_antidiagonal_succ']
    have := choose_conv_desc M i 0
    simp only [Nat.choose_zero_right, mul_one, Nat.add_zero] at this ⊢
    rw [this, Nat.choose_succ_succ (M + 1) i]
  | M + 1, i, j + 1 => by
    rw [Nat.sum_antidiagonal_succ']
    have h1 := choose_conv_desc M i j
    have h2 := choose_conv_desc M i (j + 1)
    simp only [Nat.choose_succ_succ _ j, Nat.mul_add, sum_add_distrib, Nat.choose_zero_succ, Nat.mul_zero, Nat.zero_add]
    have e : i + (j + 1) + 1 = (i + j + 1) + 1 := by omega
    rw [h1]
    have h3 : ∑ p ∈ antidiagonal M, p.1.choose i * p.2.choose j.succ = (M + 1).choose (i + (j + 1) + 1) := h2
    rw [h3, e, Nat.choose_succ_succ (M + 1) (i + j + 1)]

theorem choose_conv_asc (M i j : Nat) :
    ∑ p ∈ antidiagonal M, (p.1 + i).choose i * (p.2 + j).choose j = (M + (i + j + 1)).choose (i + j + 1) := by
  have h1 := PowerSeries.mk_one_pow_eq_mk_choose_add ℤ i
  have h2 := PowerSeries.mk_one_pow_eq_mk_choose_add ℤ j
  have h3 := PowerSeries.mk_one_pow_eq_mk_choose_add ℤ (i + j + 1)
  have e : (PowerSeries.mk 1 : PowerSeries ℤ) ^ (i + 1) * (PowerSeries.mk 1) ^ (j + 1) = (PowerSeries.mk 1) ^ (i + j + 1 + 1) := by
    rw [← pow_add]; congr 1; omega
  rw [h1, h2, h3] at e
  have := congrArg (PowerSeries.coeff M) e
  rw [PowerSeries.coeff_mul, PowerSeries.coeff_mk] at this
  simp only [PowerSeries.coeff_mk] at this
  have h4 : ∑ p ∈ antidiagonal M, (i + p.1).choose i * (j + p.2).choose j = (i + j + 1 + M).choose (i + j + 1) := by exact_mod_cast this
  rw [Nat.add_comm M, ← h4]
  refine sum_congr rfl fun p _ => ?_
  rw [Nat.add_comm p.1, Nat.add_comm p.2]

theorem conv_desc (M i j : Nat) : (i.factorial * j.factorial : ℝ) / (i + j + 1).factorial * (M + 1).descFactorial (i + j + 1) ≤
    ∑ p ∈ range (M + 1), ((p + 1).descFactorial i : ℝ) * (M - p).descFactorial j := by
  have h1 : ∑ p ∈ range (M + 1), (p.choose i : ℝ) * (M - p).choose j = (M + 1).choose (i + j + 1) := by
    rw [← Nat.sum_antidiagonal_eq_sum_range_succ fun a b => (a.choose i : ℝ) * b.choose j]
    exact_mod_cast choose_conv_desc M i j
  rw [Nat.descFactorial_eq_factorial_mul_choose]
  push_cast
  have h0 : ((i + j + 1).factorial : ℝ) ≠ 0 := by positivity
  have e : (i.factorial * j.factorial : ℝ) / (i + j + 1).factorial * ((i + j + 1).factorial * (M + 1).choose (i + j + 1)) =
      i.factorial * j.factorial * (M + 1).choose (i + j + 1) := by field_simp
  rw [e, ← h1, mul_sum]
  refine sum_le_sum fun p _ => ?_
  rw [Nat.descFactorial_eq_factorial_mul_choose, Nat.descFactorial_eq_factorial_mul_choose]
  push_cast
  have : (p.choose i : ℝ) ≤ (p + 1).choose i := by exact_mod_cast Nat.choose_le_choose i (Nat.le_succ p)
  have hi : (0 : ℝ) ≤ i.factorial := by positivity
  have hj : (0 : ℝ) ≤ j.factorial := by positivity
  have hc : (0 : ℝ) ≤ (M - p).choose j := by positivity
  nlinarith [mul_le_mul_of_nonneg_left this (mul_nonneg (mul_nonneg hi hj) hc)]

theorem conv_asc (M i j : Nat) : ∑ p ∈ range (M + 1), ((p + 1).ascFactorial i : ℝ) * (M - p).ascFactorial j ≤
    (i.factorial * j.factorial : ℝ) / (i + j + 1).factorial * (M + 1).ascFactorial (i + j + 1) := by
  have h1 : ∑ p ∈ range (M + 1), ((p + i).choose i : ℝ) * (M - p + j).choose j = (M + (i + j + 1)).choose (i + j + 1) := by
    rw [← Nat.sum_antidiagonal_eq_sum_range_succ fun a b => ((a + i).choose i : ℝ) * (b + j).choose j]
    exact_mod_cast choose_conv_asc M i j
  rw [Nat.ascFactorial_eq_factorial_mul_choose]
  push_cast
  have h0 : ((i + j + 1).factorial : ℝ) ≠ 0 := by positivity
  have e : (i.factorial * j.factorial : ℝ) / (i + j + 1).factorial * ((i + j + 1).factorial * (M + (i + j + 1)).choose (i + j + 1)) =
      i.factorial * j.factorial * (M + (i + j + 1)).choose (i + j + 1) := by field_simp
  rw [e, ← h1, mul_sum]
  refine sum_le_sum fun p _ => ?_
  have h2 : ((M - p).ascFactorial j : ℝ) ≤ (M - p + 1).ascFactorial j := by exact_mod_cast Nat.ascFactorial_le j (Nat.le_succ _)
  have h3 : ((M - p + 1).ascFactorial j : ℝ) = j.factorial * (M - p + j).choose j := by
    rw [Nat.ascFactorial_eq_factorial_mul_choose]; push_cast; ring
  have h4 : ((p + 1).ascFactorial i : ℝ) = i.factorial * (p + i).choose i := by
    rw [Nat.ascFactorial_eq_factorial_mul_choose]; push_cast; ring
  calc ((p + 1).ascFactorial i : ℝ) * (M - p).ascFactorial j ≤ (p + 1).ascFactorial i * (M - p + 1).ascFactorial j :=
        mul_le_mul_of_nonneg_left h2 (by positivity)
    _ = _ := by rw [h3, h4]; ring

/-! ### Convolutions -/

theorem conv_low {U V : Nat → ℝ} {M i j : Nat} {u v : ℝ} (hu : 0 ≤ u) (hv : 0 ≤ v) (hU : ∀ p ≤ M, ((p + 1).descFactorial i : ℝ) * u ≤ U p)
    (hV : ∀ p ≤ M, ((M - p).descFactorial j : ℝ) * v ≤ V p) :
    (i.factorial * j.factorial : ℝ) / (i + j + 1).factorial * (M + 1).descFactorial (i + j + 1) * (u * v) ≤ ∑ p ∈ range (M + 1), U p * V p := by
  refine le_trans (mul_le_mul_of_nonneg_right (conv_desc M i j) (mul_nonneg hu hv)) ?_
  rw [sum_mul]
  refine sum_le_sum fun p hp => ?_
  have hp' : p ≤ M := by have := mem_range.1 hp; omega
  have h1 := hU p hp'
  have h2 := hV p hp'
  have h3 : (0 : ℝ) ≤ (p + 1).descFactorial i * u := by positivity
  have h4 : (0 : ℝ) ≤ (M - p).descFactorial j * v := by positivity
  calc _ = ((p + 1).descFactorial i * u) * ((M - p).descFactorial j * v) := by ring
    _ ≤ _ := mul_le_mul h1 h2 h4 (h3.trans h1)

theorem conv_high {U V : Nat → ℝ} {M i j : Nat} {u v : ℝ} (hu : 0 ≤ u) (hv : 0 ≤ v) (hU : ∀ p ≤ M, 0 ≤ U p ∧ U p ≤ ((p + 1).ascFactorial i : ℝ) * u)
    (hV : ∀ p ≤ M, 0 ≤ V p ∧ V p ≤ ((M - p).ascFactorial j : ℝ) * v) :
    ∑ p ∈ range (M + 1), U p * V p ≤ (i.factorial * j.factorial : ℝ) / (i + j + 1).factorial * (M + 1).ascFactorial (i + j + 1) * (u * v) := by
  refine le_trans ?_ (mul_le_mul_of_nonneg_right (conv_asc M i j) (mul_nonneg hu hv))
  rw [sum_mul]
  refine sum_le_sum fun p hp => ?_
  have hp' : p ≤ M := by have := mem_range.1 hp; omega
  have h1 := hU p hp'
  have h2 := hV p hp'
  calc _ ≤ ((p + 1).ascFactorial i * u) * ((M - p).ascFactorial j * v) := mul_le_mul h1.2 h2.2 h2.1 (by positivity)
    _ = _ := by ring

theorem fact_fit (i j : Nat) : ((i + j).choose i : ℝ) * ((i.factorial * j.factorial : ℝ) / (i + j + 1).factorial) = 1 / ((i + j : ℕ) + 1) := by
  have h := Nat.add_choose_mul_factorial_mul_factorial i j
  rw [← Nat.choose_symm_add] at h
  have h' : ((i + j).choose i : ℝ) * i.factorial * j.factorial = (i + j).factorial := by exact_mod_cast h
  rw [Nat.factorial_succ]
  push_cast
  have h0 : ((i + j).factorial : ℝ) ≠ 0 := by positivity
  have h1 : (i + j + 1 : ℝ) ≠ 0 := by positivity
  rw [mul_div_assoc', ← mul_assoc, h']
  field_simp

theorem fact_drop (i j : Nat) : ((i + j).choose i : ℝ) * (((i + 1).factorial * j.factorial : ℝ) / (i + 1 + j + 1).factorial) =
    (i + 1) / (((i + j : ℕ) + 1) * ((i + j : ℕ) + 2)) := by
  have h := Nat.add_choose_mul_factorial_mul_factorial i j
  rw [← Nat.choose_symm_add] at h
  have h' : ((i + j).choose i : ℝ) * i.factorial * j.factorial = (i + j).factorial := by exact_mod_cast h
  have e : i + 1 + j + 1 = i + j + 1 + 1 := by omega
  rw [e, Nat.factorial_succ (i + j + 1), Nat.factorial_succ (i + j), Nat.factorial_succ i]
  push_cast
  have h0 : ((i + j).factorial : ℝ) ≠ 0 := by positivity
  have h1 : (i + j + 1 : ℝ) ≠ 0 := by positivity
  have h2 : (i + j + 1 + 1 : ℝ) ≠ 0 := by positivity
  have h3 : ((i + j).choose i : ℝ) * ((i + 1) * i.factorial * j.factorial) = (i + 1) * (i + j).factorial := by rw [← h']; ring
  rw [mul_div_assoc', h3]
  field_simp
  ring

theorem mul_four (A B C D : ℝ) : A * (B * C * D) = A * B * C * D := by ring

theorem countFit_bounds : ∀ (h k a N : Nat), 0 ≤ countFit h k a N ∧ (N.descFactorial k : ℝ) * fitLaw h k ≤ countFit h k a N ∧
    countFit h k a N ≤ (N.ascFactorial k : ℝ) * fitLaw h k
  | 0, 0, a, N => by simp [countFit, seqSum, fitLaw, fits]
  | 0, k + 1, a, N => by
    have e : countFit 0 (k + 1) a N = 0 := by
      rw [countFit, seqSum]
      refine sum_eq_zero fun p _ => ?_
      refine Eq.trans (seqSum_congr _ _ _ fun l => ?_) (seqSum_zero a N k)
      simp [fits]
    rw [e]; simp [fitLaw]
  | h + 1, 0, a, N => by simp [countFit, seqSum, fitLaw, fits]
  | h + 1, k + 1, a, 0 => by simp [countFit, seqSum, Nat.zero_ascFactorial]
  | h + 1, k + 1, a, M + 1 => by
    rw [countFit_succ, sum_comm]
    have hk : ∀ q ∈ antidiagonal k, ∑ p ∈ range (M + 1), (k.choose q.1 : ℝ) * (countFit h q.1 a (p + 1) * countFit h q.2 (a + (p + 1)) (M - p)) =
        (k.choose q.1 : ℝ) * ∑ p ∈ range (M + 1), (countFit h q.1 a (p + 1) * countFit h q.2 (a + (p + 1)) (M - p)) := fun q _ => by rw [mul_sum]
    rw [sum_congr rfl hk, fitLaw]
    refine ⟨sum_nonneg fun q _ => mul_nonneg (by positivity) (sum_nonneg fun p _ => mul_nonneg (countFit_bounds h _ _ _).1 (countFit_bounds h _ _ _).1), ?_, ?_⟩
    · rw [mul_div_assoc', mul_sum, sum_div]
      refine sum_le_sum fun q hq => ?_
      obtain ⟨i, j⟩ := q
      have hij : i + j = k := mem_antidiagonal.1 hq
      subst hij
      have := conv_low (M := M) (i := i) (j := j) (fitLaw_nonneg h i) (fitLaw_nonneg h j) (fun p _ => (countFit_bounds h i a (p + 1)).2.1)
        (fun p _ => (countFit_bounds h j (a + (p + 1)) (M - p)).2.1)
      refine le_trans (le_of_eq ?_) (mul_le_mul_of_nonneg_left this (by positivity))
      dsimp only
      rw [mul_four, fact_fit]
      ring
    · rw [mul_div_assoc', mul_sum, sum_div]
      refine sum_le_sum fun q hq => ?_
      obtain ⟨i, j⟩ := q
      have hij : i + j = k := mem_antidiagonal.1 hq
      subst hij
      have := conv_high (M := M) (i := i) (j := j) (fitLaw_nonneg h i) (fitLaw_nonneg h j)
        (fun p _ => ⟨(countFit_bounds h i a (p + 1)).1, (countFit_bounds h i a (p + 1)).2.2⟩)
        (fun p _ => ⟨(countFit_bounds h j (a + (p + 1)) (M - p)).1, (countFit_bounds h j (a + (p + 1)) (M - p)).2.2⟩)
      refine le_trans (mul_le_mul_of_nonneg_left this (by positivity)) (le_of_eq ?_)
      dsimp only
      rw [mul_four, fact_fit]
      ring

theorem countEnd_bounds : ∀ (h q k a N : Nat), q < 2 ^ h → 0 ≤ countEnd h q k a N ∧ (N.descFactorial (k + 1) : ℝ) * dropLaw h k ≤ countEnd h q k a N ∧
    countEnd h q k a N ≤ (N.ascFactorial (k + 1) : ℝ) * dropLaw h k
  | 0, q, 0, a, N, hq => by
    have : q = 0 := by simpa using hq
    subst this
    simp [countEnd, seqSum, dropLaw, fits, endPos, Nat.ascFactorial]
  | 0, q, k + 1, a, N, _ => by
    have e : countEnd 0 q (k + 1) a N = 0 := by
      rw [countEnd, seqSum]
      refine sum_eq_zero fun p _ => ?_
      refine Eq.trans (seqSum_congr _ _ _ fun l => ?_) (seqSum_zero a N k)
      simp [fits]
    rw [e]; simp [dropLaw]
  | h + 1, q, 0, a, N, _ => by
    have e : countEnd (h + 1) q 0 a N = 0 := by simp [countEnd, seqSum, fits, fits_nil]
    rw [e]; simp [dropLaw]
  | h + 1, q, k + 1, a, 0, _ => by simp [countEnd, seqSum, Nat.zero_ascFactorial]
  | h + 1, q, k + 1, a, M + 1, hq => by
    have hb := countFit_bounds h
    rw [dropLaw]
    by_cases hlt : q < 2 ^ h
    · have ih := fun k a N => countEnd_bounds h q k a N hlt
      rw [countEnd_left h q k a M hlt, sum_comm]
      have hk : ∀ r ∈ antidiagonal k, ∑ p ∈ range (M + 1), (k.choose r.1 : ℝ) * (countEnd h q r.1 a (p + 1) * countFit h r.2 (a + (p + 1)) (M - p)) =
          (k.choose r.1 : ℝ) * ∑ p ∈ range (M + 1), (countEnd h q r.1 a (p + 1) * countFit h r.2 (a + (p + 1)) (M - p)) := fun q _ => by rw [mul_sum]
      rw [sum_congr rfl hk]
      refine ⟨sum_nonneg fun q _ => mul_nonneg (by positivity) (sum_nonneg fun p _ => mul_nonneg (ih _ _ _).1 (hb _ _ _).1), ?_, ?_⟩
      · rw [mul_div_assoc', mul_sum, sum_div]
        refine sum_le_sum fun r hr => ?_
        obtain ⟨i, j⟩ := r
        have hij : i + j = k := mem_antidiagonal.1 hr
        subst hij
        have := conv_low (M := M) (i := i + 1) (j := j) (dropLaw_nonneg h i) (fitLaw_nonneg h j) (fun p _ => (ih i a (p + 1)).2.1)
          (fun p _ => (hb j (a + (p + 1)) (M - p)).2.1)
        refine le_trans (le_of_eq ?_) (mul_le_mul_of_nonneg_left this (by positivity))
        dsimp only
        rw [mul_four ((i + j).choose i : ℝ), fact_drop]
        have e : i + 1 + j + 1 = i + j + 1 + 1 := by omega
        rw [e]
        ring
      · rw [mul_div_assoc', mul_sum, sum_div]
        refine sum_le_sum fun r hr => ?_
        obtain ⟨i, j⟩ := r
        have hij : i + j = k := mem_antidiagonal.1 hr
        subst hij
        have := conv_high (M := M) (i := i + 1) (j := j) (dropLaw_nonneg h i) (fitLaw_nonneg h j)
          (fun p _ => ⟨(ih i a (p + 1)).1, (ih i a (p + 1)).2.2⟩)
          (fun p _ => ⟨(hb j (a + (p + 1)) (M - p)).1, (hb j (a + (p + 1)) (M - p)).2.2⟩)
        refine le_trans (mul_le_mul_of_nonneg_left this (by positivity)) (le_of_eq ?_)
        dsimp only
        rw [mul_four ((i + j).choose i : ℝ), fact_drop]
        have e : i + 1 + j + 1 = i + j + 1 + 1 := by omega
        rw [e]
        ring
    · obtain ⟨q, rfl⟩ : ∃ q', q = 2 ^ h + q' := ⟨q - 2 ^ h, by omega⟩
      have hq' : q < 2 ^ h := by rw [pow_succ] at hq; omega
      have ih := fun k a N => countEnd_bounds h q k a N hq'
      rw [countEnd_right h q k a M, sum_comm]
      have hk : ∀ r ∈ antidiagonal k, ∑ p ∈ range (M + 1), (k.choose r.1 : ℝ) * (countFit h r.1 a (p + 1) * countEnd h q r.2 (a + (p + 1)) (M - p)) =
          (k.choose r.1 : ℝ) * ∑ p ∈ range (M + 1), (countFit h r.1 a (p + 1) * countEnd h q r.2 (a + (p + 1)) (M - p)) := fun q _ => by rw [mul_sum]
      rw [sum_congr rfl hk, sum_swap k fun i j => ((i : ℝ) + 1) * dropLaw h i * fitLaw h j]
      refine ⟨sum_nonneg fun q _ => mul_nonneg (by positivity) (sum_nonneg fun p _ => mul_nonneg (hb _ _ _).1 (ih _ _ _).1), ?_, ?_⟩
      · rw [mul_div_assoc', mul_sum, sum_div]
        refine sum_le_sum fun r hr => ?_
        obtain ⟨i, j⟩ := r
        have hij : i + j = k := mem_antidiagonal.1 hr
        subst hij
        have := conv_low (M := M) (i := i) (j := j + 1) (fitLaw_nonneg h i) (dropLaw_nonneg h j) (fun p _ => (hb i a (p + 1)).2.1)
          (fun p _ => (ih j (a + (p + 1)) (M - p)).2.1)
        refine le_trans (le_of_eq ?_) (mul_le_mul_of_nonneg_left this (by positivity))
        have f := fact_drop j i
        have e : i + (j + 1) + 1 = j + 1 + i + 1 := by omega
        have e2 : j + 1 + i + 1 = i + j + 1 + 1 := by omega
        dsimp only
        rw [mul_four ((i + j).choose i : ℝ), e, mul_comm (i.factorial : ℝ), Nat.choose_symm_add, Nat.add_comm i j, f, e2, Nat.add_comm i j]
        push_cast
        ring
      · rw [mul_div_assoc', mul_sum, sum_div]
        refine sum_le_sum fun r hr => ?_
        obtain ⟨i, j⟩ := r
        have hij : i + j = k := mem_antidiagonal.1 hr
        subst hij
        have := conv_high (M := M) (i := i) (j := j + 1) (fitLaw_nonneg h i) (dropLaw_nonneg h j)
          (fun p _ => ⟨(hb i a (p + 1)).1, (hb i a (p + 1)).2.2⟩)
          (fun p _ => ⟨(ih j (a + (p + 1)) (M - p)).1, (ih j (a + (p + 1)) (M - p)).2.2⟩)
        refine le_trans (mul_le_mul_of_nonneg_left this (by positivity)) (le_of_eq ?_)
        have f := fact_drop j i
        have e : i + (j + 1) + 1 = j + 1 + i + 1 := by omega
        have e2 : j + 1 + i + 1 = i + j + 1 + 1 := by omega
        dsimp only
        rw [mul_four ((i + j).choose i : ℝ), e, mul_comm (i.factorial : ℝ), Nat.choose_symm_add, Nat.add_comm i j, f, e2, Nat.add_comm i j]
        push_cast
        ring

end Dh
