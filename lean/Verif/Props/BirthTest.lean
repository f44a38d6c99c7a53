import Verif.Model.BirthTest
import Verif.Props.Birthdays
import Verif.Props.Chisq
import Mathlib.Topology.Algebra.Order.Floor
import Mathlib.Analysis.Complex.ExponentialBounds
/-
C124: the birthday tests as a whole.
-/
namespace Dh
open Spec

namespace Spec

/-- The expected number of samples in cell `k`, by the Poisson law with mean `lambda`. -/
noncomputable def birthExpected (n : Nat) (lambda : ℝ) (k : Nat) : ℝ := n * (lambda ^ k / k.factorial * Real.exp (-lambda))

/-- `k` is the first cell after 0 that expects at most five samples. -/
def FirstSmall (n : Nat) (lambda : ℝ) (k : Nat) : Prop := 1 ≤ k ∧ birthExpected n lambda k ≤ 5 ∧ ∀ j, 1 ≤ j → j < k → 5 < birthExpected n lambda j

end Spec

theorem birthKmax_spec (n : Nat) (lambda : ℝ) (k : Nat) : ∀ fuel j, j ≤ k → k < j + fuel → birthExpected n lambda k ≤ 5 →
    (∀ i, j ≤ i → i < k → 5 < birthExpected n lambda i) → birthKmax n lambda fuel j = .ok k
  | 0, j, h1, h2, _, _ => absurd h2 (by omega)
  | fuel + 1, j, h1, h2, h3, h4 => by
    have hp : ∀ i, (n : ℝ) * poissonPdf i lambda = birthExpected n lambda i := fun i => rfl
    rw [birthKmax, hp]
    rcases Nat.eq_or_lt_of_le h1 with rfl | h5
    · rw [if_neg (not_lt.2 h3)]
    · rw [if_pos (h4 j le_rfl h5)]
      exact birthKmax_spec n lambda k fuel (j + 1) h5 (by omega) h3 fun i h6 h7 => h4 i (by omega) h7

/-- C124: the search for the number of cells always ends, at the first cell after 0 that expects at most five samples. -/
theorem C124_kmax (n : Nat) (lambda : ℝ) : ∃ k, FirstSmall n lambda k ∧ ∀ fuel, k ≤ fuel → birthKmax n lambda fuel 1 = .ok k := by
  classical
  have hlim : Filter.Tendsto (fun k => birthExpected n lambda k) Filter.atTop (nhds 0) := by
    have h := ((FloorSemiring.tendsto_pow_div_factorial_atTop lambda).mul_const (Real.exp (-lambda))).const_mul (n : ℝ)
    rw [zero_mul, mul_zero] at h
    exact h
  have hex : ∃ k, 1 ≤ k ∧ birthExpected n lambda k ≤ 5 := by
    obtain ⟨k, hk, h1⟩ := ((hlim.eventually (gt_mem_nhds (show (0 : ℝ) < 5 by norm_num))).and (Filter.eventually_ge_atTop 1)).exists
    exact ⟨k, h1, hk.le⟩
  refine ⟨Nat.find hex, ⟨(Nat.find_spec hex).1, (Nat.find_spec hex).2, fun j h1 h2 => ?_⟩, fun fuel hf => ?_⟩
  · exact not_le.1 fun h => Nat.find_min hex h2 ⟨h1, h⟩
  · exact birthKmax_spec n lambda _ fuel 1 (Nat.find_spec hex).1 (by omega) (Nat.find_spec hex).2
      fun i h1 h2 => not_le.1 fun h => Nat.find_min hex h2 ⟨h1, h⟩

/-- The p-value, for the number of cells found and the numbers of repeated spacings found (`C30_outcome` says what these are). -/
theorem birthTest_value (gammaQ : ℝ → ℝ → ℝ) (e0 : Nat → List ℝ) (he : ∀ k, (e0 k).length = k) (nms nbits : Nat) (src : Src) (n : Nat) (ks : Nat → Nat)
    (hks : ∀ t < n, birthSample ((List.range nms).map fun i => src (nms * t + i)) = .ok (ks t)) (k : Nat) (hk : FirstSmall n (birthLambda nms nbits) k)
    (fuel : Nat) (hf : k ≤ fuel) :
    birthTest gammaQ e0 fuel nms nbits src n = .ok (gammaQ (k / 2)
      ((∑ c ∈ Finset.range (k + 1), ((((List.range n).countP fun t => decide (ks t = c)) : ℝ) - birthExpected n (birthLambda nms nbits) c) ^ 2 /
        birthExpected n (birthLambda nms nbits) c) / 2)) := by
  obtain ⟨js, h1, h2, h3⟩ := C30_tally src nms (k + 1) ks n hks
  rw [birthTest]
  simp only
  rw [birthKmax_spec n _ k fuel 1 hk.1 (by omega) hk.2.1 hk.2.2, Res.bind_ok, h1, Res.bind_ok,
    C77_poisson gammaQ _ js _ (k + 1) n (he _) (by omega), Spec.pearson]
  congr 2
  · push_cast; ring
  · congr 1
    refine Finset.sum_congr rfl fun c hc => ?_
    rw [h3 c (Finset.mem_range.1 hc), birthExpected]

/-- C124: the p-value of diehard_birthdays is that of a chi-square statistic of the numbers of samples with `c` repeated spacings, for `c` up to the first
cell after 0 that expects at most five, against the Poisson law of mean `512³ / 2^(b+2)`, `b` being the smaller of 24 and the width of the generator. -/
theorem C124_diehard (gammaQ : ℝ → ℝ → ℝ) (e0 : Nat → List ℝ) (he : ∀ k, (e0 k).length = k) (r : Nat) (src : Src) (n : Nat) (ks : Nat → Nat)
    (hks : ∀ t < n, birthSample ((List.range 512).map fun i => src (512 * t + i)) = .ok (ks t)) :
    ∃ k, FirstSmall n (2 ^ 27 / 2 ^ (min 24 r + 2)) k ∧ ∀ fuel, k ≤ fuel → diehardBirthdays gammaQ e0 fuel r src n = .ok (gammaQ (k / 2)
      ((∑ c ∈ Finset.range (k + 1), ((((List.range n).countP fun t => decide (ks t = c)) : ℝ) - birthExpected n (2 ^ 27 / 2 ^ (min 24 r + 2)) c) ^ 2 /
        birthExpected n (2 ^ 27 / 2 ^ (min 24 r + 2)) c) / 2)) := by
  have hl : birthLambda 512 (min 24 r) = 2 ^ 27 / 2 ^ (min 24 r + 2) := by rw [birthLambda]; norm_num
  have hb : (if 24 > r then r else 24) = min 24 r := by
    rw [Nat.min_def]
    split <;> split <;> omega
  obtain ⟨k, hk, -⟩ := C124_kmax n (2 ^ 27 / 2 ^ (min 24 r + 2))
  refine ⟨k, hk, fun fuel hf => ?_⟩
  have h := birthTest_value gammaQ e0 he 512 (min 24 r) src n ks hks k (by rw [hl]; exact hk) fuel hf
  rw [hl] at h
  rw [diehardBirthdays, hb, h]

/-- C124: the p-value of dab_birthdays1, with `m` birthdays (1700, or the ntuple up to 4096). -/
theorem C124_dab (gammaQ : ℝ → ℝ → ℝ) (e0 : Nat → List ℝ) (he : ∀ k, (e0 k).length = k) (r : Nat) (ntuple : UInt) (m : Nat)
    (hm : m = if ntuple = 0 then 1700 else min ntuple.toNat 4096) (src : Src) (n : Nat) (ks : Nat → Nat)
    (hks : ∀ t < n, birthSample ((List.range m).map fun i => src (m * t + i)) = .ok (ks t)) :
    ∃ k, FirstSmall n (m ^ 3 / 2 ^ (r + 2)) k ∧ ∀ fuel, k ≤ fuel → dabBirthdays1 gammaQ e0 fuel r ntuple src n = .ok (gammaQ (k / 2)
      ((∑ c ∈ Finset.range (k + 1), ((((List.range n).countP fun t => decide (ks t = c)) : ℝ) - birthExpected n (m ^ 3 / 2 ^ (r + 2)) c) ^ 2 /
        birthExpected n (m ^ 3 / 2 ^ (r + 2)) c) / 2)) := by
  have hl : birthLambda m r = (m : ℝ) ^ 3 / 2 ^ (r + 2) := by rw [birthLambda]; ring
  have hb : (if (if ntuple = 0 then 1700 else ntuple.toNat) > 4096 then 4096 else (if ntuple = 0 then 1700 else ntuple.toNat)) = m := by
    rw [hm]
    by_cases h : ntuple = 0
    · rw [if_pos h, if_pos h, if_neg (by norm_num)]
    · rw [if_neg h, if_neg h, Nat.min_def]
      split <;> split <;> omega
  obtain ⟨k, hk, -⟩ := C124_kmax n ((m : ℝ) ^ 3 / 2 ^ (r + 2))
  refine ⟨k, hk, fun fuel hf => ?_⟩
  have h := birthTest_value gammaQ e0 he m r src n ks hks k (by rw [hl]; exact hk) fuel hf
  rw [hl] at h
  rw [dabBirthdays1, hb, h]

/-- When the mean is large the search stops at once. -/
theorem firstSmall_one (n m : Nat) (lambda : ℝ) (c : ℝ) (hl : m + c ≤ lambda) (hc : 0 ≤ c) (h : (n : ℝ) * (m + c) ≤ 5 * 2.7 ^ m * (1 + c)) (hn : (n : ℝ) ≤ 5 * 2.7 ^ m) :
    FirstSmall n lambda 1 := by
  refine ⟨le_rfl, ?_, fun j h1 h2 => absurd h2 (by omega)⟩
  have he : (2.7 : ℝ) ^ m * (1 + (lambda - m)) ≤ Real.exp lambda := by
    have h1 : Real.exp lambda = Real.exp 1 ^ m * Real.exp (lambda - m) := by
      rw [← Real.exp_nat_mul, mul_one, ← Real.exp_add]
      congr 1
      ring
    have h2 := Real.add_one_le_exp (lambda - m)
    have h3 : (2.7 : ℝ) ^ m ≤ Real.exp 1 ^ m := by
      have := Real.exp_one_gt_d9
      gcongr
      linarith
    rw [h1]
    exact mul_le_mul h3 (by linarith) (by linarith) (by positivity)
  rw [birthExpected, pow_one, Nat.factorial_one, Nat.cast_one, div_one, Real.exp_neg, ← mul_assoc, ← div_eq_mul_inv, div_le_iff₀ (Real.exp_pos _)]
  have h5 : (n : ℝ) * lambda ≤ 5 * (2.7 ^ m * (1 + (lambda - m))) := by
    have : (n : ℝ) * (lambda - (m + c)) ≤ 5 * 2.7 ^ m * (lambda - (m + c)) := mul_le_mul_of_nonneg_right hn (by linarith)
    nlinarith
  linarith

/-- With two cells, and every sample outside of them, the statistic is the sum of what the two cells expect. -/
theorem birth_two_cells (n : Nat) (lambda : ℝ) (ks : Nat → Nat) (hk : ∀ t < n, 2 ≤ ks t) :
    ∑ c ∈ Finset.range (1 + 1), ((((List.range n).countP fun t => decide (ks t = c)) : ℝ) - birthExpected n lambda c) ^ 2 / birthExpected n lambda c =
      n * ((1 + lambda) * Real.exp (-lambda)) := by
  have h0 : ∀ c < 2, ((List.range n).countP fun t => decide (ks t = c)) = 0 := by
    intro c hc
    rw [List.countP_eq_zero]
    intro t ht
    have := hk t (List.mem_range.1 ht)
    simp only [decide_eq_true_eq]
    omega
  have h1 : ∀ x : ℝ, (0 - x) ^ 2 / x = x := by
    intro x
    by_cases hx : x = 0
    · rw [hx]; norm_num
    · field_simp; ring
  rw [Finset.sum_range_succ, Finset.sum_range_one, h0 0 (by omega), h0 1 (by omega), Nat.cast_zero, h1, h1, birthExpected, birthExpected]
  simp only [pow_zero, pow_one, Nat.factorial_zero, Nat.factorial_one, Nat.cast_one, div_one]
  ring

/-- C124, a finding: with the default 100 samples and a generator of at most 22 bits, diehard_birthdays looks only at the samples with no or one repeated
spacing, and a good generator has hardly any: if there are none, the p-value is the same whatever the numbers are. -/
theorem C124_diehard_narrow (gammaQ : ℝ → ℝ → ℝ) (e0 : Nat → List ℝ) (he : ∀ k, (e0 k).length = k) (r : Nat) (hr : r ≤ 22) (src : Src) (ks : Nat → Nat)
    (hks : ∀ t < 100, birthSample ((List.range 512).map fun i => src (512 * t + i)) = .ok (ks t)) (h2 : ∀ t < 100, 2 ≤ ks t) (fuel : Nat) (hf : 1 ≤ fuel) :
    diehardBirthdays gammaQ e0 fuel r src 100 = .ok (gammaQ (1 / 2) (50 * ((1 + 2 ^ (25 - r)) * Real.exp (-2 ^ (25 - r))))) := by
  have hl : birthLambda 512 r = 2 ^ (25 - r) := by
    have : (2 : ℝ) ^ 27 = 2 ^ (25 - r) * 2 ^ (r + 2) := by rw [← pow_add]; congr 1; omega
    rw [birthLambda, div_eq_iff (by positivity), ← this]
    norm_num
  have h8 : ((8 : Nat) : ℝ) + 0 ≤ 2 ^ (25 - r) := by
    calc ((8 : Nat) : ℝ) + 0 = 2 ^ 3 := by norm_num
      _ ≤ 2 ^ (25 - r) := pow_le_pow_right₀ (by norm_num) (by omega)
  have h := birthTest_value gammaQ e0 he 512 r src 100 ks hks 1
    (by rw [hl]; exact firstSmall_one 100 8 _ 0 h8 le_rfl (by norm_num) (by norm_num)) fuel hf
  rw [hl, birth_two_cells 100 _ ks h2] at h
  rw [diehardBirthdays, if_pos (show 24 > r by omega), h]
  congr 2
  · norm_num
  · push_cast; ring

/-- C124, a finding: so does dab_birthdays1 with its default 2000 samples of 1700 numbers and a generator of at most 27 bits. -/
theorem C124_dab_narrow (gammaQ : ℝ → ℝ → ℝ) (e0 : Nat → List ℝ) (he : ∀ k, (e0 k).length = k) (r : Nat) (hr : r ≤ 27) (src : Src) (ks : Nat → Nat)
    (hks : ∀ t < 2000, birthSample ((List.range 1700).map fun i => src (1700 * t + i)) = .ok (ks t)) (h2 : ∀ t < 2000, 2 ≤ ks t) (fuel : Nat) (hf : 1 ≤ fuel) :
    dabBirthdays1 gammaQ e0 fuel r 0 src 2000 = .ok (gammaQ (1 / 2) (1000 * ((1 + 1700 ^ 3 / 2 ^ (r + 2)) * Real.exp (-(1700 ^ 3 / 2 ^ (r + 2)))))) := by
  have hl : birthLambda 1700 r = 1700 ^ 3 / 2 ^ (r + 2) := by rw [birthLambda]; norm_num
  have h9 : ((9 : Nat) : ℝ) + 0.1 ≤ 1700 ^ 3 / 2 ^ (r + 2) := by
    rw [le_div_iff₀ (by positivity)]
    have : (2 : ℝ) ^ (r + 2) ≤ 2 ^ 29 := pow_le_pow_right₀ (by norm_num) (by omega)
    push_cast
    norm_num at this ⊢
    linarith
  have h := birthTest_value gammaQ e0 he 1700 r src 2000 ks hks 1
    (by rw [hl]; exact firstSmall_one 2000 9 _ 0.1 h9 (by norm_num) (by norm_num) (by norm_num)) fuel hf
  rw [hl, birth_two_cells 2000 _ ks h2] at h
  rw [dabBirthdays1, if_pos rfl, if_neg (show ¬ 1700 > 4096 by norm_num), h]
  congr 2
  · norm_num
  · push_cast; ring

/-- For a generator of 24 bits the second argument is below `10 ^ (-20)`: with the true tail function the p-value is nearly 1, a failure, for any numbers. -/
theorem C124_dab_24 : 1000 * ((1 + 1700 ^ 3 / 2 ^ (24 + 2)) * Real.exp (-(1700 ^ 3 / 2 ^ (24 + 2)))) < (10 : ℝ) ^ (-20 : ℤ) := by
  have h1 : Real.exp (-(1700 ^ 3 / 2 ^ (24 + 2))) ≤ (2.7 ^ 73)⁻¹ := by
    rw [Real.exp_neg]
    refine inv_anti₀ (by positivity) ?_
    have h2 := Real.exp_one_gt_d9
    calc (2.7 : ℝ) ^ 73 ≤ Real.exp 1 ^ 73 := by gcongr; linarith
      _ = Real.exp 73 := by rw [← Real.exp_nat_mul]; norm_num
      _ ≤ _ := Real.exp_le_exp.2 (by norm_num)
  calc 1000 * ((1 + 1700 ^ 3 / 2 ^ (24 + 2)) * Real.exp (-(1700 ^ 3 / 2 ^ (24 + 2)))) ≤ 1000 * ((1 + 1700 ^ 3 / 2 ^ (24 + 2)) * (2.7 ^ 73)⁻¹) := by gcongr
    _ < _ := by norm_num

theorem isChain_of_zip : ∀ l : List UInt, (l.zip l.tail).all (fun p => decide (p.1.toNat ≤ p.2.toNat)) = true → l.IsChain fun a b => a.toNat ≤ b.toNat
  | [], _ => List.IsChain.nil
  | [a], _ => List.IsChain.singleton a
  | a :: b :: l, h => by
    rw [List.tail_cons, List.zip_cons_cons, List.all_cons, Bool.and_eq_true] at h
    exact List.IsChain.cons_cons (by simpa using h.1) (isChain_of_zip (b :: l) h.2)

theorem sortUint_sorted_self (l : List UInt) (h : (l.zip l.tail).all (fun p => decide (p.1.toNat ≤ p.2.toNat)) = true) : sortUint l = l := by
  have : Trans (fun a b : UInt => a.toNat ≤ b.toNat) (fun a b : UInt => a.toNat ≤ b.toNat) (fun a b : UInt => a.toNat ≤ b.toNat) := ⟨fun h1 h2 => le_trans h1 h2⟩
  exact List.mergeSort_of_pairwise ((List.isChain_iff_pairwise.1 (isChain_of_zip l h)).imp fun h => by simpa using h)

/-- Numbers that are not random at all, whose samples of 512 have two repeated spacings each, 0 and 1. -/
def birthBad (i : Nat) : UInt := if i % 512 < 300 then 0 else if i % 512 < 511 then BitVec.ofNat 32 (i % 512 - 299) else 100000

set_option maxRecDepth 100000 in
theorem birthBad_sample (t : Nat) : birthSample ((List.range 512).map fun i => birthBad (512 * t + i)) = .ok 2 := by
  have h0 : ((List.range 512).map fun i => birthBad (512 * t + i)) = (List.range 512).map birthBad := by
    refine List.map_congr_left fun i _ => ?_
    rw [birthBad, birthBad, Nat.mul_add_mod]
  rw [h0, birthSample, sortUint_sorted_self ((List.range 512).map birthBad) (by decide +kernel),
    sortUint_sorted_self (spacings 0 ((List.range 512).map birthBad)) (by decide +kernel)]
  decide +kernel

/-- diehard_birthdays gives these the p-value it gives to any good generator of 22 bits. -/
example (gammaQ : ℝ → ℝ → ℝ) (e0 : Nat → List ℝ) (he : ∀ k, (e0 k).length = k) : diehardBirthdays gammaQ e0 1 22 birthBad 100 =
    .ok (gammaQ (1 / 2) (50 * ((1 + 2 ^ (25 - 22)) * Real.exp (-2 ^ (25 - 22))))) :=
  C124_diehard_narrow gammaQ e0 he 22 le_rfl birthBad (fun _ => 2) (fun t _ => birthBad_sample t) (fun _ _ => le_rfl) 1 le_rfl

/-- With 24 bits or more the mean is 2, and 100 samples are put into the cells 0 to 5, which expect 13.5, 27.1, 27.1, 18.0, 9.0 and 3.6. -/
example : FirstSmall 100 (2 ^ 27 / 2 ^ (min 24 32 + 2)) 5 := by
  have h1 := Real.exp_one_gt_d9
  have h2 := Real.exp_one_lt_d9
  have h3 : Real.exp (-2) = (Real.exp 1 * Real.exp 1)⁻¹ := by rw [← Real.exp_add, Real.exp_neg]; norm_num
  have h4 : Real.exp (-2) < 0.136 := by
    rw [h3, inv_lt_comm₀ (by positivity) (by norm_num)]
    nlinarith
  have h5 : 0.135 < Real.exp (-2) := by
    rw [h3, lt_inv_comm₀ (by norm_num) (by positivity)]
    nlinarith
  have hl : (2 ^ 27 / 2 ^ (min 24 32 + 2) : ℝ) = 2 := by norm_num
  rw [hl]
  refine ⟨by omega, ?_, fun j h6 h7 => ?_⟩
  · rw [birthExpected]
    norm_num [Nat.factorial]
    linarith
  · have : j = 1 ∨ j = 2 ∨ j = 3 ∨ j = 4 := by omega
    rcases this with rfl | rfl | rfl | rfl <;> rw [birthExpected] <;> norm_num [Nat.factorial] <;> linarith

end Dh
