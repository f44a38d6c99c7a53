import Verif.Props.ChisqPower
import Verif.Props.KuiperPower
import Verif.Props.RankPower
import Verif.Props.PermMean
/-
C140: linear relations fail the rank test, and uneven orders fail rgb_permutations.
-/
namespace Dh

open Spec

/-- A bound of 0.0004 from a bound for the exponent. -/
theorem vtestPvalue_low (w : Vtest) (hf : 0 < w.ndof) (c : ℝ) (hc0 : 0 ≤ c) (hc : c ≤ (w.chisq : ℝ)) (h : (w.ndof : ℝ) / 2 * 0.6931471808 - c / 4 ≤ -8) :
    0 ≤ vtestPvalue gammaTail w ∧ vtestPvalue gammaTail w ≤ 0.0004 := by
  have hf' : (0 : ℝ) < (w.ndof : ℝ) / 2 := by
    have : (0 : ℝ) < w.ndof := by exact_mod_cast hf
    linarith
  refine ⟨(C138_tail hf').2.1 _ (by linarith), (vtestPvalue_le w hf c hc0 hc).trans ?_⟩
  have hl := Real.log_two_lt_d9
  have h8 : Real.exp ((w.ndof : ℝ) / 2 * Real.log 2 - c / 4) ≤ Real.exp (-8) := by
    refine Real.exp_le_exp.2 (le_trans ?_ h)
    have := mul_le_mul_of_nonneg_left hl.le hf'.le
    linarith
  refine h8.trans ?_
  rw [show (-8 : ℝ) = (8 : ℕ) * (-1) by norm_num, Real.exp_nat_mul]
  calc Real.exp (-1) ^ 8 ≤ 0.3678794413 ^ 8 := pow_le_pow_left₀ (Real.exp_pos _).le (by linarith [Real.exp_neg_one_lt_d9]) 8
    _ ≤ 0.0004 := by norm_num

/-- C140: diehard_rank_32x32 (with 946 matrices or more) fails on every generator of 32 bits whose words satisfy, in every sample, some linear relation
over GF(2): the bits in some places (the mask `m i`) always have an even sum. -/
theorem C140_parity (n : Nat) (hn : 946 ≤ n) (psamples : Nat) (srcs : Nat → Src) (m : Nat → UInt) (hm : ∀ i, m i ≠ 0)
    (h : ∀ i, ∀ k < 32 * n, ∑ j : Fin 32, wordVec (m i) j * wordVec (srcs i k) j = 0) :
    ∃ w : Nat → Vtest, (∀ i, (diehardRank32 32 (srcs i) n GBState.init).map Prod.fst = .ok (w i)) ∧
      FailsLow ((List.range psamples).map fun i => vtestPvalue gammaTail (w i)) := by
  choose w h1 h2 h3 using fun i => C125_parity (srcs i) (m i) n hn (hm i) (h i)
  refine ⟨w, h1, C137_low _ fun p hp => ?_⟩
  obtain ⟨i, -, rfl⟩ := List.mem_map.1 hp
  have hn' : (946 : ℚ) ≤ n := by exact_mod_cast hn
  have h4 : (378.4 : ℚ) ≤ (w i).chisq := le_trans (by linarith) (h3 i)
  have h5 : (378.4 : ℝ) ≤ ((w i).chisq : ℝ) := by
    have : ((378.4 : ℚ) : ℝ) ≤ ((w i).chisq : ℝ) := by exact_mod_cast h4
    norm_num at this ⊢
    exact this
  refine vtestPvalue_low (w i) (by rw [h2 i]; norm_num) 378.4 (by norm_num) h5 ?_
  rw [h2 i]
  norm_num

/-- C140: the same for words that lie, in every sample, in a space of at most 31 dimensions, for example because at most 31 words are repeated. -/
theorem C140_span (n : Nat) (hn : 946 ≤ n) (psamples : Nat) (srcs : Nat → Src) (V : Nat → Submodule (ZMod 2) (Fin 32 → ZMod 2))
    (hV : ∀ i, Module.finrank (ZMod 2) (V i) ≤ 31) (h : ∀ i, ∀ k < 32 * n, wordVec (srcs i k) ∈ V i) :
    ∃ w : Nat → Vtest, (∀ i, (diehardRank32 32 (srcs i) n GBState.init).map Prod.fst = .ok (w i)) ∧
      FailsLow ((List.range psamples).map fun i => vtestPvalue gammaTail (w i)) := by
  choose w h1 h2 h3 _ using fun i => C125_span (srcs i) (V i) n 31 hn (.inr (.inr rfl)) (hV i) (h i)
  refine ⟨w, h1, C137_low _ fun p hp => ?_⟩
  obtain ⟨i, -, rfl⟩ := List.mem_map.1 hp
  have hn' : (946 : ℚ) ≤ n := by exact_mod_cast hn
  have hr : (0.4 : ℚ) ≤ 1 / rankAtMost 31 - 1 := by norm_num [rankAtMost]
  have h4 : (378.4 : ℚ) ≤ (w i).chisq := by
    have := mul_le_mul hn' hr (by norm_num) (by linarith)
    linarith [h3 i]
  have h5 : (378.4 : ℝ) ≤ ((w i).chisq : ℝ) := by
    have : ((378.4 : ℚ) : ℝ) ≤ ((w i).chisq : ℝ) := by exact_mod_cast h4
    norm_num at this ⊢
    exact this
  refine vtestPvalue_low (w i) (by rw [h2 i]; norm_num) 378.4 (by norm_num) h5 ?_
  rw [h2 i]
  norm_num

/-- C140: rgb_permutations, for tuples of `k` numbers and at least `5 k!` samples: if `o` of the tuples are of the same order (that of `v`), at least
`n/k!`, the statistic is at least `(o - n/k!)² k!/n`, on `k! - 1` degrees of freedom. -/
theorem C140_order {sortIndex : List UInt → List Nat} (hs : SortIndexOk sortIndex) {lookup : Nat → List (List Nat)} (hl : ∀ k, LookupOk k (lookup k))
    (ntuple k : Nat) (hk : k = if ntuple < 2 then 5 else ntuple) (hk12 : k ≤ 12) (src : Src) (n : Nat) (hn : 5 * k.factorial ≤ n)
    (v : List UInt) (hv : v.length = k) (hd : Distinct k fun i => (v.getD i 0).toNat) (S : Finset Nat)
    (hS : ∀ t ∈ S, t < n ∧ Distinct k (fun i => (src (k * t + i)).toNat) ∧ SameOrder k (fun i => (src (k * t + i)).toNat) (fun i => (v.getD i 0).toNat))
    (ho : (n : ℚ) / k.factorial ≤ S.card) :
    ∃ w, rgbPermutationsStat ntuple sortIndex lookup src n = .ok w ∧ w.ndof = k.factorial - 1 ∧
      (S.card - (n : ℚ) / k.factorial) ^ 2 / ((n : ℚ) / k.factorial) ≤ w.chisq := by
  have hf := k.factorial_pos
  have hfq : (0 : ℚ) < k.factorial := by exact_mod_cast hf
  have hbig : 5 ≤ (n : ℚ) * (1 / k.factorial) := by
    have : (5 : ℚ) * k.factorial ≤ n := by exact_mod_cast hn
    rw [mul_one_div, le_div_iff₀ hfq]
    exact this
  obtain ⟨g, hg⟩ : ∃ g : Nat → Nat, g = fun c => (List.range n).countP fun t =>
    decide (permCell sortIndex (lookup k) ((List.range k).map fun i => src (k * t + i)) = c) := ⟨_, rfl⟩
  have hz : (((List.range k.factorial).map fun c => ((g c : ℕ) : ℚ)).zip ((List.range k.factorial).map fun _ => (n : ℚ) * (1 / k.factorial))) =
      (List.range k.factorial).map fun c => (((g c : ℕ) : ℚ), (n : ℚ) * (1 / k.factorial)) := by
    rw [List.zip_map', ]
  obtain ⟨w, h1, h2, -, h3, -⟩ := C16_vtest_eval { vtestCreate k.factorial with
      x := (List.range k.factorial).map (fun c => ((g c : ℕ) : ℚ))
      y := (List.range k.factorial).map (fun _ => (n : ℚ) * (1 / k.factorial)) } (by simp [vtestCreate]) (by simp [vtestCreate]) (by norm_num [vtestCreate])
  have hu : usedCells 5 ((List.range k.factorial).map fun c => (((g c : ℕ) : ℚ), (n : ℚ) * (1 / k.factorial))) =
      (List.range k.factorial).map fun c => (((g c : ℕ) : ℚ), (n : ℚ) * (1 / k.factorial)) :=
    usedCells_large _ fun c hc => by
      obtain ⟨_, _, rfl⟩ := List.mem_map.1 hc
      exact hbig
  have hcut : (vtestCreate k.factorial).cutoff = 5 := rfl
  dsimp only at h2 h3
  rw [hcut, hz, hu] at h2 h3
  have hc0 : permCell sortIndex (lookup k) v < k.factorial := C60_range hs (hl k) v hv
  refine ⟨w, ?_, ?_, ?_⟩
  · rw [permStat_eq hs hl ntuple k hk hk12, ← h1, hg]
  · rw [h3 rfl, List.length_map, List.length_range]
    have : k.factorial ≤ Nat.factorial 12 := Nat.factorial_le hk12
    have h12 : Nat.factorial 12 = 479001600 := by decide +kernel
    omega
  · rw [h2]
    refine le_trans ?_ (pearson_sum_ge _ (fun c hc => by
      obtain ⟨_, _, rfl⟩ := List.mem_map.1 hc
      linarith) _ (List.mem_map.2 ⟨permCell sortIndex (lookup k) v, List.mem_range.2 hc0, rfl⟩))
    have hcard : S.card ≤ g (permCell sortIndex (lookup k) v) := by
      have hsub : S.card ≤ ((List.range n).filter fun t =>
          decide (permCell sortIndex (lookup k) ((List.range k).map fun i => src (k * t + i)) = permCell sortIndex (lookup k) v)).length := by
        have hnd : ((List.range n).filter fun t =>
          decide (permCell sortIndex (lookup k) ((List.range k).map fun i => src (k * t + i)) = permCell sortIndex (lookup k) v)).Nodup := List.nodup_range.filter _
        rw [← List.toFinset_card_of_nodup hnd]
        refine Finset.card_le_card fun t ht => ?_
        obtain ⟨a1, a2, a3⟩ := hS t ht
        rw [List.mem_toFinset, List.mem_filter, List.mem_range, decide_eq_true_iff]
        have hget : ∀ i < k, ((List.range k).map fun i => src (k * t + i)).getD i 0 = src (k * t + i) := fun i hi => by
          rw [List.getD_eq_getElem _ _ (by simpa using hi), List.getElem_map, List.getElem_range]
        refine ⟨a1, (C60_order hs (hl k) _ v (by simp) hv (fun a ha b hb e => ?_) hd).2 fun a ha b hb => ?_⟩
        · simp only [hget a ha, hget b hb] at e
          exact a2 a ha b hb e
        · simp only [hget a ha, hget b hb]
          exact a3 a ha b hb
      rw [hg]
      dsimp only
      rw [List.countP_eq_length_filter]
      exact hsub
    have hcq : (S.card : ℚ) ≤ g (permCell sortIndex (lookup k) v) := by exact_mod_cast hcard
    rw [pearson]
    dsimp only
    rw [mul_one_div]
    have hy : (0 : ℚ) < (n : ℚ) / k.factorial := by
      rw [mul_one_div] at hbig
      linarith
    refine div_le_div_of_nonneg_right ?_ hy.le
    exact pow_le_pow_left₀ (by linarith) (by linarith) 2

/-- C140: a run of rgb_permutations by default (tuples of five, 100000 samples) fails if in every sample 1239 tuples or more, instead of 833, have the same order. -/
theorem C140_default {sortIndex : List UInt → List Nat} (hs : SortIndexOk sortIndex) {lookup : Nat → List (List Nat)} (hl : ∀ k, LookupOk k (lookup k))
    (psamples : Nat) (srcs : Nat → Src) (v : Nat → List UInt) (hv : ∀ i, (v i).length = 5) (hd : ∀ i, Distinct 5 fun j => ((v i).getD j 0).toNat)
    (S : Nat → Finset Nat) (hS : ∀ i, ∀ t ∈ S i, t < 100000 ∧ Distinct 5 (fun j => (srcs i (5 * t + j)).toNat) ∧
      SameOrder 5 (fun j => (srcs i (5 * t + j)).toNat) (fun j => ((v i).getD j 0).toNat)) (ho : ∀ i, 1239 ≤ (S i).card) :
    ∃ w : Nat → Vtest, (∀ i, rgbPermutationsStat 5 sortIndex lookup (srcs i) 100000 = .ok (w i)) ∧
      FailsLow ((List.range psamples).map fun i => vtestPvalue gammaTail (w i)) := by
  have h5 : Nat.factorial 5 = 120 := by decide
  have hoq : ∀ i, (1239 : ℚ) ≤ (S i).card := fun i => by exact_mod_cast ho i
  choose w h1 h2 h3 using fun i => C140_order hs hl 5 5 rfl (by norm_num) (srcs i) 100000 (by norm_num [h5]) (v i) (hv i) (hd i) (S i) (hS i)
    (by rw [h5]; norm_num; linarith [hoq i])
  refine ⟨w, h1, C137_low _ fun p hp => ?_⟩
  obtain ⟨i, -, rfl⟩ := List.mem_map.1 hp
  have h4 : (197 : ℚ) ≤ (w i).chisq := by
    refine le_trans ?_ (h3 i)
    rw [h5, le_div_iff₀ (by norm_num)]
    have := hoq i
    have h6 : (1239 - 2500 / 3 : ℚ) ^ 2 ≤ ((S i).card - 2500 / 3) ^ 2 := pow_le_pow_left₀ (by norm_num) (by linarith) 2
    norm_num at h6 ⊢
    linarith
  refine vtestPvalue_low (w i) (by rw [h2 i, h5]; norm_num) 197 (by norm_num) (by exact_mod_cast h4) ?_
  rw [h2 i, h5]
  norm_num

/-- A generator whose lowest bit is stuck, in a run of 100 samples of 40000 matrices. -/
example (f : Nat → Src) : ∃ w : Nat → Vtest, (∀ i, (diehardRank32 32 (fun k => f i k <<< 1) 40000 GBState.init).map Prod.fst = .ok (w i)) ∧
    FailsLow ((List.range 100).map fun i => vtestPvalue gammaTail (w i)) := by
  refine C140_parity 40000 (by norm_num) 100 (fun i k => f i k <<< 1) (fun _ => 1) (fun _ => by decide) fun i k _ => ?_
  rw [Finset.sum_eq_single (0 : Fin 32)]
  · simp [wordVec]
  · intro j _ hj
    have h0 : wordVec 1 j = 0 := by
      revert j
      decide
    rw [h0, zero_mul]
  · intro h
    exact absurd (Finset.mem_univ _) h

/-- A counter (of which the tuples are all increasing). -/
example : ∃ w : Nat → Vtest,
    (∀ i, rgbPermutationsStat 5 mergeIndex (fun k => (List.range k).permutations) (fun k => BitVec.ofNat 32 (500000 * (i % 8000) + k)) 100000 = .ok (w i)) ∧
    FailsLow ((List.range 100).map fun i => vtestPvalue gammaTail (w i)) := by
  have hval : ∀ i t j, t < 100000 → j < 5 → (BitVec.ofNat 32 (500000 * (i % 8000) + (5 * t + j))).toNat = 500000 * (i % 8000) + (5 * t + j) := fun i t j ht hj => by
    rw [BitVec.toNat_ofNat, Nat.mod_eq_of_lt]
    have := Nat.mod_lt i (show 0 < 8000 by norm_num)
    omega
  have hv : ∀ j < 5, (([1, 2, 3, 4, 5] : List UInt).getD j 0).toNat = j + 1 := by decide
  refine C140_default mergeIndex_ok (fun k => permutations_ok k) 100 (fun i k => BitVec.ofNat 32 (500000 * (i % 8000) + k)) (fun _ => [1, 2, 3, 4, 5]) (fun _ => rfl)
    (fun _ a ha b hb e => ?_) (fun _ => Finset.range 100000) (fun i t ht => ?_) fun _ => by rw [Finset.card_range]; norm_num
  · simp only [hv a ha, hv b hb] at e
    omega
  · have ht' := Finset.mem_range.1 ht
    refine ⟨ht', fun a ha b hb e => ?_, fun a ha b hb => ?_⟩
    · simp only [hval i t a ht' ha, hval i t b ht' hb] at e
      omega
    · simp only [hval i t a ht' ha, hval i t b ht' hb, hv a ha, hv b hb]
      omega

end Dh
