import Verif.Props.GcdMean
import Verif.Props.OrderPower
/-
C143: what marsaglia_tsang_gcd always finds.
-/
namespace Dh

open Spec

/-- C143: if no two words of the generator have the greatest common divisor `c` (a cell of its own), the statistic is at least the expected number of pairs that have. -/
theorem C143_missing (fuel : Nat) (w : Src) (n : Nat) (hn : n < 2 ^ 32) (c : Nat) (h2 : 2 ≤ c) (hc : c + 1 < gcdSize n)
    (hw : ∀ p, ∃ q, p ≤ q ∧ q < p + fuel ∧ w q ≠ 0) (h : ∀ p q, w p ≠ 0 → w q ≠ 0 → Nat.gcd (w p).toNat (w q).toNat ≠ c) :
    ∃ v, gcdRun fuel w n = .ok v ∧ v.ndof = gcdSize n - 3 ∧ n * (gnorm / (c : ℚ) ^ 2) ≤ v.chisq := by
  have hl := gcdSize_lt hn
  obtain ⟨st, gt, kt, pos, gs, ds, e1, -, e2, e3, e4, e5, e6, -⟩ := C34_gcd_test gcdSize false fuel w ⟨none, 0⟩ n
    (by simp [GcdStatics.Good]) (Or.inr (by omega)) ⟨by omega, by norm_num⟩ hw
  rw [if_pos rfl] at e2
  obtain ⟨v, f1, f2, f3⟩ := C92_statistic n hn (by omega) gt (by rw [e5, e2])
  refine ⟨v, ?_, f2, ?_⟩
  · rw [gcdRun, e1, Res.bind_ok]
    simp only [e2]
    exact f1
  have hz : gt.getD c 0 = 0 := by
    rw [(e6 (by omega)).2 c, List.count_eq_zero]
    intro hm
    obtain ⟨d, hd, hdc⟩ := List.mem_map.1 hm
    have hdc' : d = c := by omega
    subst hdc'
    obtain ⟨t, ht, hte⟩ := List.mem_iff_getElem.1 hd
    have hlen := (GcdSamples.length e3).1
    have hg := (GcdSamples.get e3 t ht).1
    rw [List.getD_eq_getElem _ _ ht, hte, List.getD_eq_getElem _ _ (by omega), List.getD_eq_getElem _ _ (by omega)] at hg
    have hin : ∀ x ∈ ((List.range pos).map w).filter (· ≠ 0), ∃ p, x = w p ∧ w p ≠ 0 := fun x hx => by
      obtain ⟨a, b⟩ := List.mem_filter.1 hx
      obtain ⟨p, -, rfl⟩ := List.mem_map.1 a
      exact ⟨p, rfl, by simpa using b⟩
    obtain ⟨p, hp1, hp2⟩ := hin _ (List.getElem_mem (l := ((List.range pos).map w).filter (· ≠ 0)) (n := 2 * t) (by omega))
    obtain ⟨q, hq1, hq2⟩ := hin _ (List.getElem_mem (l := ((List.range pos).map w).filter (· ≠ 0)) (n := 2 * t + 1) (by omega))
    rw [hp1, hq1] at hg
    exact h p q hp2 hq2 hg.symm
  have hbig := gcdHyp_big hn (by omega) h2 (show c < gcdSize n by omega)
  have hh : gcdHyp (gcdSize n) c = gnorm / (c : ℚ) ^ 2 := by rw [gcdHyp, if_neg (by omega)]
  rw [f3]
  refine le_trans (le_of_eq ?_) (Finset.single_le_sum (f := fun c => ((gt.getD c 0 : ℚ) - n * gcdHyp (gcdSize n) c) ^ 2 / (n * gcdHyp (gcdSize n) c)) (fun d hd => ?_)
    (Finset.mem_Ico.2 ⟨h2, by omega⟩))
  · rw [hz, ← hh]
    have : (n : ℚ) * gcdHyp (gcdSize n) c ≠ 0 := by linarith
    rw [Nat.cast_zero, zero_sub, neg_sq, sq, mul_div_assoc, div_self this, mul_one]
  · have := gcdHyp_big hn (show 3 ≤ gcdSize n by omega) (Finset.mem_Ico.1 hd).1 (Finset.mem_Ico.1 hd).2
    exact div_nonneg (sq_nonneg _) (by linarith)

/-- C143: a run of the test (with 10000 pairs or more) fails, by its first p-value, on every generator whose lowest bit is stuck: greatest common divisors of odd words are never 2,
those of even words never 3. -/
theorem C143_lowbit (fuel : Nat) (n : Nat) (h4 : 10000 ≤ n) (hn : n < 2 ^ 32) (psamples : Nat) (srcs : Nat → Src) (b : Nat → Bool)
    (hw : ∀ i p, ∃ q, p ≤ q ∧ q < p + fuel ∧ srcs i q ≠ 0) (h : ∀ i k, (srcs i k).getLsbD 0 = b i) :
    ∃ v : Nat → Vtest, (∀ i, gcdRun fuel (srcs i) n = .ok (v i)) ∧ FailsLow ((List.range psamples).map fun i => vtestPvalue gammaTail (v i)) := by
  have hnq : (10000 : ℚ) ≤ n := by exact_mod_cast h4
  obtain ⟨s1, s2⟩ := gcdSize_spec n
  have hgn : (0.6079 : ℚ) < gnorm ∧ gnorm < 0.6080 := by norm_num [gnorm, gcdPi]
  have hg5 : 5 ≤ gcdSize n := by
    by_contra hlt
    have : (gcdSize n : ℚ) ≤ 4 := by exact_mod_cast (by omega : gcdSize n ≤ 4)
    have h0 : (0 : ℚ) ≤ gcdSize n := by positivity
    nlinarith
  have hbit : ∀ i k, (srcs i k).toNat % 2 = (b i).toNat := fun i k => by
    have := h i k
    rw [BitVec.getLsbD, Nat.testBit_zero] at this
    rw [← this]
    rcases Nat.mod_two_eq_zero_or_one (srcs i k).toNat with e | e <;> rw [e] <;> rfl
  have hex : ∀ i, ∃ v, gcdRun fuel (srcs i) n = .ok v ∧ v.ndof = gcdSize n - 3 ∧ n * (gnorm / 9) ≤ v.chisq := fun i => by
    cases hb : b i with
    | true =>
      obtain ⟨v, a1, a2, a3⟩ := C143_missing fuel (srcs i) n hn 2 le_rfl (by omega) (hw i) fun p q _ _ hg => by
        have h1 := hbit i p
        rw [hb] at h1
        have h2 := Nat.gcd_dvd_left (srcs i p).toNat (srcs i q).toNat
        rw [hg] at h2
        simp only [Bool.toNat_true] at h1
        omega
      refine ⟨v, a1, a2, le_trans ?_ a3⟩
      push_cast
      nlinarith
    | false =>
      obtain ⟨v, a1, a2, a3⟩ := C143_missing fuel (srcs i) n hn 3 (by norm_num) (by omega) (hw i) fun p q _ _ hg => by
        have h1 := hbit i p
        have h1' := hbit i q
        rw [hb] at h1 h1'
        have h2 : 2 ∣ Nat.gcd (srcs i p).toNat (srcs i q).toNat := Nat.dvd_gcd (by simp at h1; omega) (by simp at h1'; omega)
        rw [hg] at h2
        omega
      refine ⟨v, a1, a2, le_trans ?_ a3⟩
      norm_num
  choose v h1 h2 h3 using hex
  refine ⟨v, h1, C137_low _ fun p hp => ?_⟩
  obtain ⟨i, -, rfl⟩ := List.mem_map.1 hp
  have hx : (0.0675 * n : ℚ) ≤ (v i).chisq := le_trans (by nlinarith) (h3 i)
  have hxr : (0.0675 * n : ℝ) ≤ ((v i).chisq : ℝ) := by
    have : ((0.0675 * n : ℚ) : ℝ) ≤ ((v i).chisq : ℝ) := by exact_mod_cast hx
    push_cast at this
    exact this
  have hg : (gcdSize n : ℚ) ≤ 0.0079 * n / 10 := by
    have h0 : (0 : ℚ) ≤ gcdSize n := by positivity
    nlinarith
  have hgr : (gcdSize n : ℝ) ≤ 0.0079 * n / 10 := by
    have : ((gcdSize n : ℚ) : ℝ) ≤ ((0.0079 * n / 10 : ℚ) : ℝ) := by exact_mod_cast hg
    push_cast at this
    exact this
  have hnr : (10000 : ℝ) ≤ n := by exact_mod_cast h4
  refine vtestPvalue_low (v i) (by rw [h2 i]; omega) (0.0675 * n) (by positivity) hxr ?_
  rw [h2 i]
  have hf : ((gcdSize n - 3 : ℕ) : ℝ) ≤ gcdSize n := by exact_mod_cast Nat.sub_le _ _
  linarith

/-- Odd words, with the default number of pairs. -/
example (f : Nat → Src) : ∃ v : Nat → Vtest, (∀ i, gcdRun 1 (fun k => f i k ||| 1) 10000000 = .ok (v i)) ∧
    FailsLow ((List.range 100).map fun i => vtestPvalue gammaTail (v i)) := by
  refine C143_lowbit 1 10000000 (by norm_num) (by norm_num) 100 (fun i k => f i k ||| 1) (fun _ => true) (fun i p => ⟨p, le_rfl, by omega, fun e => ?_⟩) fun i k => ?_
  · have := congrArg (fun x : UInt => x.getLsbD 0) e
    simp at this
  · simp

end Dh
