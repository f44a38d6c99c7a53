import Verif.Props.BitdistMean
import Verif.Props.SqueezePower
/-
C149: what rgb_bitdist always finds.
-/
namespace Dh
open Spec

namespace Spec

/-- How many of the 64 tuples of `nb` bits of sample `t` are `v`. -/
def tupleHits (r : Nat) (src : Src) (nb v t : Nat) : Nat := hits (tupleBits nb v) fun (b : Fin 64) (i : Fin nb) => msbCat r src (nb * (64 * t + b) + i)

/-- In how many of `n` samples the tuple `v` occurs `c` times. -/
def samplesWith (r : Nat) (src : Src) (nb v n c : Nat) : Nat := (List.range n).countP fun t => decide (tupleHits r src nb v t = c)

end Spec

/-- **C149.** The statistic of rgb_bitdist for the tuple `v` is at least `(o - e)²/e` if the tuple occurs `c` times in `o` samples and in `e` expected ones, `e` being
20 or more; it has at most 64 degrees of freedom, and at least one if two numbers of occurrences are expected in 20 samples or more. -/
theorem C149_cell (r : Nat) (src : Src) (nb n v : Nat) (hr : 0 < r) (h32 : r ≤ 32) (hw : Width r src) (h0 : 0 < nb) (hnb : nb < 32) (hv : v < 2 ^ nb)
    (h2 : 2 ≤ (tupleCells nb n).card) :
    ∃ w, bitdistStat r src nb n v = .ok w ∧ 0 < w.ndof ∧ w.ndof ≤ 64 ∧
      ∀ c < 65, 20 ≤ n * tupleProb nb c → ((samplesWith r src nb v n c : ℚ) - n * tupleProb nb c) ^ 2 / (n * tupleProb nb c) ≤ w.chisq := by
  obtain ⟨w, h1, h3, -, h4, -⟩ := C16_vtest_eval { vtestCreate 65 with
      cutoff := 20
      x := (List.range 65).map fun c => (samplesWith r src nb v n c : ℚ)
      y := (List.range 65).map fun c => (n : ℚ) * tupleProb nb c } (by simp [vtestCreate]) (by simp [vtestCreate]) (by norm_num)
  refine ⟨w, (bitdistStat_vtest r src nb n v hr h32 hw h0 hnb hv).trans h1, ?_⟩
  have h4' : w.ndof = ((usedCells 20 ((List.range 65).map fun c => ((samplesWith r src nb v n c : ℚ), (n : ℚ) * tupleProb nb c))).length + (2 ^ 32 - 1)) % 2 ^ 32 := by
    rw [h4 rfl, List.zip_map']
  rw [List.zip_map'] at h3
  obtain ⟨l1, l2⟩ := usedCells_length 20 ((List.range 65).map fun c => ((samplesWith r src nb v n c : ℚ), (n : ℚ) * tupleProb nb c))
  have l3 : ((List.range 65).map fun c => ((samplesWith r src nb v n c : ℚ), (n : ℚ) * tupleProb nb c)).countP (fun c => decide (20 ≤ c.2)) = (tupleCells nb n).card := by
    rw [List.countP_map, tupleCells, Finset.card_filter, countP_fin, ← Fin.sum_univ_eq_sum_range]
    refine Finset.sum_congr rfl fun c _ => ?_
    simp
  rw [l3] at l2
  rw [List.length_map, List.length_range] at l1
  refine ⟨by rw [h4']; omega, by rw [h4']; omega, fun c hc h20 => ?_⟩
  rw [h3]
  exact pearson_sum_ge _ (usedCells_pos 20 (by norm_num) _) ((samplesWith r src nb v n c : ℚ), (n : ℚ) * tupleProb nb c)
    (bigCells_used 20 _ _ (List.mem_map.2 ⟨c, List.mem_range.2 hc, rfl⟩) h20)

/-- With tuples of 1 to 12 bits (the widths of a default run) and 100000 samples or more (the default), two numbers of occurrences are expected in 121 samples or more. -/
theorem tuple_two (nb n : Nat) (h0 : 0 < nb) (h12 : nb ≤ 12) (hn : 100000 ≤ n) :
    ∃ c d, c < 65 ∧ d < 65 ∧ c ≠ d ∧ (121 : ℚ) ≤ n * tupleProb nb c ∧ (121 : ℚ) ≤ n * tupleProb nb d := by
  have hnq : (100000 : ℚ) ≤ n := by exact_mod_cast hn
  have key : ∀ q : ℚ, (0.00121 : ℚ) ≤ q → 121 ≤ n * q := fun q hq => by nlinarith
  have e : ∀ c d, c < 65 → d < 65 → c ≠ d → (0.00121 : ℚ) ≤ tupleProb nb c → (0.00121 : ℚ) ≤ tupleProb nb d →
      ∃ c d, c < 65 ∧ d < 65 ∧ c ≠ d ∧ (121 : ℚ) ≤ n * tupleProb nb c ∧ (121 : ℚ) ≤ n * tupleProb nb d :=
    fun c d h1 h2 h3 h4 h5 => ⟨c, d, h1, h2, h3, key _ h4, key _ h5⟩
  interval_cases nb
  · refine e 32 31 ?_ ?_ ?_ ?_ ?_ <;> decide +kernel
  · refine e 16 15 ?_ ?_ ?_ ?_ ?_ <;> decide +kernel
  · refine e 8 7 ?_ ?_ ?_ ?_ ?_ <;> decide +kernel
  · refine e 4 3 ?_ ?_ ?_ ?_ ?_ <;> decide +kernel
  · refine e 2 1 ?_ ?_ ?_ ?_ ?_ <;> decide +kernel
  all_goals refine e 1 0 ?_ ?_ ?_ ?_ ?_ <;> decide +kernel

theorem tuple_cells_two (nb n : Nat) (h0 : 0 < nb) (h12 : nb ≤ 12) (hn : 100000 ≤ n) : 2 ≤ (tupleCells nb n).card := by
  obtain ⟨c, d, h1, h2, h3, h4, h5⟩ := tuple_two nb n h0 h12 hn
  rw [← Finset.card_pair h3]
  refine Finset.card_le_card fun x hx => ?_
  rw [tupleCells, Finset.mem_filter, Finset.mem_range]
  rcases Finset.mem_insert.1 hx with rfl | hx
  · exact ⟨h1, by linarith⟩
  · rw [Finset.mem_singleton.1 hx]
    exact ⟨h2, by linarith⟩

/-- **C149.** If in a run the numbers of samples in which the tuple picked occurs so and so often are, for one such number, off their expectation `e` (20 or more) by `11 √e` or more,
the p-value is at most 0.0004. -/
theorem C149_off (r : Nat) (src : Src) (nb n v : Nat) (hr : 0 < r) (h32 : r ≤ 32) (hw : Width r src) (h0 : 0 < nb) (h12 : nb ≤ 12) (hv : v < 2 ^ nb) (hn : 100000 ≤ n)
    (c : Nat) (hc : c < 65) (h20 : 20 ≤ n * tupleProb nb c) (h : 121 * (n * tupleProb nb c) ≤ ((samplesWith r src nb v n c : ℚ) - n * tupleProb nb c) ^ 2) :
    ∃ w, bitdistStat r src nb n v = .ok w ∧ 0 ≤ vtestPvalue gammaTail w ∧ vtestPvalue gammaTail w ≤ 0.0004 := by
  obtain ⟨w, h1, h2, h3, h4⟩ := C149_cell r src nb n v hr h32 hw h0 (by omega) hv (tuple_cells_two nb n h0 h12 hn)
  refine ⟨w, h1, ?_⟩
  have h5 : (121 : ℚ) ≤ w.chisq := by
    refine le_trans ?_ (h4 c hc h20)
    rw [le_div_iff₀ (by linarith)]
    exact h
  refine vtestPvalue_low w h2 121 (by norm_num) (by exact_mod_cast h5) ?_
  have : (w.ndof : ℝ) ≤ 64 := by exact_mod_cast h3
  linarith

/-- **C149.** So the test fails on a generator for which, in every run, all samples contain the tuple picked equally often. -/
theorem C149_same (r nb n : Nat) (hr : 0 < r) (h32 : r ≤ 32) (h0 : 0 < nb) (h12 : nb ≤ 12) (hn : 100000 ≤ n) (m : Nat) (srcs : Nat → Src) (hw : ∀ i, Width r (srcs i))
    (v : Nat → Nat) (hv : ∀ i, v i < 2 ^ nb) (h : ∀ i, ∀ t < n, tupleHits r (srcs i) nb (v i) t = tupleHits r (srcs i) nb (v i) 0) :
    ∃ w : Nat → Vtest, (∀ i, bitdistStat r (srcs i) nb n (v i) = .ok (w i)) ∧ FailsLow ((List.range m).map fun i => vtestPvalue gammaTail (w i)) := by
  have key : ∀ i, ∃ w, bitdistStat r (srcs i) nb n (v i) = .ok w ∧ 0 ≤ vtestPvalue gammaTail w ∧ vtestPvalue gammaTail w ≤ 0.0004 := by
    intro i
    have h3 : ∀ c < 65, c ≠ tupleHits r (srcs i) nb (v i) 0 → (121 : ℚ) ≤ n * tupleProb nb c →
        ∃ w, bitdistStat r (srcs i) nb n (v i) = .ok w ∧ 0 ≤ vtestPvalue gammaTail w ∧ vtestPvalue gammaTail w ≤ 0.0004 := by
      intro c hc hne h121
      refine C149_off r (srcs i) nb n (v i) hr h32 (hw i) h0 h12 (hv i) hn c hc (by linarith) ?_
      have h4 : samplesWith r (srcs i) nb (v i) n c = 0 := by
        refine List.countP_eq_zero.2 fun t ht => ?_
        rw [h i t (List.mem_range.1 ht)]
        simpa using hne.symm
      rw [h4]
      push_cast
      nlinarith
    obtain ⟨c, d, h1, h2, hcd, h4, h5⟩ := tuple_two nb n h0 h12 hn
    by_cases e : c = tupleHits r (srcs i) nb (v i) 0
    · exact h3 d h2 (fun e' => hcd (e.trans e'.symm)) h5
    · exact h3 c h1 e h4
  choose w h1 h2 using key
  refine ⟨w, h1, C137_low _ fun p hp => ?_⟩
  obtain ⟨i, -, rfl⟩ := List.mem_map.1 hp
  exact h2 i

/-- **C149.** For example on a generator that repeats, within a run, words of `64 nb` bits in all, whichever tuple is picked. -/
theorem C149_period (r nb n q : Nat) (hr : 0 < r) (h32 : r ≤ 32) (h0 : 0 < nb) (h12 : nb ≤ 12) (hn : 100000 ≤ n) (m : Nat) (srcs : Nat → Src) (hw : ∀ i, Width r (srcs i))
    (hq : r * q = 64 * nb) (h : ∀ i k, srcs i (k + q) = srcs i k) (v : Nat → Nat) (hv : ∀ i, v i < 2 ^ nb) :
    ∃ w : Nat → Vtest, (∀ i, bitdistStat r (srcs i) nb n (v i) = .ok (w i)) ∧ FailsLow ((List.range m).map fun i => vtestPvalue gammaTail (w i)) := by
  refine C149_same r nb n hr h32 h0 h12 hn m srcs hw v hv fun i t _ => ?_
  have e1 : ∀ k, msbCat r (srcs i) (k + r * q) = msbCat r (srcs i) k := by
    intro k
    rw [msbCat, msbCat, Nat.add_mul_div_left _ _ hr, Nat.add_mul_mod_self_left, h]
  have e2 : ∀ t k, msbCat r (srcs i) (k + r * q * t) = msbCat r (srcs i) k := by
    intro t
    induction t with
    | zero => simp
    | succ t ih => intro k; rw [Nat.mul_succ, ← Nat.add_assoc, e1, ih]
  rw [tupleHits, tupleHits]
  congr 1
  funext b j
  rw [show nb * (64 * t + b) + j = (nb * (64 * 0 + b) + j) + r * q * t by rw [hq]; ring, e2]

/-- A default run of width 3 on a source of words of 32 bits with the period 6: always a failure. -/
example (f : Src) (v : Nat → Nat) (hv : ∀ i, v i < 2 ^ 3) :
    ∃ w : Nat → Vtest, (∀ i, bitdistStat 32 (fun k => f (k % 6)) 3 100000 (v i) = .ok (w i)) ∧ FailsLow ((List.range 100).map fun i => vtestPvalue gammaTail (w i)) :=
  C149_period 32 3 100000 6 (by norm_num) le_rfl (by norm_num) (by norm_num) (by norm_num) 100 (fun _ k => f (k % 6))
    (fun _ k i hi => BitVec.getLsbD_of_ge _ _ hi) (by norm_num) (fun _ k => by simp) v hv

/-- All tuples of two bits of these two words are 2 (binary 10): 2 occurs 32 times in a sample the other half of which is 0. -/
example : tupleHits 32 (fun k => if k < 2 then 0xAAAAAAAA else 0) 2 2 0 = 32 := by decide +kernel

end Dh
