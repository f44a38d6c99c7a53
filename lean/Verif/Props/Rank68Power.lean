import Verif.Props.OrderPower
/-
C148: what the rank test of 6x8 matrices always finds.
-/
namespace Dh
open Spec

namespace Spec

/-- The low byte of a word as a vector over GF(2). -/
def byteVec (w : UInt) : Fin 8 → ZMod 2 := fun j => if w.getLsbD j then 1 else 0

/-- The probability, as given in the program, that a random 6x8 matrix has the rank `d`, for `d = 3, ..., 6`. -/
def rank68Prob (d : Nat) : ℚ := if d = 3 then 0.0000808926 else if d = 4 then 0.00936197 else if d = 5 then 0.217439 else 0.773118

end Spec

theorem used68 (x y a b c d a' b' c' d' : ℚ) (hy : y < 5) (ha : 5 ≤ a') (hb : 5 ≤ b') (hc : 5 ≤ c') (hd : 5 ≤ d') :
    usedCells 5 [((0 : ℚ), (0 : ℚ)), (0, 0), (x, y), (a, a'), (b, b'), (c, c'), (d, d')] = [(a, a'), (b, b'), (c, c'), (d, d')] := by
  have e : ¬ (5 : ℚ) ≤ 0 := by norm_num
  have hy' : ¬ 5 ≤ y := not_le.2 hy
  simp [usedCells, bigCells, smallCells, pooled, hy, ha, hb, hc, hd, e, hy']

/-- **C148.** With 61811 to 33364918 matrices (the default is 100000) the statistic of the 6x8 rank test has 3 degrees of freedom and is the sum of four terms, one for each
of the ranks 3 to 6. -/
theorem C148_stat (r : Nat) (src : Src) (junk : List UInt) (hr : 0 < r) (hr32 : r ≤ 32) (hw : Width r src) (n : Nat) (hn : 61811 ≤ n) (hn' : n ≤ 33364918) :
    ∃ w, (diehardRank68 r src junk n GBState.init).map Prod.fst = .ok w ∧ w.ndof = 3 ∧
      w.chisq = ∑ d ∈ Finset.Icc 3 6, ((rankTally r src 6 8 n (· = d) : ℚ) - n * rank68Prob d) ^ 2 / (n * rank68Prob d) := by
  have h : (61811 : ℚ) ≤ n := by exact_mod_cast hn
  have h' : (n : ℚ) ≤ 33364918 := by exact_mod_cast hn'
  rw [C67_rank_6x8 r src junk hr hr32 hw]
  obtain ⟨w, h1, h2, -, h3, -⟩ := C16_vtest_eval ⟨7, 0, 5,
        [0, 0, (rankTally r src 6 8 n (· ≤ 2) : ℚ), rankTally r src 6 8 n (· = 3), rankTally r src 6 8 n (· = 4),
          rankTally r src 6 8 n (· = 5), rankTally r src 6 8 n (· = 6)],
        [0, 0, (n * 0.000000149858 : ℚ), n * 0.0000808926, n * 0.00936197, n * 0.217439, n * 0.773118], 0⟩ (by simp) (by simp) (by norm_num)
  have hu := used68 (rankTally r src 6 8 n (· ≤ 2)) (n * 0.000000149858) (rankTally r src 6 8 n (· = 3)) (rankTally r src 6 8 n (· = 4))
    (rankTally r src 6 8 n (· = 5)) (rankTally r src 6 8 n (· = 6)) (n * 0.0000808926) (n * 0.00936197) (n * 0.217439) (n * 0.773118)
    (by linarith) (by linarith) (by linarith) (by linarith) (by linarith)
  dsimp only at h2 h3
  simp only [List.zip_cons_cons, List.zip_nil_right] at h2 h3
  rw [hu] at h2 h3
  refine ⟨w, h1, ?_, ?_⟩
  · rw [h3 trivial]
    simp only [List.length_cons, List.length_nil]
    norm_num
  · rw [h2, show Finset.Icc 3 6 = {3, 4, 5, 6} from rfl, Finset.sum_insert (by decide), Finset.sum_insert (by decide), Finset.sum_insert (by decide), Finset.sum_singleton,
      List.map_cons, List.map_cons, List.map_cons, List.map_cons, List.map_nil, List.sum_cons, List.sum_cons, List.sum_cons, List.sum_cons, List.sum_nil, add_zero]
    simp only [pearson, rank68Prob]
    norm_num

theorem byteVec_row (src : Src) (t : Nat) (i : Fin 6) : sampleMatrix 32 src 6 8 t i = byteVec (src (6 * t + i)) := by
  funext j
  have hj := j.2
  have h1 : (32 * (6 * t + i) + (31 - j)) / 32 = 6 * t + i.1 := by omega
  have h2 : 32 - 1 - (32 * (6 * t + i) + (31 - j)) % 32 = j.1 := by omega
  rw [sampleMatrix, byteVec, msbCat, h1, h2]

/-- **C148.** The test fails if in every sample the number of matrices of one of the ranks 3 to 6 is so far from its expectation that the square of the difference is at
least 37 times the expectation. -/
theorem C148_rank (r : Nat) (junk : List UInt) (hr : 0 < r) (hr32 : r ≤ 32) (n : Nat) (hn : 61811 ≤ n) (hn' : n ≤ 33364918) (m : Nat) (srcs : Nat → Src)
    (hw : ∀ i, Width r (srcs i)) (d : Nat → Nat) (hd : ∀ i, 3 ≤ d i ∧ d i ≤ 6)
    (h : ∀ i, 37 * (n * rank68Prob (d i)) ≤ ((rankTally r (srcs i) 6 8 n (· = d i) : ℚ) - n * rank68Prob (d i)) ^ 2) :
    ∃ w : Nat → Vtest, (∀ i, (diehardRank68 r (srcs i) junk n GBState.init).map Prod.fst = .ok (w i)) ∧
      FailsLow ((List.range m).map fun i => vtestPvalue gammaTail (w i)) := by
  choose w h1 h2 h3 using fun i => C148_stat r (srcs i) junk hr hr32 (hw i) n hn hn'
  refine ⟨w, h1, C137_low _ fun p hp => ?_⟩
  obtain ⟨i, -, rfl⟩ := List.mem_map.1 hp
  have hq : ∀ d, 0 < rank68Prob d := fun d => by unfold rank68Prob; split_ifs <;> norm_num
  have hn0 : (0 : ℚ) < n := by
    have : 0 < n := by omega
    exact_mod_cast this
  have hpos : ∀ d, 0 < (n : ℚ) * rank68Prob d := fun d => mul_pos hn0 (hq d)
  have h4 : (37 : ℚ) ≤ (w i).chisq := by
    rw [h3 i]
    refine le_trans ?_ (Finset.single_le_sum (f := fun d => ((rankTally r (srcs i) 6 8 n (· = d) : ℚ) - n * rank68Prob d) ^ 2 / (n * rank68Prob d))
      (fun e _ => div_nonneg (sq_nonneg _) (hpos e).le) (Finset.mem_Icc.2 (hd i)))
    rw [le_div_iff₀ (hpos _)]
    exact h i
  have h5 : (37 : ℝ) ≤ ((w i).chisq : ℝ) := by exact_mod_cast h4
  refine vtestPvalue_low (w i) (by rw [h2 i]; norm_num) 37 (by norm_num) h5 ?_
  rw [h2 i]
  norm_num

/-- **C148.** So it fails if the low bytes lie, in every sample, in a space of at most 5 dimensions. -/
theorem C148_span (junk : List UInt) (n : Nat) (hn : 61811 ≤ n) (hn' : n ≤ 33364918) (m : Nat) (srcs : Nat → Src) (V : Nat → Submodule (ZMod 2) (Fin 8 → ZMod 2))
    (hV : ∀ i, Module.finrank (ZMod 2) (V i) ≤ 5) (h : ∀ i, ∀ k < 6 * n, byteVec (srcs i k) ∈ V i) :
    ∃ w : Nat → Vtest, (∀ i, (diehardRank68 32 (srcs i) junk n GBState.init).map Prod.fst = .ok (w i)) ∧
      FailsLow ((List.range m).map fun i => vtestPvalue gammaTail (w i)) := by
  refine C148_rank 32 junk (by norm_num) le_rfl n hn hn' m srcs (fun _ k i hi => BitVec.getLsbD_of_ge _ _ hi) (fun _ => 6) (fun _ => by norm_num) fun i => ?_
  have h0 : rankTally 32 (srcs i) 6 8 n (· = 6) = 0 := by
    rw [rankTally, List.countP_eq_zero]
    intro a ha
    obtain ⟨t, ht, rfl⟩ := List.mem_map.1 ha
    have ht' := List.mem_range.1 ht
    have h6 : (sampleMatrix 32 (srcs i) 6 8 t).rank ≤ 5 := by
      rw [Matrix.rank_eq_finrank_span_row]
      refine le_trans (Submodule.finrank_mono (Submodule.span_le.2 ?_)) (hV i)
      rintro _ ⟨j, rfl⟩
      have : (sampleMatrix 32 (srcs i) 6 8 t).row j = byteVec (srcs i (6 * t + j)) := byteVec_row _ t j
      rw [this]
      exact h i _ (by have := j.2; omega)
    simp only [decide_eq_true_eq]
    omega
  have hnq : (61811 : ℚ) ≤ n := by exact_mod_cast hn
  rw [h0]
  norm_num [rank68Prob]
  nlinarith

/-- **C148.** For example because the source repeats, within a sample, the low bytes of at most five words. -/
theorem C148_period (junk : List UInt) (n : Nat) (hn : 61811 ≤ n) (hn' : n ≤ 33364918) (m : Nat) (srcs : Nat → Src) (q : Nat) (hq : 0 < q) (hq5 : q ≤ 5)
    (h : ∀ i k, byteVec (srcs i (k + q)) = byteVec (srcs i k)) :
    ∃ w : Nat → Vtest, (∀ i, (diehardRank68 32 (srcs i) junk n GBState.init).map Prod.fst = .ok (w i)) ∧
      FailsLow ((List.range m).map fun i => vtestPvalue gammaTail (w i)) := by
  refine C148_span junk n hn hn' m srcs (fun i => Submodule.span (ZMod 2) (Set.range fun j : Fin q => byteVec (srcs i j)))
    (fun i => (finrank_range_le_card _).trans (by simpa using hq5)) fun i k _ => ?_
  have e : byteVec (srcs i k) = byteVec (srcs i (k % q)) := by
    conv_lhs => rw [← Nat.mod_add_div k q]
    generalize k / q = a
    induction a with
    | zero => simp
    | succ a ih => rw [Nat.mul_succ, ← Nat.add_assoc, h, ih]
  rw [e]
  exact Submodule.subset_span ⟨⟨k % q, Nat.mod_lt _ hq⟩, rfl⟩

/-- **C148.** A generator whose lowest three bits (or any other three bits of the low byte) are always 0 fails. -/
theorem C148_stuck (junk : List UInt) (n : Nat) (hn : 61811 ≤ n) (hn' : n ≤ 33364918) (m : Nat) (srcs : Nat → Src) (s : Finset (Fin 8)) (hs : 3 ≤ s.card)
    (h : ∀ i, ∀ k < 6 * n, ∀ b ∈ s, (srcs i k).getLsbD b = false) :
    ∃ w : Nat → Vtest, (∀ i, (diehardRank68 32 (srcs i) junk n GBState.init).map Prod.fst = .ok (w i)) ∧
      FailsLow ((List.range m).map fun i => vtestPvalue gammaTail (w i)) := by
  refine C148_span junk n hn hn' m srcs (fun _ => Submodule.span (ZMod 2) (Set.range fun j : (sᶜ : Finset (Fin 8)) => (Pi.single j.1 (1 : ZMod 2) : Fin 8 → ZMod 2)))
    (fun i => (finrank_range_le_card _).trans ?_) fun i k hk => ?_
  · rw [Fintype.card_coe, Finset.card_compl, Fintype.card_fin]
    omega
  · have e : byteVec (srcs i k) = ∑ j ∈ sᶜ, byteVec (srcs i k) j • (Pi.single j (1 : ZMod 2) : Fin 8 → ZMod 2) := by
      funext b
      rw [Finset.sum_apply]
      by_cases hb : b ∈ s
      · rw [Finset.sum_eq_zero, byteVec, h i k hk b hb]
        · simp
        · intro j hj
          have : b ≠ j := fun e => Finset.mem_compl.1 hj (e ▸ hb)
          simp [Pi.single_eq_of_ne this]
      · rw [Finset.sum_eq_single_of_mem b (Finset.mem_compl.2 hb)]
        · simp
        · intro j _ hj
          simp [Pi.single_eq_of_ne hj.symm]
    rw [e]
    exact Submodule.sum_mem _ fun j hj => Submodule.smul_mem _ _ (Submodule.subset_span ⟨⟨j, hj⟩, rfl⟩)

/-- A default run on a source whose lowest three bits are 0. -/
example (f : Nat → Src) : ∃ w : Nat → Vtest, (∀ i, (diehardRank68 32 (fun k => f i k <<< 3) [] 100000 GBState.init).map Prod.fst = .ok (w i)) ∧
      FailsLow ((List.range 100).map fun i => vtestPvalue gammaTail (w i)) :=
  C148_stuck [] 100000 (by norm_num) (by norm_num) 100 _ {0, 1, 2} (by decide) fun i k _ b hb => by
    simp only [Finset.mem_insert, Finset.mem_singleton] at hb
    rcases hb with rfl | rfl | rfl <;> simp

end Dh
