import Verif.Props.RankTests
import Mathlib.Algebra.Order.BigOperators.Ring.Finset
import Mathlib.LinearAlgebra.Matrix.Rank
/-
C125: what the rank test of 32x32 matrices always finds.
-/
namespace Dh
open Spec

namespace Spec

/-- A word as a vector over GF(2). -/
def wordVec (w : UInt) : Fin 32 → ZMod 2 := fun j => if w.getLsbD j then 1 else 0

/-- The probability, as given in the program, that a random 32x32 matrix has at most the rank `d`, for `d = 29, 30, 31`. -/
def rankAtMost (d : Nat) : ℚ := if d = 29 then 0.0052854502 else if d = 30 then 0.1336357146 else 0.7112119048

end Spec

theorem used4 (a b c d a' b' c' d' : ℚ) (ha : 5 ≤ a') (hb : 5 ≤ b') (hc : 5 ≤ c') (hd : 5 ≤ d') :
    usedCells 5 (List.replicate 29 ((0 : ℚ), (0 : ℚ)) ++ [(a, a'), (b, b'), (c, c'), (d, d')]) = [(a, a'), (b, b'), (c, c'), (d, d')] := by
  have e : ¬ (5 : ℚ) ≤ 0 := by norm_num
  have h1 : bigCells 5 (List.replicate 29 ((0 : ℚ), (0 : ℚ)) ++ [(a, a'), (b, b'), (c, c'), (d, d')]) = [(a, a'), (b, b'), (c, c'), (d, d')] := by
    rw [bigCells, List.filter_append, List.filter_replicate_of_neg (by simp), List.nil_append, List.filter_eq_self]
    simp [ha, hb, hc, hd]
  have h2 : smallCells 5 (List.replicate 29 ((0 : ℚ), (0 : ℚ)) ++ [(a, a'), (b, b'), (c, c'), (d, d')]) = List.replicate 29 (0, 0) := by
    rw [smallCells, List.filter_append, List.filter_replicate_of_pos (by simp)]
    rw [List.filter_eq_nil_iff.2 (by simp [ha, hb, hc, hd]), List.append_nil]
  rw [usedCells, h1, h2, if_neg, List.append_nil]
  rintro ⟨-, h⟩
  rw [pooled] at h
  dsimp only at h
  rw [List.map_replicate, List.sum_replicate, smul_zero] at h
  exact e h

/-- The statistic for 946 matrices or more. -/
theorem rank32_stat (r : Nat) (src : Src) (hr : 0 < r) (hr32 : r ≤ 32) (hw : Width r src) (n : Nat) (hn : 946 ≤ n) :
    ∃ w, (diehardRank32 r src n GBState.init).map Prod.fst = .ok w ∧ w.ndof = 3 ∧
      w.chisq = pearson (rankTally r src 32 32 n (· ≤ 29), n * 0.0052854502) + (pearson (rankTally r src 32 32 n (· = 30), n * 0.1283502644) +
        (pearson (rankTally r src 32 32 n (· = 31), n * 0.5775761902) + pearson (rankTally r src 32 32 n (· = 32), n * 0.2887880952))) := by
  have h : (946 : ℚ) ≤ n := by exact_mod_cast hn
  rw [C67_rank_32x32 r src hr hr32 hw]
  obtain ⟨w, h1, h2, -, h3, -⟩ := C16_vtest_eval ⟨33, 0, 5,
        List.replicate 29 0 ++ [(rankTally r src 32 32 n (· ≤ 29) : ℚ), rankTally r src 32 32 n (· = 30),
          rankTally r src 32 32 n (· = 31), rankTally r src 32 32 n (· = 32)],
        List.replicate 29 0 ++ [(n * 0.0052854502 : ℚ), n * 0.1283502644, n * 0.5775761902,
          n * 0.2887880952], 0⟩ (by simp) (by simp) (by norm_num)
  have hz : ∀ a b c d a' b' c' d' : ℚ, ((List.replicate 29 0 ++ [a, b, c, d]).zip (List.replicate 29 0 ++ [a', b', c', d'])) =
      List.replicate 29 ((0 : ℚ), (0 : ℚ)) ++ [(a, a'), (b, b'), (c, c'), (d, d')] := by
    intro a b c d a' b' c' d'
    rw [List.zip_append (by simp), List.zip_replicate, Nat.min_self]
    rfl
  have h5 : ∀ p : ℚ, 0.0052854502 ≤ p → 5 ≤ n * p := by
    intro p hp
    have : (946 : ℚ) * 0.0052854502 ≤ n * p := mul_le_mul h hp (by norm_num) (by linarith)
    norm_num at this
    linarith
  have hu := used4 (rankTally r src 32 32 n (· ≤ 29)) (rankTally r src 32 32 n (· = 30)) (rankTally r src 32 32 n (· = 31)) (rankTally r src 32 32 n (· = 32)) _ _ _ _ (h5 0.0052854502 (by norm_num)) (h5 0.1283502644 (by norm_num))
    (h5 0.5775761902 (by norm_num)) (h5 0.2887880952 (by norm_num))
  dsimp only at h2 h3
  rw [hz, hu] at h2 h3
  refine ⟨w, h1, ?_, ?_⟩
  · rw [h3 rfl]
    simp only [List.length_cons, List.length_nil]
    norm_num
  · rw [h2, List.map_cons, List.map_cons, List.map_cons, List.map_cons, List.map_nil, List.sum_cons, List.sum_cons, List.sum_cons, List.sum_cons, List.sum_nil,
      add_zero]

/-- The statistic is at least `n (1 / P - 1)` if the matrices have at most a rank that a random matrix has with probability `P`. -/
theorem rank32_bound (r : Nat) (src : Src) (hr : 0 < r) (hr32 : r ≤ 32) (hw : Width r src) (n d : Nat) (hn : 946 ≤ n) (hd : d = 29 ∨ d = 30 ∨ d = 31)
    (h : ∀ t < n, (sampleMatrix r src 32 32 t).rank ≤ d) :
    ∃ w, (diehardRank32 r src n GBState.init).map Prod.fst = .ok w ∧ w.ndof = 3 ∧ n * (1 / rankAtMost d - 1) ≤ w.chisq ∧
      (d = 29 → w.chisq = n * (1 / rankAtMost d - 1)) := by
  obtain ⟨w, h1, h2, h3⟩ := rank32_stat r src hr hr32 hw n hn
  refine ⟨w, h1, h2, ?_⟩
  have hc := (C67_conserved r src n).1
  have h0 : ∀ k, d < k → rankTally r src 32 32 n (· = k) = 0 := by
    intro k hk
    rw [rankTally, List.countP_eq_zero]
    intro a ha
    obtain ⟨t, ht, rfl⟩ := List.mem_map.1 ha
    have := h t (List.mem_range.1 ht)
    simp only [decide_eq_true_eq]
    omega
  have hn0 : (0 : ℚ) < n := by
    have : 0 < n := by omega
    exact_mod_cast this
  revert hc h3
  generalize hA : rankTally r src 32 32 n (· ≤ 29) = a
  generalize hB : rankTally r src 32 32 n (· = 30) = b
  generalize hC : rankTally r src 32 32 n (· = 31) = c
  generalize hD : rankTally r src 32 32 n (· = 32) = e
  intro h3 hc
  have hcq : (a : ℚ) + b + c + e = n := by exact_mod_cast hc
  rw [h3]
  simp only [pearson]
  rcases hd with rfl | rfl | rfl
  · have hb : b = 0 := by rw [← hB, h0 30 (by omega)]
    have hc0 : c = 0 := by rw [← hC, h0 31 (by omega)]
    have he : e = 0 := by rw [← hD, h0 32 (by omega)]
    subst hb hc0 he
    have ha : (a : ℚ) = n := by simpa using hcq
    have key : (n : ℚ) * (1 / rankAtMost 29 - 1) = (a - n * 0.0052854502) ^ 2 / (n * 0.0052854502) + ((((0 : Nat) : ℚ) - n * 0.1283502644) ^ 2 / (n * 0.1283502644) +
        ((((0 : Nat) : ℚ) - n * 0.5775761902) ^ 2 / (n * 0.5775761902) + (((0 : Nat) : ℚ) - n * 0.2887880952) ^ 2 / (n * 0.2887880952))) := by
      rw [ha, rankAtMost, if_pos rfl]
      field_simp
      norm_num
      try ring
    exact ⟨key.le, fun _ => key.symm⟩
  · have hc0 : c = 0 := by rw [← hC, h0 31 (by omega)]
    have he : e = 0 := by rw [← hD, h0 32 (by omega)]
    subst hc0 he
    refine ⟨?_, fun h => by omega⟩
    have hb : (b : ℚ) = n - a := by simp at hcq; linarith
    have key : (a - n * 0.0052854502) ^ 2 / (n * 0.0052854502) + (((b : ℚ) - n * 0.1283502644) ^ 2 / (n * 0.1283502644) +
        ((((0 : Nat) : ℚ) - n * 0.5775761902) ^ 2 / (n * 0.5775761902) + (((0 : Nat) : ℚ) - n * 0.2887880952) ^ 2 / (n * 0.2887880952))) -
        n * (1 / rankAtMost 30 - 1) = (a / 0.0052854502 - b / 0.1283502644) ^ 2 * (0.0052854502 * 0.1283502644 / (0.1336357146 * n)) := by
      rw [rankAtMost, if_neg (by norm_num), if_pos rfl, hb]
      field_simp
      norm_num
      try ring
    have : (0 : ℚ) ≤ (a / 0.0052854502 - b / 0.1283502644) ^ 2 * (0.0052854502 * 0.1283502644 / (0.1336357146 * n)) := by positivity
    linarith
  · have he : e = 0 := by rw [← hD, h0 32 (by omega)]
    subst he
    refine ⟨?_, fun h => by omega⟩
    have hb : (c : ℚ) = n - a - b := by simp at hcq; linarith
    have key : (a - n * 0.0052854502) ^ 2 / (n * 0.0052854502) + (((b : ℚ) - n * 0.1283502644) ^ 2 / (n * 0.1283502644) +
        (((c : ℚ) - n * 0.5775761902) ^ 2 / (n * 0.5775761902) + (((0 : Nat) : ℚ) - n * 0.2887880952) ^ 2 / (n * 0.2887880952))) -
        n * (1 / rankAtMost 31 - 1) = (a / 0.0052854502 - b / 0.1283502644) ^ 2 * (0.0052854502 * 0.1283502644 / (0.7112119048 * n)) +
          (a / 0.0052854502 - c / 0.5775761902) ^ 2 * (0.0052854502 * 0.5775761902 / (0.7112119048 * n)) +
          (b / 0.1283502644 - c / 0.5775761902) ^ 2 * (0.1283502644 * 0.5775761902 / (0.7112119048 * n)) := by
      rw [rankAtMost, if_neg (by norm_num), if_neg (by norm_num), hb]
      field_simp
      norm_num
      try ring
    have h5 : (0 : ℚ) ≤ (a / 0.0052854502 - b / 0.1283502644) ^ 2 * (0.0052854502 * 0.1283502644 / (0.7112119048 * n)) +
          (a / 0.0052854502 - c / 0.5775761902) ^ 2 * (0.0052854502 * 0.5775761902 / (0.7112119048 * n)) +
          (b / 0.1283502644 - c / 0.5775761902) ^ 2 * (0.1283502644 * 0.5775761902 / (0.7112119048 * n)) := by positivity
    linarith

theorem wordVec_row (src : Src) (t : Nat) (i : Fin 32) : sampleMatrix 32 src 32 32 t i = wordVec (src (32 * t + i)) := by
  funext j
  have hj := j.2
  have h1 : (32 * (32 * t + i) + (31 - j)) / 32 = 32 * t + i.1 := by omega
  have h2 : 32 - 1 - (32 * (32 * t + i) + (31 - j)) % 32 = j.1 := by omega
  rw [sampleMatrix, wordVec, msbCat, h1, h2]

/-- C125: if the words of a generator of 32 bits lie in a space of at most `d` dimensions over GF(2), `d` being 29, 30 or 31, then the statistic of the
rank test, with 3 degrees of freedom, is at least 188, 6.4 or 0.4 times the number of matrices (at least 946; the default is 40000); in at most 29
dimensions it is the same for all such generators. -/
theorem C125_span (src : Src) (V : Submodule (ZMod 2) (Fin 32 → ZMod 2)) (n d : Nat) (hn : 946 ≤ n) (hd : d = 29 ∨ d = 30 ∨ d = 31)
    (hV : Module.finrank (ZMod 2) V ≤ d) (h : ∀ k < 32 * n, wordVec (src k) ∈ V) :
    ∃ w, (diehardRank32 32 src n GBState.init).map Prod.fst = .ok w ∧ w.ndof = 3 ∧ n * (1 / rankAtMost d - 1) ≤ w.chisq ∧
      (d = 29 → w.chisq = n * (1 / rankAtMost d - 1)) := by
  refine rank32_bound 32 src (by norm_num) le_rfl (fun k i hi => BitVec.getLsbD_of_ge _ _ hi) n d hn hd fun t ht => ?_
  rw [Matrix.rank_eq_finrank_span_row]
  refine le_trans (Submodule.finrank_mono (Submodule.span_le.2 ?_)) hV
  rintro _ ⟨i, rfl⟩
  have : (sampleMatrix 32 src 32 32 t).row i = wordVec (src (32 * t + i)) := wordVec_row src t i
  rw [this]
  exact h _ (by have := i.2; omega)

/-- C125: so a file of at most 31 words, read again and again, is always found out. -/
theorem C125_period (src : Src) (q n : Nat) (hn : 946 ≤ n) (hq : 0 < q) (hq31 : q ≤ 31) (h : ∀ k, src (k + q) = src k) :
    ∃ w, (diehardRank32 32 src n GBState.init).map Prod.fst = .ok w ∧ w.ndof = 3 ∧ 0.4 * n ≤ w.chisq := by
  have hmod : ∀ k, src k = src (k % q) := by
    intro k
    conv_lhs => rw [← Nat.mod_add_div k q]
    generalize k / q = m
    induction m with
    | zero => simp
    | succ m ih => rw [Nat.mul_succ, ← Nat.add_assoc, h, ih]
  let V := Submodule.span (ZMod 2) (Set.range fun i : Fin q => wordVec (src i))
  obtain ⟨w, h1, h2, h3, -⟩ := C125_span src V n 31 hn (.inr (.inr rfl)) ((finrank_range_le_card _).trans (by simpa using hq31)) fun k _ => by
    rw [hmod k]
    exact Submodule.subset_span ⟨⟨k % q, Nat.mod_lt _ hq⟩, rfl⟩
  refine ⟨w, h1, h2, le_trans ?_ h3⟩
  rw [mul_comm]
  refine mul_le_mul_of_nonneg_left ?_ (Nat.cast_nonneg n)
  norm_num [rankAtMost]

/-- C125: and so is a generator of which the bits in some places always have an even sum. -/
theorem C125_parity (src : Src) (m : UInt) (n : Nat) (hn : 946 ≤ n) (hm : m ≠ 0)
    (h : ∀ k < 32 * n, ∑ j : Fin 32, wordVec m j * wordVec (src k) j = 0) :
    ∃ w, (diehardRank32 32 src n GBState.init).map Prod.fst = .ok w ∧ w.ndof = 3 ∧ 0.4 * n ≤ w.chisq := by
  let f : (Fin 32 → ZMod 2) →ₗ[ZMod 2] ZMod 2 := ∑ j : Fin 32, wordVec m j • LinearMap.proj j
  have hf : ∀ v, f v = ∑ j : Fin 32, wordVec m j * v j := fun v => by simp [f]
  have hker : Module.finrank (ZMod 2) (LinearMap.ker f) ≤ 31 := by
    have h1 := LinearMap.finrank_range_add_finrank_ker f
    rw [Module.finrank_fin_fun] at h1
    have h2 : f ≠ 0 := by
      intro h0
      refine hm (BitVec.eq_of_getLsbD_eq fun i hi => ?_)
      have h3 := hf (Pi.single ⟨i, hi⟩ 1)
      rw [h0, LinearMap.zero_apply, Finset.sum_eq_single (⟨i, hi⟩ : Fin 32) (fun b _ hb => by rw [Pi.single_eq_of_ne hb, mul_zero])
        (fun hb => absurd (Finset.mem_univ _) hb), Pi.single_eq_same, mul_one, wordVec] at h3
      by_contra h4
      have h5 : m.getLsbD i = true := by simpa using h4
      simp [h5] at h3
    have h3 : 0 < Module.finrank (ZMod 2) (LinearMap.range f) := by
      rw [Module.finrank_pos_iff]
      rw [Submodule.nontrivial_iff_ne_bot]
      intro h4
      exact h2 (LinearMap.range_eq_bot.1 h4)
    omega
  obtain ⟨w, h1, h2, h3, -⟩ := C125_span src (LinearMap.ker f) n 31 hn (.inr (.inr rfl)) hker fun k hk => by
    rw [LinearMap.mem_ker, hf, h k hk]
  refine ⟨w, h1, h2, le_trans ?_ h3⟩
  rw [mul_comm]
  refine mul_le_mul_of_nonneg_left ?_ (Nat.cast_nonneg n)
  norm_num [rankAtMost]

/-- A source whose words are all 5: a default run has the statistic 7527919.4 with 3 degrees of freedom. -/
example : ∃ w, (diehardRank32 32 (fun _ => 5) 40000 GBState.init).map Prod.fst = .ok w ∧ w.ndof = 3 ∧ 7500000 < w.chisq := by
  obtain ⟨w, h1, h2, -, h3⟩ := C125_span (fun _ => 5) (Submodule.span (ZMod 2) {wordVec 5}) 40000 29 (by norm_num) (.inl rfl)
    ((finrank_span_le_card _).trans (by simp)) fun k _ => Submodule.subset_span rfl
  refine ⟨w, h1, h2, ?_⟩
  rw [h3 rfl]
  norm_num [rankAtMost]

/-- A source whose lowest bit is always 0 has at least 16000. -/
example (f : Src) : ∃ w, (diehardRank32 32 (fun k => f k <<< 1) 40000 GBState.init).map Prod.fst = .ok w ∧ w.ndof = 3 ∧ 16000 ≤ w.chisq := by
  obtain ⟨w, h1, h2, h3⟩ := C125_parity (fun k => f k <<< 1) 1 40000 (by norm_num) (by decide) fun k _ => by
    rw [Finset.sum_eq_single (0 : Fin 32)]
    · simp [wordVec]
    · intro b _ hb
      have : wordVec 1 b = 0 := by
        revert hb
        revert b
        decide +kernel
      rw [this, zero_mul]
    · intro h
      exact absurd (Finset.mem_univ _) h
  refine ⟨w, h1, h2, le_trans (by norm_num) h3⟩

end Dh
