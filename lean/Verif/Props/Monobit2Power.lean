import Verif.Props.Monobit2
import Verif.Props.OrderPower
/-
C150: what dab_monobit2 always finds.
-/
namespace Dh
open Spec

namespace Spec

/-- The expected number of blocks of level `j` with `k` ones. -/
noncomputable def blocksExpected (r n j k : Nat) : ℝ := ((n / 2 ^ (j + 1) : Nat) : ℝ) * ((r * 2 ^ (j + 1)).choose k / 2 ^ (r * 2 ^ (j + 1)))

/-- The cells of level `j` that are used. -/
def blockCells (src : Nat → UInt) (r levels n j : Nat) : Finset Nat := (Finset.range (r * 2 ^ (j + 1) + 1)).filter fun k => 10 < observed src r levels n j k

/-- The chi-square statistic of level `j`. -/
noncomputable def levelStat (src : Nat → UInt) (r levels n j : Nat) : ℝ :=
  ∑ k ∈ blockCells src r levels n j, ((observed src r levels n j k : ℝ) - blocksExpected r n j k) ^ 2 / blocksExpected r n j k

end Spec

theorem levelP_eq (gammaQ : ℝ → ℝ → ℝ) (src : Src) (r L n j : Nat) : levelP gammaQ src r L n j =
    gammaQ ((if blockCells src r L n j = ∅ then 2 ^ 32 - 1 else ((blockCells src r L n j).card : ℝ) - 1) / 2) (levelStat src r L n j / 2) := rfl

theorem blocksExpected_nonneg (r n j k : Nat) : 0 ≤ blocksExpected r n j k := by unfold blocksExpected; positivity

theorem levelStat_nonneg (src : Src) (r L n j : Nat) : 0 ≤ levelStat src r L n j :=
  Finset.sum_nonneg fun k _ => div_nonneg (sq_nonneg _) (blocksExpected_nonneg r n j k)

theorem gammaTail_zero (x : ℝ) : gammaTail 0 x = 0 := by rw [gammaTail, Real.Gamma_zero, div_zero]

/-- The p-values of the levels are probabilities. -/
theorem levelP_unit (src : Src) (r L n j : Nat) : 0 ≤ levelP gammaTail src r L n j ∧ levelP gammaTail src r L n j ≤ 1 := by
  rw [levelP_eq]
  have hs := levelStat_nonneg src r L n j
  generalize levelStat src r L n j = x at hs
  have key : ∀ a : ℝ, 0 ≤ a → 0 ≤ gammaTail a (x / 2) ∧ gammaTail a (x / 2) ≤ 1 := by
    intro a ha
    rcases ha.eq_or_lt with rfl | ha
    · rw [gammaTail_zero]; norm_num
    · obtain ⟨h1, h2, h3⟩ := C138_tail ha
      exact ⟨h2 _ (by linarith), by rw [← h1]; exact h3 _ _ le_rfl (by linarith)⟩
  refine key _ ?_
  split
  · norm_num
  · rename_i h
    have : (1 : ℝ) ≤ (blockCells src r L n j).card := by exact_mod_cast Finset.card_pos.2 (Finset.nonempty_iff_ne_empty.2 h)
    linarith

/-- A large statistic gives a small p-value. -/
theorem levelP_small (src : Src) (r L n j : Nat) (hne : (blockCells src r L n j).Nonempty) (h : 1.387 * (r * 2 ^ (j + 1) : Nat) + 68 ≤ levelStat src r L n j) :
    levelP gammaTail src r L n j ≤ Real.exp (-17) := by
  have hcard : (blockCells src r L n j).card ≤ r * 2 ^ (j + 1) + 1 := (Finset.card_filter_le _ _).trans (by rw [Finset.card_range])
  have hpos := Finset.card_pos.2 hne
  rw [levelP_eq, if_neg hne.ne_empty]
  generalize levelStat src r L n j = x at h
  generalize (blockCells src r L n j).card = m at hcard hpos
  generalize r * 2 ^ (j + 1) = N at h hcard
  have hN : (m : ℝ) - 1 ≤ N := by
    have : (m : ℝ) ≤ N + 1 := by exact_mod_cast hcard
    linarith
  rcases Nat.lt_or_ge 1 m with hm | hm
  · have hm' : (1 : ℝ) < m := by exact_mod_cast hm
    have hN0 : (0 : ℝ) ≤ N := Nat.cast_nonneg N
    refine ((C138_chernoff (a := ((m : ℝ) - 1) / 2) (x := x / 2) (by linarith) (by linarith) (1 / 2) (by norm_num)).1 (by norm_num)).trans ?_
    rw [show (1 : ℝ) / (1 - 1 / 2) = 2 by norm_num, Real.rpow_def_of_pos (by norm_num), ← Real.exp_add]
    refine Real.exp_le_exp.2 ?_
    have hl := Real.log_two_lt_d9
    have hl0 := Real.log_two_gt_d9
    have : Real.log 2 * (((m : ℝ) - 1) / 2) ≤ 0.6931471808 * (N / 2) := mul_le_mul hl.le (by linarith) (by linarith) (by norm_num)
    linarith
  · have : m = 1 := by omega
    subst this
    rw [Nat.cast_one, sub_self, zero_div, gammaTail_zero]
    exact (Real.exp_pos _).le

theorem sixteen_exp : 16 * Real.exp (-17) < 1e-6 := by
  rw [show (-17 : ℝ) = (17 : ℕ) * (-1) by norm_num, Real.exp_nat_mul]
  have : Real.exp (-1) ^ 17 ≤ 0.3678794413 ^ 17 := pow_le_pow_left₀ (Real.exp_pos _).le (by linarith [Real.exp_neg_one_lt_d9]) 17
  have h2 : (16 : ℝ) * 0.3678794413 ^ 17 < 1e-6 := by norm_num
  linarith

/-- **C150.** dab_monobit2 fails, with a value within 0.000001 of 0 or of 1, if the statistic of one of its levels is large. -/
theorem C150_level (r ntuple L : Nat) {n : Nat} (hr0 : 0 < r) (hr : r ≤ 32) (hnt : ntuple < 16)
    (hL : L = if ntuple = 0 then monobit2Levels r n 16 0 else ntuple) (src : Src) (hs : ∀ n, (src n).toNat < 2 ^ r) (hn : n ≤ 2 ^ 32)
    (j : Nat) (hj : j < L) (hne : (blockCells src r L n j).Nonempty) (h : 1.387 * (r * 2 ^ (j + 1) : Nat) + 68 ≤ levelStat src r L n j) :
    ∃ v, dabMonobit2 gammaTail r ntuple src n = .ok (v, L) ∧ ((0 ≤ v ∧ v < 1e-6) ∨ (1 - 1e-6 < v ∧ v ≤ 1)) := by
  obtain ⟨k, hk, e⟩ := (C122_value gammaTail r ntuple L hr0 hr hnt hL src hs hn).2 (by omega)
  have hL16 : L ≤ 16 := by
    rw [hL]
    split
    · exact (C122_levels r n).1
    · omega
  refine ⟨_, e, ?_⟩
  have h1 := hk.1 ⟨j, hj⟩
  have h2 : toEnd (levelP gammaTail src r L n j) ≤ Real.exp (-17) := (min_le_left _ _).trans (levelP_small src r L n j hne h)
  have hd0 : 0 ≤ toEnd (levelP gammaTail src r L n k) := by
    obtain ⟨u1, u2⟩ := levelP_unit src r L n k
    exact le_min u1 (by linarith)
  have hd : toEnd (levelP gammaTail src r L n k) ≤ Real.exp (-17) := h1.trans h2
  generalize toEnd (levelP gammaTail src r L n k) = d at hd0 hd
  have h16 := sixteen_exp
  have hd1 : d ≤ 1 := by linarith
  have hb : 1 - (L : ℝ) * d ≤ (1 - d) ^ L := by
    have := one_add_mul_le_pow (a := -d) (by linarith) L
    rw [show (1 : ℝ) + -d = 1 - d by ring] at this
    linarith
  have hLd : (L : ℝ) * d ≤ 16 * Real.exp (-17) := mul_le_mul (by exact_mod_cast hL16) hd hd0 (by norm_num)
  have hu : (1 - d) ^ L ≤ 1 := pow_le_one₀ (by linarith) (by linarith)
  split
  · exact .inl ⟨by linarith, by linarith⟩
  · exact .inr ⟨by linarith, hu⟩

/-- **C150.** In particular if more than ten blocks of a level have the same number `k` of ones, and their number is off its expectation by as much as that. -/
theorem C150_cell (r ntuple L : Nat) {n : Nat} (hr0 : 0 < r) (hr : r ≤ 32) (hnt : ntuple < 16)
    (hL : L = if ntuple = 0 then monobit2Levels r n 16 0 else ntuple) (src : Src) (hs : ∀ n, (src n).toNat < 2 ^ r) (hn : n ≤ 2 ^ 32)
    (j : Nat) (hj : j < L) (hj2 : 2 ^ (j + 1) ≤ n) (k : Nat) (hk : k ≤ r * 2 ^ (j + 1)) (h10 : 10 < observed src r L n j k)
    (h : (1.387 * (r * 2 ^ (j + 1) : Nat) + 68) * blocksExpected r n j k ≤ ((observed src r L n j k : ℝ) - blocksExpected r n j k) ^ 2) :
    ∃ v, dabMonobit2 gammaTail r ntuple src n = .ok (v, L) ∧ ((0 ≤ v ∧ v < 1e-6) ∨ (1 - 1e-6 < v ∧ v ≤ 1)) := by
  have hmem : k ∈ blockCells src r L n j := Finset.mem_filter.2 ⟨Finset.mem_range.2 (by omega), h10⟩
  refine C150_level r ntuple L hr0 hr hnt hL src hs hn j hj ⟨k, hmem⟩ ?_
  have hpos : 0 < blocksExpected r n j k := by
    have h1 : 0 < n / 2 ^ (j + 1) := Nat.div_pos hj2 (Nat.two_pow_pos _)
    have h2 := Nat.choose_pos hk
    unfold blocksExpected
    positivity
  refine le_trans ?_ (Finset.single_le_sum (f := fun k => ((observed src r L n j k : ℝ) - blocksExpected r n j k) ^ 2 / blocksExpected r n j k)
    (fun i _ => div_nonneg (sq_nonneg _) (blocksExpected_nonneg r n j i)) hmem)
  rw [le_div_iff₀ hpos]
  exact h

/-- At least `n / 2^(j+1)` blocks of level `j` end among the first `n` words. -/
theorem blocks_ge (n j : Nat) : n / 2 ^ (j + 1) ≤ (List.range n).countP fun i => decide (blockEnds j i) := by
  have e : (List.range n).countP (fun i => decide (blockEnds j i)) = ((Finset.range n).filter fun i => blockEnds j i).card := by
    rw [Finset.card_filter, ← Fin.sum_univ_eq_sum_range, List.countP_eq_length_filter, ← List.countP_eq_length_filter]
    induction n with
    | zero => rfl
    | succ n ih =>
      rw [List.range_succ, List.countP_append, List.countP_singleton, ih, Fin.sum_univ_castSucc]
      simp
  rw [e]
  calc n / 2 ^ (j + 1) = ((Finset.range (n / 2 ^ (j + 1))).image fun k => 2 ^ j + k * 2 ^ (j + 1)).card := by
        rw [Finset.card_image_of_injective _ fun a b h => ?_, Finset.card_range]
        have h2 : 0 < 2 ^ (j + 1) := Nat.two_pow_pos _
        exact Nat.eq_of_mul_eq_mul_right h2 (Nat.add_left_cancel h)
    _ ≤ _ := by
        refine Finset.card_le_card fun i hi => ?_
        obtain ⟨k, hk, rfl⟩ := Finset.mem_image.1 hi
        have hk' := Finset.mem_range.1 hk
        refine Finset.mem_filter.2 ⟨Finset.mem_range.2 ?_, (C44_blocks j _).2 ⟨k, rfl⟩⟩
        have h1 : (k + 1) * 2 ^ (j + 1) ≤ n / 2 ^ (j + 1) * 2 ^ (j + 1) := Nat.mul_le_mul_right _ hk'
        have h2 := Nat.div_mul_le_self n (2 ^ (j + 1))
        have h3 : 2 ^ (j + 1) = 2 ^ j + 2 ^ j := by rw [pow_succ]; ring
        have h4 : 0 < 2 ^ j := Nat.two_pow_pos _
        rw [Nat.add_mul, Nat.one_mul] at h1
        omega

/-- All blocks are observed. -/
theorem observed_sum (r L n j : Nat) (hr : r ≤ 32) (src : Src) (hs : ∀ n, (src n).toNat < 2 ^ r) :
    n / 2 ^ (j + 1) ≤ ∑ k ∈ Finset.range (r * 2 ^ (j + 1) + 1), observed src r L n j k := by
  refine (blocks_ge n j).trans (le_trans (le_of_eq ?_) (Finset.sum_le_sum fun k _ => (show blocksWith src n j k ≤ observed src r L n j k by unfold observed; omega)))
  simp only [blocksWith]
  induction n with
  | zero => simp
  | succ n ih =>
    simp only [List.range_succ, List.countP_append, List.countP_singleton, Finset.sum_add_distrib]
    rw [ih]
    congr 1
    by_cases h : blockEnds j n
    · have hb := blockOnes_le r hr src hs j n
      simp only [h, true_and, decide_true, if_true, decide_eq_true_eq]
      rw [Finset.sum_ite_eq, if_pos (Finset.mem_range.2 (by omega))]
    · simp [h]

theorem expected_sum (r n j k : Nat) (hk : k ≤ r * 2 ^ (j + 1)) (S : Finset Nat) (hS : S ⊆ Finset.range (r * 2 ^ (j + 1) + 1)) (hkS : k ∉ S) :
    ∑ i ∈ S, blocksExpected r n j i ≤ (n / 2 ^ (j + 1) : Nat) - blocksExpected r n j k := by
  have h1 : ∑ i ∈ insert k S, blocksExpected r n j i ≤ ∑ i ∈ Finset.range (r * 2 ^ (j + 1) + 1), blocksExpected r n j i :=
    Finset.sum_le_sum_of_subset_of_nonneg (Finset.insert_subset (Finset.mem_range.2 (by omega)) hS) fun i _ _ => blocksExpected_nonneg r n j i
  rw [Finset.sum_insert hkS] at h1
  have h2 : ∑ i ∈ Finset.range (r * 2 ^ (j + 1) + 1), blocksExpected r n j i = (n / 2 ^ (j + 1) : Nat) := by
    simp only [blocksExpected]
    rw [← Finset.mul_sum, ← Finset.sum_div, ← Nat.cast_sum, Nat.sum_range_choose, Nat.cast_pow, Nat.cast_ofNat, div_self (by positivity), mul_one]
  rw [h2] at h1
  linarith

/-- **C150.** A number of ones that (almost) no block of level `j` has is not used as a cell, but is found all the same, because the other cells are too full: `m` is the
number of blocks, `N` the number of bits of a block and `e` the expectation of the cell. -/
theorem C150_missing (r ntuple L : Nat) {n : Nat} (hr0 : 0 < r) (hr : r ≤ 32) (hnt : ntuple < 16)
    (hL : L = if ntuple = 0 then monobit2Levels r n 16 0 else ntuple) (src : Src) (hs : ∀ n, (src n).toNat < 2 ^ r) (hn : n ≤ 2 ^ 32)
    (j : Nat) (hj : j < L) (k N m : Nat) (hN : N = r * 2 ^ (j + 1)) (hm : m = n / 2 ^ (j + 1)) (hm0 : 0 < m) (hk : k ≤ N) (h10 : observed src r L n j k ≤ 10)
    (h1 : 10 * (N + 1) < blocksExpected r n j k) (h : (1.387 * N + 68) * m ≤ (blocksExpected r n j k - 10 * (N + 1)) ^ 2) :
    ∃ v, dabMonobit2 gammaTail r ntuple src n = .ok (v, L) ∧ ((0 ≤ v ∧ v < 1e-6) ∨ (1 - 1e-6 < v ∧ v ≤ 1)) := by
  subst hN hm
  have hS : blockCells src r L n j ⊆ Finset.range (r * 2 ^ (j + 1) + 1) := Finset.filter_subset _ _
  have hkS : k ∉ blockCells src r L n j := fun hmem => by
    have := (Finset.mem_filter.1 hmem).2
    omega
  have ho : (n / 2 ^ (j + 1) : Nat) - 10 * ((r * 2 ^ (j + 1) : Nat) + 1 : ℝ) ≤ ∑ i ∈ blockCells src r L n j, (observed src r L n j i : ℝ) := by
    have h2 := observed_sum r L n j hr src hs
    rw [← Finset.sum_filter_add_sum_filter_not _ (fun k => 10 < observed src r L n j k)] at h2
    have h3 : ∑ k ∈ (Finset.range (r * 2 ^ (j + 1) + 1)).filter (fun k => ¬ 10 < observed src r L n j k), observed src r L n j k ≤ (r * 2 ^ (j + 1) + 1) * 10 := by
      refine (Finset.sum_le_card_nsmul _ _ 10 fun i hi => not_lt.1 (Finset.mem_filter.1 hi).2).trans ?_
      rw [smul_eq_mul]
      refine Nat.mul_le_mul_right _ ((Finset.card_filter_le _ _).trans (by rw [Finset.card_range]))
    have h4 : n / 2 ^ (j + 1) ≤ ∑ k ∈ blockCells src r L n j, observed src r L n j k + (r * 2 ^ (j + 1) + 1) * 10 := h2.trans (Nat.add_le_add_left h3 _)
    have h5 : ((n / 2 ^ (j + 1) : Nat) : ℝ) ≤ ∑ k ∈ blockCells src r L n j, (observed src r L n j k : ℝ) + ((r * 2 ^ (j + 1) : Nat) + 1) * 10 := by exact_mod_cast h4
    linarith
  have he := expected_sum r n j k hk _ hS hkS
  have hek := blocksExpected_nonneg r n j k
  have hne : (blockCells src r L n j).Nonempty := by
    rw [Finset.nonempty_iff_ne_empty]
    intro e
    rw [e, Finset.sum_empty] at ho he
    linarith
  refine C150_level r ntuple L hr0 hr hnt hL src hs hn j hj hne ?_
  have hm0' : (0 : ℝ) < (n / 2 ^ (j + 1) : Nat) := by exact_mod_cast hm0
  have hpos : ∀ i ∈ blockCells src r L n j, 0 < blocksExpected r n j i := by
    intro i hi
    have h2 := Nat.choose_pos (Nat.lt_succ_iff.1 (Finset.mem_range.1 (hS hi)))
    unfold blocksExpected
    positivity
  refine le_trans ?_ (Finset.sq_sum_div_le_sum_sq_div (blockCells src r L n j) (fun i => (observed src r L n j i : ℝ) - blocksExpected r n j i) hpos)
  rw [le_div_iff₀ (Finset.sum_pos hpos hne), Finset.sum_sub_distrib]
  refine le_trans ?_ (h.trans (pow_le_pow_left₀ (by linarith) (show blocksExpected r n j k - 10 * ((r * 2 ^ (j + 1) : Nat) + 1) ≤
    ∑ i ∈ blockCells src r L n j, (observed src r L n j i : ℝ) - ∑ i ∈ blockCells src r L n j, blocksExpected r n j i by linarith) 2))
  refine mul_le_mul_of_nonneg_left (by linarith) (by positivity)

theorem popcount_compl (x : UInt) : popcount x + popcount (~~~ x) = 32 := by
  rw [popcount, popcount]
  have := List.length_eq_countP_add_countP (fun b => x.getLsbD b) (l := List.range 32)
  rw [List.length_range] at this
  refine Eq.trans ?_ this.symm
  congr 1
  apply List.countP_congr
  intro i hi
  rw [List.mem_range] at hi
  rw [BitVec.getLsbD_not]
  simp [hi]

/-- **C150.** A generator of 32 bits for which all pairs of words have the same number of ones fails (404 words or more, of at most 2^32). -/
theorem C150_constant (src : Src) (n c : Nat) (hn0 : 404 ≤ n) (hn : n ≤ 2 ^ 32) (h : ∀ i, popcount (src (2 * i)) + popcount (src (2 * i + 1)) = c) :
    ∃ v L, dabMonobit2 gammaTail 32 0 src n = .ok (v, L) ∧ ((0 ≤ v ∧ v < 1e-6) ∨ (1 - 1e-6 < v ∧ v ≤ 1)) := by
  have hm : 202 ≤ n / 2 := by omega
  have hmr : (202 : ℝ) ≤ (n / 2 : Nat) := by exact_mod_cast hm
  have hc : (64 : Nat).choose 32 = 1832624140942590534 := by decide +kernel
  have hc' : (32 * 2 ^ (0 + 1)).choose (32 * 2 ^ 0) = 1832624140942590534 := hc
  have hL : 0 < monobit2Levels 32 n 16 0 := by
    by_contra h0
    have h1 := (C122_levels 32 n).2.2 (by omega)
    rw [show monobit2Levels 32 n 16 0 = 0 by omega, middle, hc'] at h1
    norm_num at h1
    linarith
  have hw : ∀ m, (src m).toNat < 2 ^ 32 := fun m => (src m).isLt
  have hones : ∀ i, blockEnds 0 i → blockOnes src 0 i = c := by
    intro i hi
    obtain ⟨k, rfl⟩ := (C44_pairs i).1.1 hi
    rw [(C44_pairs (2 * k + 1)).2 src k, onesIn, Finset.sum_Ico_succ_top (by omega), Finset.sum_Ico_succ_top (by omega), Finset.Ico_self, Finset.sum_empty, zero_add, h k]
  have hc64 : c ≤ 64 := by
    rw [← hones 1 rfl]
    exact blockOnes_le 32 le_rfl src hw 0 1
  have hobs : n / 2 ≤ observed src 32 (monobit2Levels 32 n 16 0) n 0 c := by
    refine (blocks_ge n 0).trans (le_trans (le_of_eq ?_) (show blocksWith src n 0 c ≤ _ by unfold observed; omega))
    rw [blocksWith]
    congr 1
    funext i
    refine decide_eq_decide.2 ⟨fun hi => ⟨hi, hones i hi⟩, fun hi => hi.1⟩
  have hor : ((n / 2 : Nat) : ℝ) ≤ observed src 32 (monobit2Levels 32 n 16 0) n 0 c := by exact_mod_cast hobs
  obtain ⟨v, h1, h2⟩ := C150_cell 32 0 (monobit2Levels 32 n 16 0) (by norm_num) le_rfl (by norm_num) (by rw [if_pos rfl]) src hw hn 0 hL (by norm_num; omega) c
    (by norm_num; exact hc64) (by omega) (by
      have hq : ((64 : Nat).choose c : ℝ) / 2 ^ 64 ≤ 0.0994 := by
        have h3 : (64 : Nat).choose c ≤ 1832624140942590534 := by rw [← hc]; exact Nat.choose_le_middle c 64
        have h4 : ((64 : Nat).choose c : ℝ) ≤ 1832624140942590534 := by exact_mod_cast h3
        rw [div_le_iff₀ (by positivity)]
        refine h4.trans ?_
        norm_num
      have hq0 : 0 ≤ ((64 : Nat).choose c : ℝ) / 2 ^ 64 := by positivity
      have he : blocksExpected 32 n 0 c = ((n / 2 : Nat) : ℝ) * (((64 : Nat).choose c : ℝ) / 2 ^ 64) := by
        rw [blocksExpected]
        norm_num
      rw [he]
      generalize ((64 : Nat).choose c : ℝ) / 2 ^ 64 = q at hq hq0
      generalize ((n / 2 : Nat) : ℝ) = m at hmr hor
      generalize (observed src 32 (monobit2Levels 32 n 16 0) n 0 c : ℝ) = o at hor
      have h5 : (m * 0.9) ^ 2 ≤ (o - m * q) ^ 2 := pow_le_pow_left₀ (by linarith) (by nlinarith) 2
      refine le_trans ?_ h5
      norm_num
      nlinarith)
  exact ⟨v, _, h1, h2⟩

/-- All words are 5: a default run fails. -/
example : ∃ v L, dabMonobit2 gammaTail 32 0 (fun _ => 5) 65000000 = .ok (v, L) ∧ ((0 ≤ v ∧ v < 1e-6) ∨ (1 - 1e-6 < v ∧ v ≤ 1)) :=
  C150_constant _ _ 4 (by norm_num) (by norm_num) fun _ => by decide

/-- So it does on words and their complements in turn, which are balanced. -/
example (f : Src) :
    ∃ v L, dabMonobit2 gammaTail 32 0 (fun k => if k % 2 = 0 then f k else ~~~ f (k - 1)) 65000000 = .ok (v, L) ∧ ((0 ≤ v ∧ v < 1e-6) ∨ (1 - 1e-6 < v ∧ v ≤ 1)) :=
  C150_constant _ _ 32 (by norm_num) (by norm_num) fun i => by
    rw [if_pos (by omega), if_neg (by omega), Nat.add_sub_cancel, popcount_compl]

/-- A default run on a source without a pair of words with 32 ones. -/
example (src : Src) (h : ∀ i, popcount (src (2 * i)) + popcount (src (2 * i + 1)) ≠ 32) :
    ∃ v, dabMonobit2 gammaTail 32 0 src 65000000 = .ok (v, 12) ∧ ((0 ≤ v ∧ v < 1e-6) ∨ (1 - 1e-6 < v ∧ v ≤ 1)) := by
  have hc : (64 : Nat).choose 32 = 1832624140942590534 := by decide +kernel
  have he : blocksExpected 32 65000000 0 32 = 32500000 * (1832624140942590534 / 2 ^ 64) := by
    rw [blocksExpected, show 32 * 2 ^ (0 + 1) = 64 from rfl, hc]
    norm_num
  refine C150_missing 32 0 12 (by norm_num) le_rfl (by norm_num) (by rw [if_pos rfl, C122_default]) src (fun m => (src m).isLt) (by norm_num) 0 (by norm_num)
    32 64 32500000 rfl rfl (by norm_num) (by norm_num) ?_ (by rw [he]; norm_num) (by rw [he]; norm_num)
  rw [observed, if_neg (by omega), if_neg (by norm_num), blocksWith, List.countP_eq_zero.2]
  · norm_num
  · intro i _ hi
    obtain ⟨h1, h2⟩ := decide_eq_true_iff.1 hi
    obtain ⟨k, rfl⟩ := (C44_pairs i).1.1 h1
    rw [(C44_pairs (2 * k + 1)).2 src k, onesIn, Finset.sum_Ico_succ_top (by omega), Finset.sum_Ico_succ_top (by omega), Finset.Ico_self, Finset.sum_empty, zero_add] at h2
    exact h k h2

end Dh
