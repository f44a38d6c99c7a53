import Verif.Model.Monobit2
import Verif.Props.WordTests
import Verif.Props.Chisq
import Verif.Props.MostExtreme
import Mathlib.Data.Nat.Choose.Central
/-
C122: dab_monobit2 as a whole.
-/
namespace Dh
open Spec

namespace Spec

/-- The expected number of blocks of level `j` with as many ones as zeros, among `n` words of `r` bits. -/
noncomputable def middle (r n j : Nat) : ℝ := (n / 2 ^ (j + 1) : Nat) * ((r * 2 ^ (j + 1)).choose (r * 2 ^ j) / 2 ^ (r * 2 ^ (j + 1)))

/-- The blocks of level `j` with `k` ones. -/
def blocksWith (src : Nat → UInt) (n j k : Nat) : Nat := (List.range n).countP fun i => decide (blockEnds j i ∧ blockOnes src j i = k)

/-- What is taken as the number of blocks of level `j` with `k` ones: the cell without ones is also that of the blocks of the level below
that consist of ones, and the cell of the blocks of ones is also that of the blocks of the level above without ones. -/
def observed (src : Nat → UInt) (r levels n j k : Nat) : Nat :=
  blocksWith src n j k + (if 0 < j ∧ k = 0 then blocksWith src n (j - 1) (r * 2 ^ j) else 0) +
    (if j + 1 < levels ∧ k = r * 2 ^ (j + 1) then blocksWith src n (j + 1) 0 else 0)

/-- The p-value of a level, from a chi-square statistic over the cells with more than ten observations. -/
noncomputable def levelP (gammaQ : ℝ → ℝ → ℝ) (src : Nat → UInt) (r levels n j : Nat) : ℝ :=
  let cells := (Finset.range (r * 2 ^ (j + 1) + 1)).filter fun k => 10 < observed src r levels n j k
  let expected := fun k : Nat => ((n / 2 ^ (j + 1) : Nat) : ℝ) * ((r * 2 ^ (j + 1)).choose k / 2 ^ (r * 2 ^ (j + 1)))
  gammaQ ((if cells = ∅ then 2 ^ 32 - 1 else (cells.card : ℝ) - 1) / 2)
    ((∑ k ∈ cells, ((observed src r levels n j k : ℝ) - expected k) ^ 2 / expected k) / 2)

end Spec

theorem half_pdf (N k : Nat) (h : k ≤ N) : (N.choose k : ℝ) * (1 / 2) ^ k * (1 - 1 / 2) ^ (N - k) = N.choose k / 2 ^ N := by
  rw [show (1 : ℝ) - 1 / 2 = 1 / 2 by norm_num, mul_assoc, ← pow_add, Nat.add_sub_cancel' h, one_div, inv_pow, div_eq_mul_inv]

/-- C122: the number of levels is the first whose middle cell expects less than 20 blocks, and at most 16. -/
theorem C122_levels (r n : Nat) : monobit2Levels r n 16 0 ≤ 16 ∧ (∀ j < monobit2Levels r n 16 0, 20 ≤ middle r n j) ∧
    (monobit2Levels r n 16 0 < 16 → middle r n (monobit2Levels r n 16 0) < 20) := by
  have hm : ∀ j, (n / 2 ^ (j + 1) : Nat) * binomialPdf (r * 2 ^ (j + 1) / 2) (1 / 2) (r * 2 ^ (j + 1)) = middle r n j := by
    intro j
    have h : r * 2 ^ (j + 1) / 2 = r * 2 ^ j := by rw [pow_succ, ← mul_assoc, Nat.mul_div_cancel _ (by norm_num)]
    have hle : r * 2 ^ j ≤ r * 2 ^ (j + 1) := Nat.mul_le_mul_left _ (Nat.pow_le_pow_right (by norm_num) (by omega))
    rw [binomialPdf, h, if_neg (by omega), half_pdf _ _ hle, middle]
  have key : ∀ (todo j : Nat), j + todo = 16 → j ≤ monobit2Levels r n todo j ∧ monobit2Levels r n todo j ≤ 16 ∧
      (∀ i, j ≤ i → i < monobit2Levels r n todo j → 20 ≤ middle r n i) ∧
      (monobit2Levels r n todo j < 16 → middle r n (monobit2Levels r n todo j) < 20) := by
    intro todo
    induction todo with
    | zero =>
      intro j hj
      rw [monobit2Levels]
      exact ⟨le_refl _, by omega, fun i h1 h2 => absurd h2 (by omega), fun h => absurd h (by omega)⟩
    | succ todo ih =>
      intro j hj
      rw [monobit2Levels, hm]
      by_cases h : middle r n j < 20
      · rw [if_pos h]
        exact ⟨le_refl _, by omega, fun i h1 h2 => absurd h2 (by omega), fun _ => h⟩
      · rw [if_neg h]
        obtain ⟨a, b, c, d⟩ := ih (j + 1) (by omega)
        refine ⟨by omega, b, fun i h1 h2 => ?_, d⟩
        rcases Nat.eq_or_lt_of_le h1 with rfl | h3
        · exact not_lt.1 h
        · exact c i h3 h2
  obtain ⟨-, b, c, d⟩ := key 16 0 rfl
  exact ⟨b, fun j hj => c j (Nat.zero_le _) hj, d⟩

theorem blockOnes_le (r : Nat) (hr : r ≤ 32) (src : Src) (hs : ∀ n, (src n).toNat < 2 ^ r) (j i : Nat) : blockOnes src j i ≤ r * 2 ^ (j + 1) :=
  (onesIn_le r hr src hs _ _).trans (Nat.mul_le_mul_left r (by generalize 2 ^ (j + 1) = a; omega))

/-- A cell of the table, seen from level `j`. -/
theorem observed_eq (r L : Nat) (hr0 : 0 < r) (hr : r ≤ 32) (src : Src) (hs : ∀ n, (src n).toNat < 2 ^ r) (n j k : Nat) (hj : j < L)
    (hk : k ≤ r * 2 ^ (j + 1)) : ∑ i ∈ Finset.range L, (List.range n).countP (fun m =>
      decide (blockEnds i m ∧ r * (2 ^ (j + 1) - 1) + k = r * (2 ^ (i + 1) - 1) + blockOnes src i m)) = observed src r L n j k := by
  have hbase : ∀ i, r * (2 ^ (i + 1) - 1) + r = r * 2 ^ (i + 1) := fun i => by
    rw [← Nat.mul_succ, Nat.succ_eq_add_one, Nat.sub_add_cancel (Nat.two_pow_pos _)]
  have hdbl : ∀ i, r * 2 ^ (i + 1) = r * 2 ^ i + r * 2 ^ i := fun i => by rw [pow_succ]; ring
  have hmono : ∀ a b, a ≤ b → r * 2 ^ a ≤ r * 2 ^ b := fun a b h => Nat.mul_le_mul_left r (Nat.pow_le_pow_right (by norm_num) h)
  have hpos : ∀ i, r ≤ r * 2 ^ i := fun i => Nat.le_mul_of_pos_right r (Nat.two_pow_pos i)
  have hB : ∀ i m, blockOnes src i m ≤ r * 2 ^ (i + 1) := fun i m => blockOnes_le r hr src hs i m
  have term : ∀ i, (List.range n).countP (fun m => decide (blockEnds i m ∧ r * (2 ^ (j + 1) - 1) + k = r * (2 ^ (i + 1) - 1) + blockOnes src i m)) =
      (if i = j then blocksWith src n j k else 0) + (if i + 1 = j then (if k = 0 then blocksWith src n (j - 1) (r * 2 ^ j) else 0) else 0) +
        (if i = j + 1 then (if k = r * 2 ^ (j + 1) then blocksWith src n (j + 1) 0 else 0) else 0) := by
    intro i
    have b1 := hbase i
    have b2 := hbase j
    by_cases h1 : i = j
    · subst h1
      rw [if_pos rfl, if_neg (by omega), if_neg (by omega), Nat.add_zero, Nat.add_zero, blocksWith]
      congr 1
      funext m
      exact decide_eq_decide.2 (and_congr_right fun _ => by omega)
    rw [if_neg h1]
    by_cases h2 : i + 1 = j
    · have h2' : j - 1 = i := by omega
      have b4 := hB i
      rw [h2] at b1 b4
      rw [h2, if_pos rfl, if_neg (show ¬i = j + 1 by omega), h2', Nat.zero_add, Nat.add_zero]
      have b3 := hdbl j
      by_cases hk0 : k = 0
      · rw [if_pos hk0, blocksWith]
        congr 1
        funext m
        exact decide_eq_decide.2 (and_congr_right fun _ => by omega)
      · rw [if_neg hk0, List.countP_eq_zero]
        intro m _ h
        have h := (decide_eq_true_iff.1 h).2
        have := b4 m
        omega
    rw [if_neg h2]
    by_cases h3 : i = j + 1
    · subst h3
      rw [if_pos rfl, Nat.zero_add]
      have b3 := hdbl (j + 1)
      by_cases hk0 : k = r * 2 ^ (j + 1)
      · rw [if_pos hk0, blocksWith]
        congr 1
        funext m
        exact decide_eq_decide.2 (and_congr_right fun _ => by omega)
      · rw [if_neg hk0, List.countP_eq_zero]
        intro m _ h
        have h := (decide_eq_true_iff.1 h).2
        omega
    rw [if_neg h3, List.countP_eq_zero]
    intro m _ h
    have h := (decide_eq_true_iff.1 h).2
    have h4 := hB i m
    have c1 := hdbl (j + 1)
    have c2 := hdbl (i + 1)
    have c3 := hpos (i + 1)
    have c4 := hpos (j + 1)
    rcases Nat.lt_or_ge i j with h5 | h5
    · have d1 := hmono (i + 2) j (by omega)
      have d2 := hdbl j
      have d3 := hpos j
      have d4 : r * 2 ^ (i + 2) = r * 2 ^ (i + 1) + r * 2 ^ (i + 1) := hdbl (i + 1)
      omega
    · have d1 := hmono (j + 3) (i + 1) (by omega)
      have d2 : r * 2 ^ (j + 3) = r * 2 ^ (j + 2) + r * 2 ^ (j + 2) := hdbl (j + 2)
      have d3 : r * 2 ^ (j + 2) = r * 2 ^ (j + 1) + r * 2 ^ (j + 1) := hdbl (j + 1)
      omega
  rw [Finset.sum_congr rfl fun i _ => term i, Finset.sum_add_distrib, Finset.sum_add_distrib, observed]
  congr 1
  · congr 1
    · rw [Finset.sum_ite_eq', if_pos (Finset.mem_range.2 hj)]
    · rcases Nat.eq_zero_or_pos j with rfl | h0
      · rw [if_neg fun h : 0 < 0 ∧ k = 0 => absurd h.1 (Nat.lt_irrefl 0)]
        exact Finset.sum_eq_zero fun i _ => if_neg (by omega)
      · obtain ⟨m, rfl⟩ : ∃ m, j = m + 1 := ⟨j - 1, by omega⟩
        simp only [Nat.add_right_cancel_iff]
        rw [Finset.sum_ite_eq', if_pos (Finset.mem_range.2 (by omega))]
        by_cases hk0 : k = 0
        · rw [if_pos hk0, if_pos ⟨h0, hk0⟩]
        · rw [if_neg hk0, if_neg fun h => hk0 h.2]
  · rw [Finset.sum_ite_eq']
    by_cases h1 : j + 1 < L
    · rw [if_pos (Finset.mem_range.2 h1)]
      by_cases hk0 : k = r * 2 ^ (j + 1)
      · rw [if_pos hk0, if_pos ⟨h1, hk0⟩]
      · rw [if_neg hk0, if_neg fun h => hk0 h.2]
    · rw [if_neg (fun h => h1 (Finset.mem_range.1 h)), if_neg fun h => h1 h.1]

theorem monobit2Pvalues_spec (gammaQ : ℝ → ℝ → ℝ) (r L : Nat) (hr0 : 0 < r) (hr : r ≤ 32) (hL : L ≤ 16) (src : Src) (hs : ∀ n, (src n).toNat < 2 ^ r)
    (n : Nat) (counts : List Nat) (hlen : counts.length = r * 2 ^ (L + 1))
    (hc : ∀ c, counts.getD c 0 = ∑ j ∈ Finset.range L, (List.range n).countP (fun i =>
        decide (blockEnds j i ∧ c = r * (2 ^ (j + 1) - 1) + blockOnes src j i))) :
    ∀ todo j, j + todo = L → monobit2Pvalues gammaQ r n counts todo j = .ok ((List.range' j todo).map (levelP gammaQ src r L n)) := by
  intro todo
  induction todo with
  | zero => intro j _; rfl
  | succ todo ih =>
    intro j hj
    have hlt : r * (2 ^ (j + 1) - 1) + r * 2 ^ (j + 1) < counts.length := by
      have h5 : 0 < 2 ^ (j + 1) := Nat.two_pow_pos _
      have h7 : r * (2 ^ (j + 1) - 1) + r = r * 2 ^ (j + 1) := by rw [← Nat.mul_succ, Nat.succ_eq_add_one, Nat.sub_add_cancel h5]
      have h6 : r * 2 ^ (j + 1 + 1) = r * 2 ^ (j + 1) + r * 2 ^ (j + 1) := by rw [pow_succ]; ring
      have h8 : r * 2 ^ (j + 1 + 1) ≤ r * 2 ^ (L + 1) := Nat.mul_le_mul_left r (Nat.pow_le_pow_right (by norm_num) (by omega))
      omega
    have hget : ∀ k, k ≤ r * 2 ^ (j + 1) → ((counts.drop (r * (2 ^ (j + 1) - 1))).map fun c : Nat => (c : ℝ)).getD k 0 = observed src r L n j k := by
      intro k hk
      rw [← observed_eq r L hr0 hr src hs n j k (by omega) hk, ← hc, List.getD_eq_getElem?_getD, List.getElem?_map, List.getElem?_drop,
        List.getD_eq_getElem?_getD, List.getElem?_eq_getElem (by omega)]
      rfl
    have hbig : r * 2 ^ (j + 1) + 1 < 2 ^ 32 := by
      have h1 : r * 2 ^ (j + 1) ≤ 32 * 2 ^ 16 := Nat.mul_le_mul hr (Nat.pow_le_pow_right (by norm_num) (by omega))
      have h2 : 32 * 2 ^ 16 + 1 < 2 ^ 32 := by norm_num
      omega
    have e := C77_binomial gammaQ ((counts.drop (r * (2 ^ (j + 1) - 1))).map fun c : Nat => (c : ℝ)) (1 / 2) (r * 2 ^ (j + 1)) (n / 2 ^ (j + 1)) hbig
      (by rw [List.length_map, List.length_drop]; omega)
      ((Finset.range (r * 2 ^ (j + 1) + 1)).filter fun k => 10 < observed src r L n j k) (fun k => by
        rw [Finset.mem_filter, Finset.mem_range, Nat.lt_succ_iff]
        refine and_congr_right fun hk => ?_
        rw [hget k hk]
        exact_mod_cast Iff.rfl)
    rw [monobit2Pvalues, e, Res.bind_ok, ih (j + 1) (by omega), Res.bind_ok, List.range'_succ, List.map_cons]
    congr 2
    rw [levelP]
    simp only
    congr 2
    refine Finset.sum_congr rfl fun k hk => ?_
    have hk' : k ≤ r * 2 ^ (j + 1) := Nat.lt_succ_iff.1 (Finset.mem_range.1 (Finset.mem_filter.1 hk).1)
    rw [hget k hk', half_pdf _ _ hk']

/-- C122: for a generator of `r` bits, `dab_monobit2` never leaves its tables and never exits for fewer than 16 levels.  Its p-value is the folded
and corrected most extreme one (`C99_value`) of those of the levels, each a chi-square over the cells with more than ten blocks. -/
theorem C122_value (gammaQ : ℝ → ℝ → ℝ) {n : Nat} (r ntuple L : Nat) (hr0 : 0 < r) (hr : r ≤ 32) (hnt : ntuple < 16)
    (hL : L = if ntuple = 0 then monobit2Levels r n 16 0 else ntuple) (src : Src) (hs : ∀ n, (src n).toNat < 2 ^ r) (hn : n ≤ 2 ^ 32) :
    (L = 0 → dabMonobit2 gammaQ r ntuple src n = .ok (0, 0)) ∧
    (0 < L → ∃ k : Fin L, IsExtreme (fun j : Fin L => levelP gammaQ src r L n j) k ∧
      dabMonobit2 gammaQ r ntuple src n = .ok (if 1 / 2 < levelP gammaQ src r L n k then 1 - (1 - toEnd (levelP gammaQ src r L n k)) ^ L
        else (1 - toEnd (levelP gammaQ src r L n k)) ^ L, L)) := by
  have hL16 : L ≤ 16 := by
    rw [hL]
    split
    · exact (C122_levels r n).1
    · omega
  have hsel : (if ntuple = 0 then .ok (monobit2Levels r n 16 0) else if 16 ≤ ntuple then .exit else .ok ntuple : Res Nat) = .ok L := by
    rw [hL]
    by_cases h : ntuple = 0
    · rw [if_pos h, if_pos h]
    · rw [if_neg h, if_neg h, if_neg (by omega)]
  obtain ⟨counts, h1, h2, h3⟩ := C44_tally r L hr0 hr hL16 src hs n hn
  have hp := monobit2Pvalues_spec gammaQ r L hr0 hr hL16 src hs n counts h2 h3 L 0 (Nat.zero_add _)
  have hlist : (List.range' 0 L).map (levelP gammaQ src r L n) = List.ofFn fun j : Fin L => levelP gammaQ src r L n j := by
    rw [← List.range_eq_range', List.ofFn_eq_map, ← List.map_coe_finRange_eq_range, List.map_map]
    rfl
  constructor
  · intro h0
    subst h0
    rw [dabMonobit2, hsel, Res.bind_ok, h1, Res.bind_ok, hp, Res.bind_ok, evalMostExtreme, extremeLoop, Res.bind_ok]
    simp
  · intro h0
    obtain ⟨k, hk, h4⟩ := C99_value h0 fun j : Fin L => levelP gammaQ src r L n j
    refine ⟨k, hk, ?_⟩
    rw [dabMonobit2, hsel, Res.bind_ok, h1, Res.bind_ok, hp, Res.bind_ok, hlist, h4, Res.bind_ok]

/-- C122: from 16 levels on, the program ends. -/
theorem C122_exit (gammaQ : ℝ → ℝ → ℝ) (r ntuple : Nat) (h : 16 ≤ ntuple) (src : Src) (n : Nat) : dabMonobit2 gammaQ r ntuple src n = .exit := by
  rw [dabMonobit2, if_neg (by omega), if_pos h]
  rfl

/-- C122, a finding: unless told otherwise, with at most 403 words of 32 bits the test has no levels at all, and the p-value is 0, which is reported as
a failure, whatever the words are. -/
theorem C122_few (gammaQ : ℝ → ℝ → ℝ) (src : Src) (n : Nat) (hn : n ≤ 403) : dabMonobit2 gammaQ 32 0 src n = .ok (0, 0) := by
  have hm : middle 32 n 0 < 20 := by
    have hc : (32 * 2 ^ (0 + 1)).choose (32 * 2 ^ 0) = 1832624140942590534 := by decide +kernel
    have hq : ((n / 2 : Nat) : ℝ) ≤ 201 := by exact_mod_cast (by omega : n / 2 ≤ 201)
    rw [middle, hc]
    norm_num
    linarith
  have h0 : monobit2Levels 32 n 16 0 = 0 := by
    by_contra h
    exact absurd ((C122_levels 32 n).2.1 0 (Nat.pos_of_ne_zero h)) (not_le.2 hm)
  exact (C122_value gammaQ 32 0 0 (by norm_num) le_rfl (by norm_num) (by rw [if_pos rfl, h0]) src (fun m => (src m).isLt) (by omega)).1 rfl

/-- The bounds on the middle binomial coefficient. -/
theorem central_bounds (m : Nat) (hm : 0 < m) : (4 ^ m) ^ 2 ≤ 4 * m * m.centralBinom ^ 2 ∧ (3 * m + 1) * m.centralBinom ^ 2 ≤ (4 ^ m) ^ 2 := by
  induction m, hm using Nat.le_induction with
  | base => decide
  | succ m hm ih =>
    obtain ⟨a, b⟩ := ih
    have h := Nat.succ_mul_centralBinom_succ m
    have hsq : (m + 1) ^ 2 * (m + 1).centralBinom ^ 2 = 4 * (2 * m + 1) ^ 2 * m.centralBinom ^ 2 := by
      rw [← mul_pow, h]; ring
    have hp : (4 ^ (m + 1)) ^ 2 = 16 * (4 ^ m) ^ 2 := by rw [pow_succ]; ring
    have hpos : 0 < (m + 1) ^ 2 := by positivity
    rw [hp]
    generalize (m + 1).centralBinom ^ 2 = y at *
    generalize m.centralBinom ^ 2 = x at *
    generalize (4 ^ m) ^ 2 = z at *
    constructor
    · refine Nat.le_of_mul_le_mul_left ?_ hpos
      calc (m + 1) ^ 2 * (16 * z) ≤ (m + 1) ^ 2 * (16 * (4 * m * x)) := by gcongr
        _ ≤ 4 * (m + 1) * (4 * (2 * m + 1) ^ 2 * x) := by nlinarith [Nat.zero_le (x * m), Nat.zero_le (x * m ^ 2), Nat.zero_le x]
        _ = (m + 1) ^ 2 * (4 * (m + 1) * y) := by rw [← hsq]; ring
    · refine Nat.le_of_mul_le_mul_left ?_ hpos
      have hx : (3 * (m + 1) + 1) * (4 * (2 * m + 1) ^ 2) ≤ 16 * (m + 1) ^ 2 * (3 * m + 1) := by nlinarith
      calc (m + 1) ^ 2 * ((3 * (m + 1) + 1) * y) = (3 * (m + 1) + 1) * (4 * (2 * m + 1) ^ 2) * x := by
            rw [mul_left_comm, hsq]; ring
        _ ≤ 16 * (m + 1) ^ 2 * (3 * m + 1) * x := by gcongr
        _ = (m + 1) ^ 2 * (16 * ((3 * m + 1) * x)) := by ring
        _ ≤ (m + 1) ^ 2 * (16 * z) := by gcongr

/-- The middle cell, without square roots. -/
theorem middle_bounds (r n j : Nat) (hr : 0 < r) (s : ℝ) (hs : 0 ≤ s) :
    (s ^ 2 * (4 * (r * 2 ^ j)) ≤ ((n / 2 ^ (j + 1) : Nat) : ℝ) ^ 2 → s ≤ middle r n j) ∧
    (0 < s → ((n / 2 ^ (j + 1) : Nat) : ℝ) ^ 2 < s ^ 2 * (3 * (r * 2 ^ j) + 1) → middle r n j < s) := by
  obtain ⟨a, b⟩ := central_bounds (r * 2 ^ j) (by positivity)
  have hN : r * 2 ^ (j + 1) = 2 * (r * 2 ^ j) := by rw [pow_succ]; ring
  have h4 : (2 : ℝ) ^ (2 * (r * 2 ^ j)) = 4 ^ (r * 2 ^ j) := by rw [pow_mul]; norm_num
  rw [middle, hN, h4, ← Nat.centralBinom_eq_two_mul_choose]
  have ha : ((4 : ℝ) ^ (r * 2 ^ j)) ^ 2 ≤ 4 * (r * 2 ^ j) * ((r * 2 ^ j).centralBinom : ℝ) ^ 2 := by exact_mod_cast a
  have hb : (3 * (r * 2 ^ j) + 1) * ((r * 2 ^ j).centralBinom : ℝ) ^ 2 ≤ ((4 : ℝ) ^ (r * 2 ^ j)) ^ 2 := by exact_mod_cast b
  have hz : (0 : ℝ) < 4 ^ (r * 2 ^ j) := by positivity
  have hc0 : (0 : ℝ) ≤ ((r * 2 ^ j).centralBinom : ℝ) := Nat.cast_nonneg _
  have hm0 : (0 : ℝ) ≤ r * 2 ^ j := by positivity
  have hw0 : (0 : ℝ) ≤ ((n / 2 ^ (j + 1) : Nat) : ℝ) := Nat.cast_nonneg _
  generalize (4 : ℝ) ^ (r * 2 ^ j) = z at *
  generalize ((r * 2 ^ j).centralBinom : ℝ) = c at *
  generalize ((n / 2 ^ (j + 1) : Nat) : ℝ) = w at *
  generalize (r : ℝ) * 2 ^ j = m at *
  rw [← mul_div_assoc]
  constructor
  · intro h
    rw [le_div_iff₀ hz]
    refine (pow_le_pow_iff_left₀ (by positivity) (by positivity) (two_ne_zero)).1 ?_
    calc (s * z) ^ 2 = s ^ 2 * z ^ 2 := mul_pow _ _ _
      _ ≤ s ^ 2 * (4 * m * c ^ 2) := by gcongr
      _ = s ^ 2 * (4 * m) * c ^ 2 := by ring
      _ ≤ w ^ 2 * c ^ 2 := by gcongr
      _ = (w * c) ^ 2 := (mul_pow _ _ _).symm
  · intro h0 h
    rw [div_lt_iff₀ hz]
    refine (pow_lt_pow_iff_left₀ (by positivity) (by positivity) (two_ne_zero)).1 ?_
    have hpos : 0 < 3 * m + 1 := by positivity
    refine lt_of_mul_lt_mul_left ?_ hpos.le
    calc (3 * m + 1) * (w * c) ^ 2 = w ^ 2 * ((3 * m + 1) * c ^ 2) := by ring
      _ ≤ w ^ 2 * z ^ 2 := by gcongr
      _ < s ^ 2 * (3 * m + 1) * z ^ 2 := by gcongr
      _ = (3 * m + 1) * (s * z) ^ 2 := by ring

/-- C122: with the 65000000 words the test asks for by default, and 32 bits, there are twelve levels, blocks of up to 4096 words. -/
theorem C122_default : monobit2Levels 32 65000000 16 0 = 12 := by
  obtain ⟨-, h2, h3⟩ := C122_levels 32 65000000
  have low : ∀ j < 12, 20 ≤ middle 32 65000000 j := by
    intro j hj
    refine (middle_bounds 32 65000000 j (by norm_num) 20 (by norm_num)).1 ?_
    interval_cases j <;> norm_num
  have high : middle 32 65000000 12 < 20 := by
    refine (middle_bounds 32 65000000 12 (by norm_num) 20 (by norm_num)).2 (by norm_num) ?_
    norm_num
  rcases Nat.lt_trichotomy (monobit2Levels 32 65000000 16 0) 12 with h | h | h
  · exact absurd (h3 (by omega)) (not_lt.2 (low _ h))
  · exact h
  · exact absurd (h2 12 h) (not_le.2 high)

/-- With 404 words there is a level. -/
example : 0 < monobit2Levels 32 404 16 0 := by
  by_contra h
  have h0 : monobit2Levels 32 404 16 0 = 0 := by omega
  have h1 := (C122_levels 32 404).2.2
  have hc : (32 * 2 ^ (0 + 1)).choose (32 * 2 ^ 0) = 1832624140942590534 := by decide +kernel
  rw [h0, middle, hc] at h1
  norm_num at h1

/-- Words of zeros among twelve, in blocks of two and four words: 6 blocks of level 0 without ones end at words 1, 3, 5, 7, 9 and 11, and 3 of level 1
at 2, 6 and 10. -/
example : observed (fun _ => 0) 32 2 12 0 0 = 6 ∧ observed (fun _ => 0) 32 2 12 1 0 = 3 ∧ observed (fun _ => 0) 32 2 12 0 64 = 3 := by decide +kernel

example (gammaQ : ℝ → ℝ → ℝ) : dabMonobit2 gammaQ 32 0 (fun i => BitVec.ofNat 32 (i * 2654435769)) 400 = .ok (0, 0) := C122_few gammaQ _ 400 (by norm_num)

end Dh
