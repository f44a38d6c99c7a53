import Mathlib.Tactic.NormNum
import Verif.Proof.Operm5Form
import Verif.Model.Operm5Stat
import Verif.Props.MinDist
import Mathlib.Algebra.Order.BigOperators.Group.Finset
/-
C86: the statistic of the overlapping permutations test and its mean for numbers in random order.
-/
set_option linter.unusedSimpArgs false
namespace Dh

namespace Spec

/-- The table of include/dieharder/diehard_operm5.h. -/
noncomputable def op5Weight (i j : Nat) : ℝ := ((op5Table.getD i []).getD j 0 : Int) / 10 ^ 14

/-- The number of the samples `0, ..., n-1` that are in cell `i`; sample `t` is the five draws from `start t`. -/
def op5Count (start : Nat → Nat) (src : Src) (n i : Nat) : Nat :=
  (List.range n).countP fun t => decide (kperm (fun k => src (start t + k)) 0 = i)

/-- The quadratic form of the counts, for overlapping samples. -/
noncomputable def op5Overlap (src : Src) (n : Nat) : ℝ :=
  (∑ i ∈ Finset.range 120, ∑ j ∈ Finset.range 120,
    ((op5Count (fun t => t) src n i : ℝ) - n / 120) * op5Weight i j * ((op5Count (fun t => t) src n j : ℝ) - n / 120)) / n

/-- Pearson's statistic of the counts, for disjoint samples. -/
noncomputable def op5Disjoint (src : Src) (n : Nat) : ℝ :=
  (∑ i ∈ Finset.range 120, ((op5Count (fun t => 5 + 5 * t) src n i : ℝ) - n / 120) ^ 2) / (n / 120)

/-- The draws are `N` given values, in the order `σ`. -/
def orderSrc {N : Nat} (x : Fin N → UInt) (σ : Equiv.Perm (Fin N)) (i : Nat) : UInt := if h : i < N then x (σ ⟨i, h⟩) else 0

end Spec
open Spec

/-! ### The loops -/

theorem op5RowLoop_eq (x : List ℝ) (xi : ℝ) (row : List Int) (hx : x.length = 120) (hr : row.length = 120) : ∀ (todo j : Nat) (c : ℝ), j + todo ≤ 120 →
    op5RowLoop x xi row todo j c = .ok (c + ∑ k ∈ Finset.range todo, xi * (((row.getD (j + k) 0 : Int) : ℝ) / 10 ^ 14) * x.getD (j + k) 0)
  | 0, j, c, _ => by simp [op5RowLoop]
  | todo + 1, j, c, h => by
    rw [op5RowLoop, rd_dflt 0 (by omega), Res.bind_ok, rd_dflt 0 (by omega), Res.bind_ok, op5RowLoop_eq x xi row hx hr todo (j + 1) _ (by omega),
      Finset.sum_range_succ']
    simp only [Nat.add_zero, Nat.add_assoc, Nat.add_comm 1]
    congr 1
    ring

theorem op5QuadLoop_eq (x : List ℝ) (hx : x.length = 120) : ∀ (todo i : Nat) (c : ℝ), i + todo ≤ 120 →
    op5QuadLoop x todo i c = .ok (c + ∑ k ∈ Finset.range todo, ∑ j ∈ Finset.range 120, x.getD (i + k) 0 * op5Weight (i + k) j * x.getD j 0)
  | 0, i, c, _ => by simp [op5QuadLoop]
  | todo + 1, i, c, h => by
    rw [op5QuadLoop, rd_dflt 0 (by omega), Res.bind_ok, rd_dflt [] (by rw [op5Table_rows.1]; omega), Res.bind_ok,
      op5RowLoop_eq x _ _ hx (op5Table_rows.2 _ (op5Row_mem (by omega))).1 120 0 c (by omega), Res.bind_ok, op5QuadLoop_eq x hx todo (i + 1) _ (by omega),
      Finset.sum_range_succ' (n := todo)]
    simp only [Nat.add_zero, Nat.zero_add, Nat.add_assoc, Nat.add_comm 1, op5Weight]
    congr 1
    ring

theorem op5SquareLoop_eq (x : List ℝ) (hx : x.length = 120) : ∀ (todo i : Nat) (c : ℝ), i + todo ≤ 120 →
    op5SquareLoop x todo i c = .ok (c + ∑ k ∈ Finset.range todo, x.getD (i + k) 0 ^ 2)
  | 0, i, c, _ => by simp [op5SquareLoop]
  | todo + 1, i, c, h => by
    rw [op5SquareLoop, rd_dflt 0 (by omega), Res.bind_ok, op5SquareLoop_eq x hx todo (i + 1) _ (by omega), Finset.sum_range_succ']
    simp only [Nat.add_zero, Nat.add_assoc, Nat.add_comm 1]
    congr 1
    ring

theorem getD_sub (count : List Nat) (av : ℝ) (h : count.length = 120) {i : Nat} (hi : i < 120) :
    (count.map fun c : Nat => (c : ℝ) - av).getD i 0 = (count.getD i 0 : ℝ) - av := by
  rw [List.getD_eq_getElem _ _ (by rw [List.length_map]; omega), List.getElem_map, List.getD_eq_getElem _ _ (by omega)]

/-- **C86.** With overlapping samples the test returns the probability that a chi-square variable with 96 degrees of freedom exceeds
the absolute value of the quadratic form of the counts. -/
theorem C86_overlap_statistic (gammaQ : ℝ → ℝ → ℝ) (src : Src) (n : Nat) :
    operm5Test gammaQ true src n = .ok (gammaQ (96 / 2) (|op5Overlap src n| / 2)) := by
  obtain ⟨count, h1, h2, -, h4⟩ := C31_tally true src n
  have hx : (count.map fun c : Nat => (c : ℝ) - (n : ℝ) / 120).length = 120 := by rw [List.length_map, h2]
  rw [operm5Test, h1, Res.bind_ok]
  simp only [if_true, Res.bind_ok]
  rw [op5QuadLoop_eq _ hx 120 0 0 (by omega), Res.bind_ok, zero_add]
  simp only [Nat.zero_add]
  have e : ∑ k ∈ Finset.range 120, ∑ j ∈ Finset.range 120, (count.map fun c : Nat => (c : ℝ) - (n : ℝ) / 120).getD k 0 * op5Weight k j *
      (count.map fun c : Nat => (c : ℝ) - (n : ℝ) / 120).getD j 0 = ∑ i ∈ Finset.range 120, ∑ j ∈ Finset.range 120,
    ((op5Count (fun t => t) src n i : ℝ) - n / 120) * op5Weight i j * ((op5Count (fun t => t) src n j : ℝ) - n / 120) := by
    refine Finset.sum_congr rfl fun i hi => Finset.sum_congr rfl fun j hj => ?_
    rw [getD_sub _ _ h2 (Finset.mem_range.1 hi), getD_sub _ _ h2 (Finset.mem_range.1 hj), h4, h4]
    rfl
  rw [e, op5Overlap]

/-- **C86.** With disjoint samples it uses Pearson's statistic and 119 degrees of freedom. -/
theorem C86_disjoint_statistic (gammaQ : ℝ → ℝ → ℝ) (src : Src) (n : Nat) :
    operm5Test gammaQ false src n = .ok (gammaQ (119 / 2) (op5Disjoint src n / 2)) := by
  obtain ⟨count, h1, h2, -, h4⟩ := C31_tally false src n
  have hx : (count.map fun c : Nat => (c : ℝ) - (n : ℝ) / 120).length = 120 := by rw [List.length_map, h2]
  rw [operm5Test, h1, Res.bind_ok]
  simp only [Bool.false_eq_true, if_false, Res.bind_ok]
  rw [op5SquareLoop_eq _ hx 120 0 0 (by omega), Res.bind_ok, zero_add]
  simp only [Nat.zero_add]
  have e : ∑ k ∈ Finset.range 120, (count.map fun c : Nat => (c : ℝ) - (n : ℝ) / 120).getD k 0 ^ 2 =
      ∑ i ∈ Finset.range 120, ((op5Count (fun t => 5 + 5 * t) src n i : ℝ) - n / 120) ^ 2 := by
    refine Finset.sum_congr rfl fun i hi => ?_
    rw [getD_sub _ _ h2 (Finset.mem_range.1 hi), h4]
    rfl
  rw [e, op5Disjoint, abs_of_nonneg (div_nonneg (Finset.sum_nonneg fun _ _ => sq_nonneg _) (by positivity))]

/-! ### The mean -/

theorem op5Count_eq (start : Nat → Nat) (src : Src) (n i : Nat) : op5Count start src n i = cellCount (fun t => drawCell src (start t)) n i := rfl

theorem op5_total_real : ∑ i ∈ Finset.range 120, ∑ j ∈ Finset.range 120, (op5Entry i j : ℝ) = -377424 := by
  have h := congrArg (fun z : Int => (z : ℝ)) op5_total
  simp only [Int.cast_list_sum, List.map_map, Int.cast_neg, Int.cast_ofNat] at h
  rw [← h, ← sum_range_list]
  congr 1
  refine List.map_congr_left fun i _ => ?_
  rw [Function.comp_apply, Int.cast_list_sum, List.map_map, ← sum_range_list]
  rfl

theorem op5_diag_real : ∑ i ∈ Finset.range 120, (op5Entry i i : ℝ) = 1156860515898460000 := by
  have h := congrArg (fun z : Int => (z : ℝ)) op5_diag
  simp only [Int.cast_list_sum, List.map_map, Int.cast_ofNat] at h
  rw [← h, ← sum_range_list]
  rfl

/-- The mean of the symmetric table over two samples at distance `l`. -/
noncomputable def op5Lag : Nat → ℝ
  | 0 => 2 * 1156860515898460000 / 120
  | 1 => 497008312907044140 / 720
  | 2 => -764246554663646140 / 5040
  | 3 => -11407407152647128609 / 40320
  | 4 => -107497973472492400045 / 362880
  | _ => -2 * 377424 / 14400

theorem op5Lag_mean {N : Nat} (x : Fin N → UInt) (hx : Function.Injective x) (s l : Nat) (h : s + l + 5 ≤ N) :
    (mean fun σ : Equiv.Perm (Fin N) => (op5Entry (drawCell (permSrc x σ) s) (drawCell (permSrc x σ) (s + l)) : ℝ) +
      op5Entry (drawCell (permSrc x σ) (s + l)) (drawCell (permSrc x σ) s)) = op5Lag l := by
  by_cases h5 : 5 ≤ l
  · rw [mean_cells_far x hx (fun a b => (op5Entry a b : ℝ) + op5Entry b a) (by omega) (by omega) (by omega)]
    simp only [Finset.sum_add_distrib]
    rw [Finset.sum_comm (f := fun i j => (op5Entry j i : ℝ)), op5_total_real]
    have e : op5Lag l = -2 * 377424 / 14400 := by
      obtain ⟨k, rfl⟩ := Nat.exists_eq_add_of_le' h5
      rfl
    rw [e]
    norm_num
  · rcases Nat.eq_zero_or_pos l with rfl | hl
    · simp only [Nat.add_zero]
      rw [mean_cell x hx (fun a => (op5Entry a a : ℝ) + op5Entry a a) (by omega), Finset.sum_add_distrib, op5_diag_real, op5Lag]
      norm_num
    · rw [mean_cells_near x hx (fun a b => (op5Entry a b : ℝ) + op5Entry b a) (by omega)]
      have hl4 : l = 1 ∨ l = 2 ∨ l = 3 ∨ l = 4 := by omega
      rcases hl4 with rfl | rfl | rfl | rfl
      · rw [lag_sum 1 (by omega) _ lagFast_1, op5Lag]
        norm_num [Nat.ascFactorial, Nat.factorial]
      · rw [lag_sum 2 (by omega) _ lagFast_2, op5Lag]
        norm_num [Nat.ascFactorial, Nat.factorial]
      · rw [lag_sum 3 (by omega) _ lagFast_3, op5Lag]
        norm_num [Nat.ascFactorial, Nat.factorial]
      · rw [lag_sum 4 (by omega) _ lagFast_4, op5Lag]
        norm_num [Nat.ascFactorial, Nat.factorial]

/-- **C86.** The mean of the quadratic form over all orders of `N` different values: 96 up to the rounding of the table, and a
term that decreases with the number of samples. -/
theorem C86_overlap_mean {N : Nat} (x : Fin N → UInt) (hx : Function.Injective x) (n : Nat) (h4 : 4 ≤ n) (hN : n + 4 ≤ N) :
    (mean fun σ : Equiv.Perm (Fin N) => op5Overlap (orderSrc x σ) n) =
      1244160000000028502399 / 12960000000000000000 + 597551201177666648527 / 36288000000000000000 / n := by
  have hn : (n : ℝ) ≠ 0 := by exact_mod_cast (by omega : n ≠ 0)
  set c : Equiv.Perm (Fin N) → Nat → Nat := fun σ t => drawCell (permSrc x σ) t with hc
  have e1 : ∀ σ : Equiv.Perm (Fin N), op5Overlap (orderSrc x σ) n =
      (1 / 10 ^ 14 / 2 / n) * ((∑ s ∈ Finset.range n, ∑ t ∈ Finset.range n, ((op5Entry (c σ s) (c σ t) : ℝ) + op5Entry (c σ t) (c σ s)) -
        2 * (n / 120) * ∑ t ∈ Finset.range n, ∑ j ∈ Finset.range 120, ((op5Entry (c σ t) j : ℝ) + op5Entry j (c σ t))) +
        2 * (n / 120) ^ 2 * (-377424)) := by
    intro σ
    have h := quad_expand (c σ) (fun t => drawCell_lt _ _) n (fun i j => (op5Entry i j : ℝ)) (n / 120)
    rw [op5_total_real] at h
    have e2 : ∑ s ∈ Finset.range n, ∑ t ∈ Finset.range n, ((op5Entry (c σ s) (c σ t) : ℝ) + op5Entry (c σ t) (c σ s)) =
        2 * ∑ s ∈ Finset.range n, ∑ t ∈ Finset.range n, (op5Entry (c σ s) (c σ t) : ℝ) := by
      simp only [Finset.sum_add_distrib]
      rw [Finset.sum_comm (f := fun s t => (op5Entry (c σ t) (c σ s) : ℝ)), two_mul]
    have e3 : op5Overlap (orderSrc x σ) n = (1 / 10 ^ 14 / n) * ∑ i ∈ Finset.range 120, ∑ j ∈ Finset.range 120,
        ((cellCount (c σ) n i : ℝ) - n / 120) * (op5Entry i j : ℝ) * ((cellCount (c σ) n j : ℝ) - n / 120) := by
      rw [op5Overlap, Finset.mul_sum, Finset.sum_div]
      refine Finset.sum_congr rfl fun i _ => ?_
      rw [Finset.mul_sum, Finset.sum_div]
      refine Finset.sum_congr rfl fun j _ => ?_
      rw [op5Count_eq, op5Count_eq, op5Weight]
      change ((cellCount (c σ) n i : ℝ) - n / 120) * ((op5Entry i j : ℝ) / 10 ^ 14) * ((cellCount (c σ) n j : ℝ) - n / 120) / n = _
      field_simp
    rw [e3, h, e2]
    ring
  rw [mean_congr e1, mean_mul_left, mean_add, mean_const, mean_sub, mean_mul_left, mean_sum, mean_sum]
  simp only [mean_sum]
  have e4 : ∀ t ∈ Finset.range n, ∑ j ∈ Finset.range 120, (mean fun σ : Equiv.Perm (Fin N) => (op5Entry (c σ t) j : ℝ) + op5Entry j (c σ t)) =
      2 * (-377424) / 120 := by
    intro t ht
    have ht := Finset.mem_range.1 ht
    rw [← mean_sum, mean_cell x hx (fun a => ∑ j ∈ Finset.range 120, ((op5Entry a j : ℝ) + op5Entry j a)) (by omega)]
    simp only [Finset.sum_add_distrib]
    rw [Finset.sum_comm (f := fun i j => (op5Entry j i : ℝ)), op5_total_real]
    norm_num
  rw [Finset.sum_congr rfl e4, Finset.sum_const, Finset.card_range, nsmul_eq_mul]
  have e5 : ∀ s ∈ Finset.range n, ∀ t ∈ Finset.range n,
      (mean fun σ : Equiv.Perm (Fin N) => (op5Entry (c σ s) (c σ t) : ℝ) + op5Entry (c σ t) (c σ s)) = op5Lag (max s t - min s t) := by
    intro s hs t ht
    have hs := Finset.mem_range.1 hs
    have ht := Finset.mem_range.1 ht
    rcases Nat.le_total s t with h | h
    · have := op5Lag_mean x hx s (t - s) (by omega)
      rw [Nat.add_sub_cancel' h] at this
      rw [max_eq_right h, min_eq_left h, ← this]
    · have := op5Lag_mean x hx t (s - t) (by omega)
      rw [Nat.add_sub_cancel' h] at this
      rw [max_eq_left h, min_eq_right h, ← this]
      exact mean_congr fun σ => add_comm _ _
  rw [Finset.sum_congr rfl fun s hs => Finset.sum_congr rfl fun t ht => e5 s hs t ht]
  obtain ⟨k, rfl⟩ := Nat.exists_eq_add_of_le' h4
  have hlag : ∀ l, 5 ≤ l → op5Lag l = -2 * 377424 / 14400 := by
    intro l hl
    obtain ⟨k, rfl⟩ := Nat.exists_eq_add_of_le' hl
    rfl
  rw [sum_pairs op5Lag _ hlag (fun s t => op5Lag (max s t - min s t)) (fun s l => by
    rw [max_eq_right (by omega), min_eq_left (by omega), Nat.add_sub_cancel_left]) (fun s t => by rw [max_comm, min_comm])]
  simp only [op5Lag]
  push_cast at hn ⊢
  field_simp
  ring

/-- **C86.** So the mean differs from the 96 of the chi-square distribution by less than `16.47 / n`, and at most `3 · 10^-12`. -/
theorem C86_overlap_bound {N : Nat} (x : Fin N → UInt) (hx : Function.Injective x) (n : Nat) (h4 : 4 ≤ n) (hN : n + 4 ≤ N) :
    |(mean fun σ : Equiv.Perm (Fin N) => op5Overlap (orderSrc x σ) n) - 96| ≤ 16.47 / n + 3 / 10 ^ 12 := by
  have hn : (0 : ℝ) < n := by exact_mod_cast (by omega : 0 < n)
  rw [C86_overlap_mean x hx n h4 hN, abs_of_nonneg]
  · have : (597551201177666648527 / 36288000000000000000 / n : ℝ) ≤ 16.47 / n := by
      gcongr
      norm_num
    norm_num at this ⊢
    linarith
  · have : (0 : ℝ) ≤ 597551201177666648527 / 36288000000000000000 / n := by positivity
    norm_num at this ⊢
    linarith

/-- **C86.** The mean of Pearson's statistic of disjoint samples is 119. -/
theorem C86_disjoint_mean {N : Nat} (x : Fin N → UInt) (hx : Function.Injective x) (n : Nat) (h0 : 0 < n) (hN : 5 + 5 * n ≤ N) :
    (mean fun σ : Equiv.Perm (Fin N) => op5Disjoint (orderSrc x σ) n) = 119 := by
  have hn : (n : ℝ) ≠ 0 := by exact_mod_cast (by omega : n ≠ 0)
  set c : Equiv.Perm (Fin N) → Nat → Nat := fun σ t => drawCell (permSrc x σ) (5 + 5 * t) with hc
  set δ : Nat → Nat → ℝ := fun i j => if i = j then 1 else 0 with hδ
  have htot : ∑ i ∈ Finset.range 120, ∑ j ∈ Finset.range 120, δ i j = 120 := by
    have : ∀ i ∈ Finset.range 120, ∑ j ∈ Finset.range 120, δ i j = 1 := fun i hi => by
      simp only [hδ]
      rw [Finset.sum_ite_eq, if_pos hi]
    rw [Finset.sum_congr rfl this]
    simp
  have e1 : ∀ σ : Equiv.Perm (Fin N), op5Disjoint (orderSrc x σ) n =
      (1 / (n / 120)) * ((∑ s ∈ Finset.range n, ∑ t ∈ Finset.range n, δ (c σ s) (c σ t) -
        (n / 120) * ∑ t ∈ Finset.range n, ∑ j ∈ Finset.range 120, (δ (c σ t) j + δ j (c σ t))) + (n / 120) ^ 2 * 120) := by
    intro σ
    have h := quad_expand (c σ) (fun t => drawCell_lt _ _) n δ (n / 120)
    rw [htot] at h
    rw [← h, op5Disjoint, div_eq_mul_inv, mul_comm, one_div]
    congr 1
    refine Finset.sum_congr rfl fun i hi => ?_
    simp only [hδ, mul_ite, ite_mul, mul_one, mul_zero, zero_mul]
    rw [Finset.sum_ite_eq, if_pos hi, sq]
    rfl
  rw [mean_congr e1, mean_mul_left, mean_add, mean_const, mean_sub, mean_mul_left, mean_sum, mean_sum]
  simp only [mean_sum]
  have e4 : ∀ t ∈ Finset.range n, ∑ j ∈ Finset.range 120, (mean fun σ : Equiv.Perm (Fin N) => δ (c σ t) j + δ j (c σ t)) = 2 := by
    intro t ht
    have ht := Finset.mem_range.1 ht
    rw [← mean_sum, mean_cell x hx (fun a => ∑ j ∈ Finset.range 120, (δ a j + δ j a)) (by omega)]
    simp only [Finset.sum_add_distrib]
    rw [Finset.sum_comm (f := fun i j => δ j i), htot]
    norm_num
  have e5 : ∀ s ∈ Finset.range n, ∑ t ∈ Finset.range n, (mean fun σ : Equiv.Perm (Fin N) => δ (c σ s) (c σ t)) = 1 + (n - 1) / 120 := by
    intro s hs
    have hs' := Finset.mem_range.1 hs
    have e6 : ∀ t ∈ Finset.range n, (mean fun σ : Equiv.Perm (Fin N) => δ (c σ s) (c σ t)) = 1 / 120 + if s = t then 119 / 120 else 0 := by
      intro t ht
      have ht' := Finset.mem_range.1 ht
      by_cases hst : s = t
      · subst hst
        rw [if_pos rfl]
        have : ∀ σ, δ (c σ s) (c σ s) = 1 := fun σ => if_pos rfl
        rw [mean_congr this, mean_const]
        norm_num
      · rw [if_neg hst, mean_cells_far x hx δ (by omega) (by omega) (by omega), htot]
        norm_num
    rw [Finset.sum_congr rfl e6, Finset.sum_add_distrib, Finset.sum_ite_eq, if_pos hs, Finset.sum_const, Finset.card_range, nsmul_eq_mul]
    ring
  rw [Finset.sum_congr rfl e4, Finset.sum_congr rfl e5, Finset.sum_const, Finset.sum_const, Finset.card_range, nsmul_eq_mul, nsmul_eq_mul]
  field_simp
  ring

example : (mean fun σ : Equiv.Perm (Fin 1000004) => op5Overlap (orderSrc (fun i => BitVec.ofNat 32 i.val) σ) 1000000) =
    1244160000000028502399 / 12960000000000000000 + 597551201177666648527 / 36288000000000000000 / 1000000 := by
  have h := C86_overlap_mean (fun i : Fin 1000004 => BitVec.ofNat 32 i.val) (fun i j e => by
    have := congrArg BitVec.toNat e
    simp only [BitVec.toNat_ofNat] at this
    rw [Nat.mod_eq_of_lt (by omega), Nat.mod_eq_of_lt (by omega)] at this
    exact Fin.ext this) 1000000 (by norm_num) (by norm_num)
  simpa only [Nat.cast_ofNat] using h

end Dh
