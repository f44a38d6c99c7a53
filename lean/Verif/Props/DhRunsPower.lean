import Verif.Props.RunsMean
import Verif.Props.OrderPower
/-
C147: what diehard_runs always finds.
-/
namespace Dh

open Spec

/-! ### The quadratic form as a sum of squares -/

theorem runs_expand (d : Nat → ℝ) : ∑ i ∈ Finset.range 6, ∑ j ∈ Finset.range 6, d i * d j * runsWeight i j =
    d 0 * d 0 * (22647 / 5) + d 0 * d 1 * (90449 / 10) + d 0 * d 2 * (13568 / 1) + d 0 * d 3 * (18091 / 1) + d 0 * d 4 * (22615 / 1) + d 0 * d 5 * (27892 / 1) + d 1 * d 0 * (90449 / 10) + d 1 * d 1 * (18097 / 1) + d 1 * d 2 * (27139 / 1) + d 1 * d 3 * (36187 / 1) + d 1 * d 4 * (45234 / 1) + d 1 * d 5 * (55789 / 1) + d 2 * d 0 * (13568 / 1) + d 2 * d 1 * (27139 / 1) + d 2 * d 2 * (40721 / 1) + d 2 * d 3 * (54281 / 1) + d 2 * d 4 * (67852 / 1) + d 2 * d 5 * (83685 / 1) + d 3 * d 0 * (18091 / 1) + d 3 * d 1 * (36187 / 1) + d 3 * d 2 * (54281 / 1) + d 3 * d 3 * (72414 / 1) + d 3 * d 4 * (90470 / 1) + d 3 * d 5 * (111580 / 1) + d 4 * d 0 * (22615 / 1) + d 4 * d 1 * (45234 / 1) + d 4 * d 2 * (67852 / 1) + d 4 * d 3 * (90470 / 1) + d 4 * d 4 * (113262 / 1) + d 4 * d 5 * (139476 / 1) + d 5 * d 0 * (27892 / 1) + d 5 * d 1 * (55789 / 1) + d 5 * d 2 * (83685 / 1) + d 5 * d 3 * (111580 / 1) + d 5 * d 4 * (139476 / 1) + d 5 * d 5 * (172860 / 1) := by
  simp only [Finset.sum_range_succ, Finset.sum_range_zero, zero_add, runsWeight, runsA, List.getD_cons_zero, List.getD_cons_succ]
  norm_num
  ring

/-- The form bounds the sum of the deviations. -/
theorem runs_total (d : Nat → ℝ) : 12 * (d 0 + d 1 + d 2 + d 3 + d 4 + d 5) ^ 2 ≤ ∑ i ∈ Finset.range 6, ∑ j ∈ Finset.range 6, d i * d j * runsWeight i j := by
  have e : ∑ i ∈ Finset.range 6, ∑ j ∈ Finset.range 6, d i * d j * runsWeight i j - 12 * (d 0 + d 1 + d 2 + d 3 + d 4 + d 5) ^ 2 =
      (22683 / 5) * (d 1 + (30185 / 15122) * d 2 + (135805 / 45366) * d 3 + (60345 / 15122) * d 4 + (233815 / 45366) * d 5 + (45155 / 45366) * (d 0 + d 1 + d 2 + d 3 + d 4 + d 5)) ^ 2 +
      (5856893 / 151220) * (d 2 + (6560783 / 5856893) * d 3 + (9380573 / 5856893) * d 4 + (12494593 / 5856893) * d 5 + (3813417 / 5856893) * (d 0 + d 1 + d 2 + d 3 + d 4 + d 5)) ^ 2 +
      (1036862027 / 17570679) * (d 3 + (533008902 / 1036862027) * d 4 + (709082765 / 1036862027) * d 5 + (281400580 / 1036862027) * (d 0 + d 1 + d 2 + d 3 + d 4 + d 5)) ^ 2 +
      (211153811697 / 1036862027) * (d 4 + (4657219610 / 23461534633) * d 5 + (6109968259 / 70384603899) * (d 0 + d 1 + d 2 + d 3 + d 4 + d 5)) ^ 2 +
      (20786061129258 / 23461534633) * (d 5 + (84421831637 / 3464343521543) * (d 0 + d 1 + d 2 + d 3 + d 4 + d 5)) ^ 2 +
      (261262313856 / 3464343521543) * ((d 0 + d 1 + d 2 + d 3 + d 4 + d 5)) ^ 2 := by
    rw [runs_expand]
    ring
  refine sub_nonneg.1 ?_
  rw [e]
  positivity

/-- The form bounds the deviation of class 0. -/
theorem runs_class_0 (d : Nat → ℝ) : (39 / 5) * d 0 ^ 2 ≤ ∑ i ∈ Finset.range 6, ∑ j ∈ Finset.range 6, d i * d j * runsWeight i j := by
  have e : ∑ i ∈ Finset.range 6, ∑ j ∈ Finset.range 6, d i * d j * runsWeight i j - (39 / 5) * d 0 ^ 2 =
      (18097 / 1) * (d 1 + (27139 / 18097) * d 2 + (36187 / 18097) * d 3 + (45234 / 18097) * d 4 + (55789 / 18097) * d 5 + (90449 / 180970) * d 0) ^ 2 +
      (402616 / 18097) * (d 2 + (30533 / 50327) * d 3 + (156059 / 201308) * d 4 + (194887 / 201308) * d 5 + (705549 / 4026160) * d 0) ^ 2 +
      (2305403 / 50327) * (d 3 + (454610 / 2305403) * d 4 + (529061 / 2305403) * d 5 + (30902 / 606685) * d 0) ^ 2 +
      (844213087 / 4610806) * (d 4 + (50413527 / 844213087) * d 5 + (324215677 / 16884261740) * d 0) ^ 2 +
      (718496976972 / 844213087) * (d 5 + (2869077597 / 598747480810) * d 0) ^ 2 +
      (720508281477 / 11974949616200) * (d 0) ^ 2 := by
    rw [runs_expand]
    ring
  refine sub_nonneg.1 ?_
  rw [e]
  positivity

/-- The form bounds the deviation of class 1. -/
theorem runs_class_1 (d : Nat → ℝ) : (71 / 10) * d 1 ^ 2 ≤ ∑ i ∈ Finset.range 6, ∑ j ∈ Finset.range 6, d i * d j * runsWeight i j := by
  have e : ∑ i ∈ Finset.range 6, ∑ j ∈ Finset.range 6, d i * d j * runsWeight i j - (71 / 10) * d 1 ^ 2 =
      (22647 / 5) * (d 0 + (67840 / 22647) * d 2 + (90455 / 22647) * d 3 + (113075 / 22647) * d 4 + (139460 / 22647) * d 5 + (90449 / 45294) * d 1) ^ 2 +
      (1755367 / 22647) * (d 2 + (2008367 / 1755367) * d 3 + (2442644 / 1755367) * d 4 + (3020915 / 1755367) * d 5 + (1010917 / 1755367) * d 1) ^ 2 +
      (96160446 / 1755367) * (d 3 + (34070581 / 96160446) * d 4 + (40699085 / 96160446) * d 5 + (33164885 / 192320892) * d 1) ^ 2 +
      (18252257675 / 96160446) * (d 4 + (1848476401 / 18252257675) * d 5 + (1526961259 / 36504515350) * d 1) ^ 2 +
      (15697331204244 / 18252257675) * (d 5 + (27297923583 / 2616221867374) * d 1) ^ 2 +
      (124923899606 / 1308110933687) * (d 1) ^ 2 := by
    rw [runs_expand]
    ring
  refine sub_nonneg.1 ?_
  rw [e]
  positivity

/-- The form bounds the deviation of class 2. -/
theorem runs_class_2 (d : Nat → ℝ) : (17 / 1) * d 2 ^ 2 ≤ ∑ i ∈ Finset.range 6, ∑ j ∈ Finset.range 6, d i * d j * runsWeight i j := by
  have e : ∑ i ∈ Finset.range 6, ∑ j ∈ Finset.range 6, d i * d j * runsWeight i j - (17 / 1) * d 2 ^ 2 =
      (22647 / 5) * (d 0 + (90449 / 45294) * d 1 + (90455 / 22647) * d 3 + (113075 / 22647) * d 4 + (139460 / 22647) * d 5 + (67840 / 22647) * d 2) ^ 2 +
      (15833579 / 452940) * (d 1 + (27411190 / 15833579) * d 3 + (33246610 / 15833579) * d 4 + (41034580 / 15833579) * d 5 + (20218340 / 15833579) * d 2) ^ 2 +
      (815017806 / 15833579) * (d 3 + (124597810 / 407508903) * d 4 + (150118735 / 407508903) * d 5 + (9503291 / 42895674) * d 2) ^ 2 +
      (76544905406 / 407508903) * (d 4 + (3469644019 / 38272452703) * d 5 + (2168298088 / 38272452703) * d 2) ^ 2 +
      (32838643967556 / 38272452703) * (d 5 + (79996277607 / 5473107327926) * d 2) ^ 2 +
      (1082290713095 / 5473107327926) * (d 2) ^ 2 := by
    rw [runs_expand]
    ring
  refine sub_nonneg.1 ?_
  rw [e]
  positivity

/-- The form bounds the deviation of class 3. -/
theorem runs_class_3 (d : Nat → ℝ) : (44 / 1) * d 3 ^ 2 ≤ ∑ i ∈ Finset.range 6, ∑ j ∈ Finset.range 6, d i * d j * runsWeight i j := by
  have e : ∑ i ∈ Finset.range 6, ∑ j ∈ Finset.range 6, d i * d j * runsWeight i j - (44 / 1) * d 3 ^ 2 =
      (22647 / 5) * (d 0 + (90449 / 45294) * d 1 + (67840 / 22647) * d 2 + (113075 / 22647) * d 4 + (139460 / 22647) * d 5 + (90455 / 22647) * d 3) ^ 2 +
      (15833579 / 452940) * (d 1 + (20218340 / 15833579) * d 2 + (33246610 / 15833579) * d 4 + (41034580 / 15833579) * d 5 + (27411190 / 15833579) * d 3) ^ 2 +
      (324752879 / 15833579) * (d 2 + (223704398 / 324752879) * d 4 + (280361275 / 324752879) * d 5 + (180562529 / 324752879) * d 3) ^ 2 +
      (59402472282 / 324752879) * (d 4 + (63922746 / 1100045783) * d 5 + (142223629 / 3300137349) * d 3) ^ 2 +
      (935751748189 / 1100045783) * (d 5 + (9525348337 / 935751748189) * d 3) ^ 2 +
      (660307652056 / 935751748189) * (d 3) ^ 2 := by
    rw [runs_expand]
    ring
  refine sub_nonneg.1 ?_
  rw [e]
  positivity

/-- The form bounds the deviation of class 4. -/
theorem runs_class_4 (d : Nat → ℝ) : (181 / 1) * d 4 ^ 2 ≤ ∑ i ∈ Finset.range 6, ∑ j ∈ Finset.range 6, d i * d j * runsWeight i j := by
  have e : ∑ i ∈ Finset.range 6, ∑ j ∈ Finset.range 6, d i * d j * runsWeight i j - (181 / 1) * d 4 ^ 2 =
      (22647 / 5) * (d 0 + (90449 / 45294) * d 1 + (67840 / 22647) * d 2 + (90455 / 22647) * d 3 + (139460 / 22647) * d 5 + (113075 / 22647) * d 4) ^ 2 +
      (15833579 / 452940) * (d 1 + (20218340 / 15833579) * d 2 + (27411190 / 15833579) * d 3 + (41034580 / 15833579) * d 5 + (33246610 / 15833579) * d 4) ^ 2 +
      (324752879 / 15833579) * (d 2 + (180562529 / 324752879) * d 3 + (280361275 / 324752879) * d 5 + (223704398 / 324752879) * d 4) ^ 2 +
      (14657239027 / 324752879) * (d 3 + (2960811445 / 14657239027) * d 5 + (2560025322 / 14657239027) * d 4) ^ 2 +
      (12450210035970 / 14657239027) * (d 5 + (22075513797 / 2075035005995) * d 4) ^ 2 +
      (919125066253 / 2075035005995) * (d 4) ^ 2 := by
    rw [runs_expand]
    ring
  refine sub_nonneg.1 ?_
  rw [e]
  positivity

/-- The form bounds the deviation of class 5. -/
theorem runs_class_5 (d : Nat → ℝ) : (848 / 1) * d 5 ^ 2 ≤ ∑ i ∈ Finset.range 6, ∑ j ∈ Finset.range 6, d i * d j * runsWeight i j := by
  have e : ∑ i ∈ Finset.range 6, ∑ j ∈ Finset.range 6, d i * d j * runsWeight i j - (848 / 1) * d 5 ^ 2 =
      (22647 / 5) * (d 0 + (90449 / 45294) * d 1 + (67840 / 22647) * d 2 + (90455 / 22647) * d 3 + (113075 / 22647) * d 4 + (139460 / 22647) * d 5) ^ 2 +
      (15833579 / 452940) * (d 1 + (20218340 / 15833579) * d 2 + (27411190 / 15833579) * d 3 + (33246610 / 15833579) * d 4 + (41034580 / 15833579) * d 5) ^ 2 +
      (324752879 / 15833579) * (d 2 + (180562529 / 324752879) * d 3 + (223704398 / 324752879) * d 4 + (280361275 / 324752879) * d 5) ^ 2 +
      (14657239027 / 324752879) * (d 3 + (2560025322 / 14657239027) * d 4 + (2960811445 / 14657239027) * d 5) ^ 2 +
      (2660861723670 / 14657239027) * (d 4 + (7358504599 / 147825651315) * d 5) ^ 2 +
      (48000467332 / 49275217105) * (d 5) ^ 2 := by
    rw [runs_expand]
    ring
  refine sub_nonneg.1 ?_
  rw [e]
  positivity

/-! ### The number of runs -/

namespace Spec

/-- The places among the first `n` draws where the next draw is not larger. -/
def drops (src : Src) (n : Nat) : Nat := (List.range (n - 1)).countP fun i => decide ¬ src i < src (i + 1)

end Spec

/-- The deviation of class `i` from its expectation, `c i` runs having been counted. -/
noncomputable def runsDev (c : Nat → Nat) (n i : Nat) : ℝ := (c i : ℝ) - n * runsProb i

theorem runsForm_eq (c : Nat → Nat) (n : Nat) :
    runsForm c n = (∑ i ∈ Finset.range 6, ∑ j ∈ Finset.range 6, runsDev c n i * runsDev c n j * runsWeight i j) / n := rfl

/-- The table of the expectations adds up to half the number of draws. -/
theorem runsDev_sum (c : Nat → Nat) (n : Nat) :
    runsDev c n 0 + runsDev c n 1 + runsDev c n 2 + runsDev c n 3 + runsDev c n 4 + runsDev c n 5 = (∑ i ∈ Finset.range 6, c i : ℕ) - (n : ℝ) / 2 := by
  simp only [Finset.sum_range_succ, Finset.sum_range_zero, zero_add, runsDev, Nat.cast_add]
  norm_num [runsProb, Nat.factorial]
  ring

theorem inClass_sum : ∀ rs : List (List UInt), (∀ r ∈ rs, r ≠ []) → ∑ c ∈ Finset.range 6, inClass rs c = rs.length
  | [], _ => by simp [inClass]
  | r :: rs, h => by
    have ih := inClass_sum rs fun r hr => h r (List.mem_cons_of_mem _ hr)
    have h1 : 1 ≤ r.length := List.length_pos_iff.2 (h r (by simp))
    have e : ∀ c, inClass (r :: rs) c = inClass rs c + if (if c < 5 then r.length = c + 1 else 6 ≤ r.length) then 1 else 0 := fun c => by
      rw [inClass, List.countP_cons, inClass]
      simp only [decide_eq_true_eq]
    have e2 : ∑ c ∈ Finset.range 6, (if (if c < 5 then r.length = c + 1 else 6 ≤ r.length) then 1 else 0) = 1 := by
      simp only [Finset.sum_range_succ, Finset.sum_range_zero, zero_add]
      norm_num
      generalize r.length = m at h1
      split_ifs <;> omega
    rw [Finset.sum_congr rfl fun c _ => e c, Finset.sum_add_distrib, ih, e2, List.length_cons]

theorem upRuns_length (src : Src) : ∀ n, (upRuns (firstDraws src (n + 1))).length = drops src (n + 1) + 1
  | 0 => rfl
  | n + 1 => by
    have ih := upRuns_length src n
    have hl : firstDraws src (n + 1) ≠ [] := by simp [firstDraws]
    have hlast : (firstDraws src (n + 1)).getLast hl = src n := by simp [firstDraws_succ]
    have hd : drops src (n + 1 + 1) = drops src (n + 1) + if src n < src (n + 1) then 0 else 1 := by
      rw [drops, drops, Nat.add_sub_cancel, Nat.add_sub_cancel, List.range_succ, List.countP_append]
      by_cases h : src n < src (n + 1) <;> simp [h]
    rw [firstDraws_succ, hd]
    by_cases h : src n < src (n + 1)
    · obtain ⟨A, a, e⟩ : ∃ A a, upRuns (firstDraws src (n + 1)) = A ++ [a] := by
        have hne : upRuns (firstDraws src (n + 1)) ≠ [] := fun e => by rw [e] at ih; simp at ih
        exact ⟨_, _, (List.dropLast_append_getLast hne).symm⟩
      rw [upRuns] at e ⊢
      rw [splitBy_snoc_true hl e (by rw [hlast]; simpa using h), if_pos h]
      rw [upRuns, e] at ih
      simpa using ih
    · rw [upRuns, splitBy_snoc_false hl rfl (by rw [hlast]; simpa using h), if_neg h, List.length_append, ← upRuns, ih]
      rfl

/-- **C147.** The ascending runs counted are as many as the drops, up to one, and the descending runs counted are all other draws. -/
theorem C147_number (src : Src) (n : Nat) (hn : 1 ≤ n) :
    ∑ c ∈ Finset.range 6, upCount src n c = drops src n + (if src 0 < src (n - 1) then 0 else 1) ∧
    ∑ c ∈ Finset.range 6, upCount src n c + ∑ c ∈ Finset.range 6, downCount src n c = n := by
  obtain ⟨up, down, -, h2, h3, h4, h5, h6⟩ := C36_runs src n hn
  have hs : ∀ (l : List Nat) (c : Nat → Nat), l.length = 6 → (∀ i < 6, l.getD i 0 = c i) → l.sum = ∑ i ∈ Finset.range 6, c i := by
    intro l c hl h
    have e : l = (List.range 6).map c := List.ext_getElem (by simp [hl]) fun i h1 h2 => by
      rw [List.getElem_map, List.getElem_range, ← h i (by omega), List.getD_eq_getElem _ _ h1]
    rw [e]
    rfl
  refine ⟨?_, by rw [← hs up (upCount src n) h2 h5, ← hs down (downCount src n) h3 h6, h4]⟩
  have hne : ∀ r ∈ upRuns (firstDraws src n), r ≠ [] := fun r hr e => List.nil_notMem_splitBy _ _ (e ▸ hr)
  obtain ⟨m, rfl⟩ : ∃ m, n = m + 1 := ⟨n - 1, by omega⟩
  have hlen := upRuns_length src m
  unfold upCount
  split
  · rw [inClass_sum _ fun r hr => hne r (List.mem_of_mem_dropLast hr), List.length_dropLast, hlen]
    rfl
  · rw [inClass_sum _ hne, hlen]

theorem gammaTail_three {x : ℝ} (hx : 41 ≤ x) : 0 ≤ gammaTail 3 (x / 2) ∧ gammaTail 3 (x / 2) ≤ 0.0004 := by
  refine ⟨(C138_tail (by norm_num)).2.1 _ (by linarith), ?_⟩
  have h1 := (C138_chernoff (a := 3) (x := x / 2) (by norm_num) (by linarith) (1 / 2) (by norm_num)).1 (by norm_num)
  refine h1.trans ?_
  have h2 : (1 / (1 - 1 / 2) : ℝ) ^ (3 : ℝ) = 8 := by
    rw [show (1 / (1 - 1 / 2) : ℝ) = 2 by norm_num, show (3 : ℝ) = ((3 : ℕ) : ℝ) by norm_num, Real.rpow_natCast]
    norm_num
  rw [h2]
  have h3 : Real.exp (-(1 / 2 * (x / 2))) ≤ Real.exp (-10) := Real.exp_le_exp.2 (by linarith)
  have h4 : Real.exp (-10) ≤ 0.3678794413 ^ 10 := by
    rw [show (-10 : ℝ) = (10 : ℕ) * (-1) by norm_num, Real.exp_nat_mul]
    exact pow_le_pow_left₀ (Real.exp_pos _).le (by linarith [Real.exp_neg_one_lt_d9]) 10
  have h5 : (0.3678794413 : ℝ) ^ 10 * 8 ≤ 0.0004 := by norm_num
  nlinarith

/-- **C147.** The statistic is at least `12 D²/n` for the deviation `D` of the number of runs from `n/2`, and at least a constant times `D²/n` for the deviation `D` of the
number of runs of each class. -/
theorem C147_form (c : Nat → Nat) (n : Nat) : 12 * ((∑ i ∈ Finset.range 6, c i : ℕ) - (n : ℝ) / 2) ^ 2 / n ≤ runsForm c n ∧
    ∀ i < 6, [7.8, 7.1, 17, 44, 181, 848].getD i (0 : ℝ) * ((c i : ℝ) - n * runsProb i) ^ 2 / n ≤ runsForm c n := by
  have hn : (0 : ℝ) ≤ n := Nat.cast_nonneg n
  refine ⟨?_, fun i hi => ?_⟩
  · rw [runsForm_eq, ← runsDev_sum]
    exact div_le_div_of_nonneg_right (runs_total _) hn
  · rw [runsForm_eq]
    refine div_le_div_of_nonneg_right ?_ hn
    have h : i = 0 ∨ i = 1 ∨ i = 2 ∨ i = 3 ∨ i = 4 ∨ i = 5 := by omega
    rcases h with rfl | rfl | rfl | rfl | rfl | rfl
    · refine le_trans (le_of_eq ?_) (runs_class_0 (runsDev c n)); norm_num [runsDev]
    · refine le_trans (le_of_eq ?_) (runs_class_1 (runsDev c n)); norm_num [runsDev]
    · refine le_trans (le_of_eq ?_) (runs_class_2 (runsDev c n)); norm_num [runsDev]
    · refine le_trans (le_of_eq ?_) (runs_class_3 (runsDev c n)); norm_num [runsDev]
    · refine le_trans (le_of_eq ?_) (runs_class_4 (runsDev c n)); norm_num [runsDev]
    · refine le_trans (le_of_eq ?_) (runs_class_5 (runsDev c n)); norm_num [runsDev]

/-- **C147.** If the number of drops is off `n/2` by `1 + 1.85 √n` or more, both p-values are at most 0.0004. -/
theorem C147_drops (src : Src) (n : Nat) (hn : 1 ≤ n) (h : 1 + 1.85 * Real.sqrt n ≤ |(drops src n : ℝ) - n / 2|) :
    ∃ p q, runsTest gammaTail src n = .ok (p, q) ∧ (0 ≤ p ∧ p ≤ 0.0004) ∧ (0 ≤ q ∧ q ≤ 0.0004) := by
  refine ⟨_, _, C89_statistic gammaTail src n hn, ?_⟩
  obtain ⟨h1, h2⟩ := C147_number src n hn
  have hn0 : (0 : ℝ) < n := by exact_mod_cast hn
  have key : ∀ U : ℝ, 1.85 * Real.sqrt n ≤ |U - (n : ℝ) / 2| → 41 ≤ 12 * (U - (n : ℝ) / 2) ^ 2 / n := by
    intro U hU
    rw [le_div_iff₀ hn0]
    have h3 := pow_le_pow_left₀ (by positivity) hU 2
    rw [sq_abs, mul_pow, Real.sq_sqrt hn0.le] at h3
    nlinarith
  have hu : 1.85 * Real.sqrt n ≤ |((∑ c ∈ Finset.range 6, upCount src n c : ℕ) : ℝ) - (n : ℝ) / 2| := by
    rw [h1]
    have ha := abs_sub_abs_le_abs_sub ((drops src n : ℝ) - n / 2) (((drops src n + (if src 0 < src (n - 1) then 0 else 1) : ℕ) : ℝ) - (n : ℝ) / 2)
    have hb : |((drops src n : ℝ) - n / 2) - (((drops src n + (if src 0 < src (n - 1) then 0 else 1) : ℕ) : ℝ) - (n : ℝ) / 2)| ≤ 1 := by
      split <;> norm_num
    linarith
  have hd : 1.85 * Real.sqrt n ≤ |((∑ c ∈ Finset.range 6, downCount src n c : ℕ) : ℝ) - (n : ℝ) / 2| := by
    have e : ((∑ c ∈ Finset.range 6, downCount src n c : ℕ) : ℝ) = n - ((∑ c ∈ Finset.range 6, upCount src n c : ℕ) : ℝ) := by
      rw [eq_sub_iff_add_eq, add_comm]
      exact_mod_cast h2
    rw [e, show (n : ℝ) - ((∑ c ∈ Finset.range 6, upCount src n c : ℕ) : ℝ) - n / 2 = -(((∑ c ∈ Finset.range 6, upCount src n c : ℕ) : ℝ) - n / 2) by ring, abs_neg]
    exact hu
  exact ⟨gammaTail_three ((key _ hu).trans (C147_form _ n).1), gammaTail_three ((key _ hd).trans (C147_form _ n).1)⟩

/-- **C147.** If the number of ascending runs of some class is so far from its expectation that the square, times the constant of the class, is `41 n` or more, the first
p-value is at most 0.0004; likewise for the descending runs and the second. -/
theorem C147_class (src : Src) (n : Nat) (hn : 1 ≤ n) (i : Nat) (hi : i < 6) :
    ∃ p q, runsTest gammaTail src n = .ok (p, q) ∧
      (41 * n ≤ [7.8, 7.1, 17, 44, 181, 848].getD i (0 : ℝ) * ((upCount src n i : ℝ) - n * runsProb i) ^ 2 → 0 ≤ p ∧ p ≤ 0.0004) ∧
      (41 * n ≤ [7.8, 7.1, 17, 44, 181, 848].getD i (0 : ℝ) * ((downCount src n i : ℝ) - n * runsProb i) ^ 2 → 0 ≤ q ∧ q ≤ 0.0004) := by
  have hn0 : (0 : ℝ) < n := by exact_mod_cast hn
  refine ⟨_, _, C89_statistic gammaTail src n hn, fun h => ?_, fun h => ?_⟩
  · exact gammaTail_three (le_trans (by rw [le_div_iff₀ hn0]; exact h) ((C147_form (upCount src n) n).2 i hi))
  · exact gammaTail_three (le_trans (by rw [le_div_iff₀ hn0]; exact h) ((C147_form (downCount src n) n).2 i hi))

/-- **C147.** The whole test: if the drops of every sample are as many or as few as that, both sequences of p-values fail. -/
theorem C147_run (src : Nat → Src) (n : Nat) (hn : 1 ≤ n) (h : ∀ k, 1 + 1.85 * Real.sqrt n ≤ |(drops (src k) n : ℝ) - n / 2|) (m : Nat) :
    ∃ p q : Nat → ℝ, (∀ k, runsTest gammaTail (src k) n = .ok (p k, q k)) ∧ FailsLow ((List.range m).map p) ∧ FailsLow ((List.range m).map q) := by
  choose p q h1 h2 h3 using fun k => C147_drops (src k) n hn (h k)
  refine ⟨p, q, h1, C137_low _ fun x hx => ?_, C137_low _ fun x hx => ?_⟩
  · obtain ⟨k, -, rfl⟩ := List.mem_map.1 hx
    exact h2 k
  · obtain ⟨k, -, rfl⟩ := List.mem_map.1 hx
    exact h3 k

/-- A source of equal words drops everywhere; with the default of 100000 draws it is found. -/
example (c : UInt) : ∃ p q, runsTest gammaTail (fun _ => c) 100000 = .ok (p, q) ∧ (0 ≤ p ∧ p ≤ 0.0004) ∧ (0 ≤ q ∧ q ≤ 0.0004) := by
  refine C147_drops _ _ (by norm_num) ?_
  have e : drops (fun _ => c) 100000 = 99999 := by
    rw [drops, List.countP_eq_length.2 (fun i _ => by simp), List.length_range]
  rw [e]
  have h : Real.sqrt (100000 : ℕ) ≤ 317 := by
    rw [Real.sqrt_le_left (by norm_num)]
    norm_num
  rw [abs_of_nonneg (by norm_num)]
  norm_num at h ⊢
  linarith

/-- Five draws with two drops (one of them a repetition): three ascending runs, the last of which is left out because the last draw exceeds the first. -/
example : drops (fun k => [3, 5, 5, 7, 4].getD k 0) 5 = 2 ∧ ∑ c ∈ Finset.range 6, upCount (fun k => [3, 5, 5, 7, 4].getD k 0) 5 c = 2 := by decide +kernel

end Dh
