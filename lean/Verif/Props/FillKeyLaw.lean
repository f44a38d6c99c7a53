import Verif.Proof.KeyMean
import Verif.Props.FillTreeLaw
/-
C95: the law of the trees of dab_filltree.c, its table, the position of the last key, and the null means of both statistics.
-/
namespace Dh
open Spec

namespace Spec

/-- The keys of a run: those of `ω`, numbered from 1, and then 1. -/
def keySeq {m N : Nat} (ω : Fin m → Fin N) : Nat → Nat := fun i => if h : i < m then (ω ⟨i, h⟩ : ℕ) + 1 else 1

end Spec

theorem keySeq_eq {m N : Nat} (h0 : 0 < N) (ω : Fin m → Fin N) : keySeq ω = keyOf (padSeq ⟨0, h0⟩ ω) := by
  funext i
  by_cases h : i < m <;> simp [keySeq, keyOf, padSeq, h]

/-! ### What a run counts -/

theorem holds_empty (H : Nat) : TreeHolds (List.replicate (2 * 2 ^ H) 0) H (2 ^ H - 1) [] := by
  refine TreeHolds.empty fun j _ _ => ?_
  rw [List.getD_eq_getElem?_getD, List.getElem?_replicate]
  split <;> rfl

theorem forest_keys (H : Nat) {N : Nat} (s : Nat → Fin N) {k : Nat} {l : List (Nat × Nat)} (h : Forest (keyOf s) (2 * 2 ^ H) k l) :
    (∀ t ∈ l, 1 ≤ t.1 ∧ t.1 ≤ 16) →
    l.map (fun t => (t.1 - 1, t.2 / 2)) = (List.range l.length).map fun t =>
      (trialAt (keyUsed H) (keyIndex H) t (dropSeq k s), trialAt (keyUsed H) (keyPosition H) t (dropSeq k s)) := by
  induction h with
  | nil k => intro; rfl
  | @cons k n e l hf hr ih =>
    intro hl
    have hn := (hl _ List.mem_cons_self)
    have h1 := fills_keyWalk H (keyOf s) (fun n => Nat.succ_ne_zero _) hf (by simp) [] 16 (fits_nil H) (holds_empty H) hn.2
    have hd0 : dropSeq k (keyOf s) = keyOf (dropSeq k s) := rfl
    rw [hd0] at h1
    have hb : keyUsed H (dropSeq k s) = n := by rw [keyUsed, h1]
    rw [List.map_cons, ih fun t ht => hl t (List.mem_cons_of_mem _ ht), List.length_cons, List.range_succ_eq_map, List.map_cons, List.map_map]
    congr 1
    · simp only [trialAt, keyIndex, keyPosition, h1]
    · refine List.map_congr_left fun t _ => ?_
      have hd : dropSeq n (dropSeq k s) = dropSeq (k + n) s := by rw [dropSeq_dropSeq, Nat.add_comm]
      simp only [Function.comp, trialAt, hb, hd]

theorem ft1_run {N : Nat} (s : Nat → Fin N) (H : Nat) (h4 : H ≤ 4) (ntuple n : Nat) (hs : (if ntuple = 0 then 32 else ntuple) = 2 * 2 ^ H) :
    ∃ counts position, fillTree (keyOf s) ntuple n = .ok (some (counts, position)) ∧ counts.length = 20 ∧ position.length = 2 ^ H ∧
      (∀ c, counts.getD c 0 = trialCount (trialAt (keyUsed H) (keyIndex H)) n s c) ∧
      ∀ q, position.getD q 0 = trialCount (trialAt (keyUsed H) (keyPosition H)) n s q := by
  have hp : 2 ^ H ≤ 16 := le_trans (Nat.pow_le_pow_right (by norm_num) h4) (by norm_num)
  have hp1 : 1 ≤ 2 ^ H := Nat.one_le_two_pow
  have hnt : ntuple ≠ 1 ∧ ntuple ≤ 41 := by
    by_cases h0 : ntuple = 0
    · omega
    · rw [if_neg h0] at hs; omega
  obtain ⟨l, counts, position, h1, h2, h3, h4, h5, h6', h7, -, h9, -⟩ := C43_filltree (keyOf s) (fun n => Nat.succ_ne_zero _) ntuple n hnt.1 hnt.2
  simp only [hs] at h2 h4 h9
  rw [Nat.mul_div_cancel_left _ (by norm_num)] at h9
  have key := forest_keys H s h2 fun t ht => ⟨(h4 t ht).1, (h4 t ht).2.1⟩
  rw [dropSeq_zero, h3] at key
  refine ⟨counts, position, h1, h7, h9, fun c => ?_, fun q => ?_⟩
  · have h := h5 (c + 1) (by omega)
    rw [Nat.add_sub_cancel] at h
    rw [h, trialCount]
    have e := congrArg (fun L => L.countP fun t : Nat × Nat => decide (t.1 = c)) key
    simp only [List.countP_map, Function.comp_def] at e
    rw [← e]
    refine List.countP_congr fun t ht => ?_
    have := (h4 t ht).1
    simp only [beq_iff_eq, decide_eq_true_eq]
    omega
  · rw [h6' q, trialCount]
    have e := congrArg (fun L => L.countP fun t : Nat × Nat => decide (t.2 = q)) key
    simp only [List.countP_map, Function.comp_def] at e
    rw [← e]
    refine List.countP_congr fun t ht => ?_
    simp only [beq_iff_eq, decide_eq_true_eq]

/-- A run of one tree. -/
theorem ft1_one {N : Nat} (s : Nat → Fin N) (H : Nat) (h4 : H ≤ 4) (ntuple : Nat) (hs : (if ntuple = 0 then 32 else ntuple) = 2 * 2 ^ H) :
    ∃ counts position, fillTree (keyOf s) ntuple 1 = .ok (some (counts, position)) ∧
      (∀ c, counts.getD c 0 = if keyIndex H s = c then 1 else 0) ∧ ∀ q, position.getD q 0 = if keyPosition H s = q then 1 else 0 := by
  obtain ⟨counts, position, h1, -, -, h4, h5⟩ := ft1_run s H h4 ntuple 1 hs
  refine ⟨counts, position, h1, fun c => ?_, fun q => ?_⟩
  · rw [h4, trialCount]; simp only [trialAt, List.range_one, List.countP_cons, List.countP_nil, Nat.zero_add]
    by_cases g : keyIndex H s = c <;> simp [g]
  · rw [h5, trialCount]; simp only [trialAt, List.range_one, List.countP_cons, List.countP_nil, Nat.zero_add]
    by_cases g : keyPosition H s = q <;> simp [g]

/-! ### The law -/

/-- **C95.** The law of a tree of 2, 4, 8, 16 or 32 cells filled with independent keys that are uniform on 1, ..., N: index and position have
the probabilities that belong to keys in random order, up to the relative error 121/N (which comes from equal keys).  The probability does
not depend on the position. -/
theorem C95_law (N H m ntuple c q : Nat) (hN : 2 ^ 14 ≤ N) (h4 : H ≤ 4) (hs : (if ntuple = 0 then 32 else ntuple) = 2 * 2 ^ H) (hm : 16 ≤ m)
    (hc : c < 16) (hq : q < 2 ^ H) :
    |(chance fun ω : Fin m → Fin N => ∃ counts position, fillTree (keySeq ω) ntuple 1 = .ok (some (counts, position)) ∧
        counts.getD c 0 = 1 ∧ position.getD q 0 = 1) - (fitLaw H c - fitLaw H (c + 1)) / 2 ^ H| ≤
      121 / N * ((fitLaw H c - fitLaw H (c + 1)) / 2 ^ H) := by
  have h0 : 0 < N := by omega
  have e : ∀ ω : Fin m → Fin N, (∃ counts position, fillTree (keySeq ω) ntuple 1 = .ok (some (counts, position)) ∧
        counts.getD c 0 = 1 ∧ position.getD q 0 = 1) ↔
      (keyIndex H (padSeq ⟨0, h0⟩ ω) = c ∧ keyPosition H (padSeq ⟨0, h0⟩ ω) = q) := by
    intro ω
    rw [keySeq_eq h0]
    obtain ⟨counts, position, h1, h2, h3⟩ := ft1_one (padSeq ⟨0, h0⟩ ω) H h4 ntuple hs
    constructor
    · rintro ⟨x, y, g1, g2, g3⟩
      rw [h1] at g1
      cases g1
      rw [h2] at g2
      rw [h3] at g3
      constructor
      · by_contra h; rw [if_neg h] at g2; omega
      · by_contra h; rw [if_neg h] at g3; omega
    · rintro ⟨g2, g3⟩
      exact ⟨counts, position, h1, by rw [h2, if_pos g2], by rw [h3, if_pos g3]⟩
  rw [chance_eq e, key_joint H c q m h0 h4 hc hm, ← dropLaw_eq]
  exact countEnd_near H q c N hN hc hq

theorem ft1_chance_index (N H m ntuple c : Nat) (h0 : 0 < N) (h4 : H ≤ 4) (hs : (if ntuple = 0 then 32 else ntuple) = 2 * 2 ^ H) :
    (chance fun ω : Fin m → Fin N => ∃ counts position, fillTree (keySeq ω) ntuple 1 = .ok (some (counts, position)) ∧ counts.getD c 0 = 1) =
      mean fun ω : Fin m → Fin N => if keyIndex H (padSeq ⟨0, h0⟩ ω) = c then (1 : ℝ) else 0 := by
  refine chance_eq fun ω => ?_
  rw [keySeq_eq h0]
  obtain ⟨counts, position, h1, h2, h3⟩ := ft1_one (padSeq ⟨0, h0⟩ ω) H h4 ntuple hs
  constructor
  · rintro ⟨x, y, g1, g2⟩
    rw [h1] at g1
    cases g1
    rw [h2] at g2
    by_contra h; rw [if_neg h] at g2; omega
  · intro g2
    exact ⟨counts, position, h1, by rw [h2, if_pos g2]⟩

theorem ft1_chance_position (N H m ntuple q : Nat) (h0 : 0 < N) (h4 : H ≤ 4) (hs : (if ntuple = 0 then 32 else ntuple) = 2 * 2 ^ H) :
    (chance fun ω : Fin m → Fin N => ∃ counts position, fillTree (keySeq ω) ntuple 1 = .ok (some (counts, position)) ∧ position.getD q 0 = 1) =
      mean fun ω : Fin m → Fin N => if keyPosition H (padSeq ⟨0, h0⟩ ω) = q then (1 : ℝ) else 0 := by
  refine chance_eq fun ω => ?_
  rw [keySeq_eq h0]
  obtain ⟨counts, position, h1, h2, h3⟩ := ft1_one (padSeq ⟨0, h0⟩ ω) H h4 ntuple hs
  constructor
  · rintro ⟨x, y, g1, g2⟩
    rw [h1] at g1
    cases g1
    rw [h3] at g2
    by_contra h; rw [if_neg h] at g2; omega
  · intro g2
    exact ⟨counts, position, h1, by rw [h3, if_pos g2]⟩

/-- **C95.** The position of the last key is uniform, up to the relative error 121/N. -/
theorem C95_position (N H m ntuple q : Nat) (hN : 2 ^ 14 ≤ N) (h4 : H ≤ 4) (hs : (if ntuple = 0 then 32 else ntuple) = 2 * 2 ^ H) (hm : 16 ≤ m)
    (hq : q < 2 ^ H) :
    |(chance fun ω : Fin m → Fin N => ∃ counts position, fillTree (keySeq ω) ntuple 1 = .ok (some (counts, position)) ∧
        position.getD q 0 = 1) - 1 / 2 ^ H| ≤ 121 / N / 2 ^ H := by
  rw [ft1_chance_position N H m ntuple q (by omega) h4 hs]
  exact key_position H q m hN (by omega) h4 hq hm

/-! ### The table -/

/-- The orders of `k` keys for which there is room. -/
def fitWays : Nat → Nat → Nat
  | 0, k => if k = 0 then 1 else 0
  | _ + 1, 0 => 1
  | h + 1, k + 1 => ((List.range (k + 1)).map fun i => k.choose i * (fitWays h i * fitWays h (k - i))).sum

theorem fit_range_list (f : Nat → Nat) : ∀ n : Nat, ((List.range n).map f).sum = ∑ i ∈ Finset.range n, f i
  | 0 => rfl
  | n + 1 => by rw [List.range_succ, List.map_append, List.sum_append, fit_range_list f n, Finset.sum_range_succ]; simp

theorem fitLaw_ways : ∀ h k, fitLaw h k = fitWays h k / k.factorial
  | 0, k => by rw [fitLaw, fitWays]; split <;> simp [*]
  | _ + 1, 0 => by simp [fitLaw, fitWays]
  | h + 1, k + 1 => by
    rw [fitLaw, fitWays, fit_range_list, Finset.Nat.sum_antidiagonal_eq_sum_range_succ fun i j => fitLaw h i * fitLaw h j, Finset.sum_div]
    push_cast
    rw [Finset.sum_div]
    refine Finset.sum_congr rfl fun i hi => ?_
    have hik : i ≤ k := by have := Finset.mem_range.1 hi; omega
    rw [fitLaw_ways h i, fitLaw_ways h (k - i), Nat.factorial_succ]
    have h1 : (k.choose i : ℝ) * i.factorial * (k - i).factorial = k.factorial := by exact_mod_cast Nat.choose_mul_factorial_mul_factorial hik
    have h2 : (i.factorial : ℝ) ≠ 0 := by positivity
    have h3 : ((k - i).factorial : ℝ) ≠ 0 := by positivity
    have h4 : (k.factorial : ℝ) ≠ 0 := by positivity
    have h5 : (k + 1 : ℝ) ≠ 0 := by positivity
    push_cast
    rw [← h1]
    have h6 : (k.choose i : ℝ) ≠ 0 := by
      have : 0 < k.choose i := Nat.choose_pos hik
      positivity
    field_simp

/-- The law for 32 cells. -/
theorem fitLaw_four (c : Nat) (hc : c ≤ 16) : fitLaw 4 c =
    ([1, 1, 2, 6, 24, 104, 480, 2320, 11360, 55040, 253440, 1056000, 3801600, 10982400, 21964800, 21964800, 0].getD c 0 : ℕ) / c.factorial := by
  have h : ∀ c ≤ 16, fitWays 4 c =
      [1, 1, 2, 6, 24, 104, 480, 2320, 11360, 55040, 253440, 1056000, 3801600, 10982400, 21964800, 21964800, 0].getD c 0 := by decide +kernel
  rw [fitLaw_ways, h c hc]

theorem ft1Table_getD (c : Nat) (hc : c < 20) : ft1Table.getD c 0 = ((ft1Digits.getD c 0 : ℕ) : ℚ) / 10 ^ 8 := by
  have hl : ft1Digits.length = 20 := rfl
  rw [ft1Table, List.getD_eq_getElem _ _ (by simp [hl, hc]), List.getElem_map, List.getD_eq_getElem _ _ (by omega)]

/-- The difference between the table and the law for keys in random order. -/
theorem ft1_error (c : Nat) (hc : c < 16) : |(ft1Table.getD c 0 : ℝ) - (fitLaw 4 c - fitLaw 4 (c + 1))| ≤ 2.3e-6 ∧
    fitLaw 4 c - fitLaw 4 (c + 1) ≤ 0.21 ∧ 0 ≤ fitLaw 4 c - fitLaw 4 (c + 1) := by
  rw [ft1Table_getD c (by omega), fitLaw_four c (by omega), fitLaw_four (c + 1) (by omega)]
  interval_cases c <;> norm_num [ft1Digits, Nat.factorial, abs_le]

theorem ft1_nine : 2.11e-6 ≤ (ft1Table.getD 9 0 : ℝ) - (fitLaw 4 9 - fitLaw 4 10) ∧ (ft1Table.getD 10 0 : ℝ) - (fitLaw 4 10 - fitLaw 4 11) ≤ -2.29e-6 := by
  rw [ft1Table_getD 9 (by norm_num), ft1Table_getD 10 (by norm_num), fitLaw_four 9 (by norm_num), fitLaw_four 10 (by norm_num), fitLaw_four 11 (by norm_num)]
  norm_num [ft1Digits, Nat.factorial]

/-- The probability of an index, and the error that belongs to equal keys. -/
theorem ft1_index (N m c : Nat) (hN : 2000000000 ≤ N) (hm : 16 ≤ m) (hc : c < 16) :
    |(chance fun ω : Fin m → Fin N => ∃ counts position, fillTree (keySeq ω) 0 1 = .ok (some (counts, position)) ∧ counts.getD c 0 = 1) -
      (fitLaw 4 c - fitLaw 4 (c + 1))| ≤ 6.05e-8 * (fitLaw 4 c - fitLaw 4 (c + 1)) := by
  rw [ft1_chance_index N 4 m 0 c (by omega) le_rfl rfl]
  refine (key_index 4 c m (by omega) (by omega) le_rfl hc hm).trans (mul_le_mul_of_nonneg_right ?_ (ft1_error c hc).2.2)
  have : (2000000000 : ℝ) ≤ N := by exact_mod_cast hN
  rw [div_le_iff₀ (by linarith)]
  linarith

/-- **C95.** Every entry of the table differs from the probability of its index by at most 2.4e-6 (for keys of at least 31 bits); the entries
number 9 and 10 are wrong by more than 2e-6, although the table has eight digits. -/
theorem C95_table (N m : Nat) (hN : 2000000000 ≤ N) (hm : 16 ≤ m) :
    (∀ c < 20, |(ft1Table.getD c 0 : ℝ) - chance fun ω : Fin m → Fin N => ∃ counts position,
        fillTree (keySeq ω) 0 1 = .ok (some (counts, position)) ∧ counts.getD c 0 = 1| ≤ 2.4e-6) ∧
      (chance fun ω : Fin m → Fin N => ∃ counts position, fillTree (keySeq ω) 0 1 = .ok (some (counts, position)) ∧ counts.getD 9 0 = 1) + 2e-6 <
        ft1Table.getD 9 0 ∧
      (ft1Table.getD 10 0 : ℝ) + 2e-6 <
        chance fun ω : Fin m → Fin N => ∃ counts position, fillTree (keySeq ω) 0 1 = .ok (some (counts, position)) ∧ counts.getD 10 0 = 1 := by
  refine ⟨fun c hc => ?_, ?_, ?_⟩
  · by_cases h : c < 16
    · obtain ⟨h1, h2, h3⟩ := ft1_error c h
      have h4 := ft1_index N m c hN hm h
      rw [abs_le] at *
      constructor <;> linarith [h1.1, h1.2, h4.1, h4.2]
    · have h0 : 0 < N := by omega
      rw [ft1_chance_index N 4 m 0 c h0 le_rfl rfl]
      have : Nonempty (Fin N) := ⟨⟨0, h0⟩⟩
      have e : (mean fun ω : Fin m → Fin N => if keyIndex 4 (padSeq ⟨0, h0⟩ ω) = c then (1 : ℝ) else 0) = 0 := by
        refine Eq.trans (mean_congr fun ω => ?_) (mean_const (Ω := Fin m → Fin N) 0)
        have := (key_range 4 le_rfl (padSeq ⟨0, h0⟩ ω)).1
        rw [if_neg (by omega)]
      have e2 : ft1Table.getD c 0 = 0 := by
        rw [ft1Table_getD c hc]
        have : ∀ c < 20, 16 ≤ c → ft1Digits.getD c 0 = 0 := by decide
        rw [this c hc (by omega)]; norm_num
      rw [e, e2]; norm_num
  · have h1 := (abs_le.1 (ft1_index N m 9 hN hm (by norm_num))).2
    have h2 := (ft1_error 9 (by norm_num)).2.1
    have h3 := ft1_nine.1
    linarith
  · have h1 := (abs_le.1 (ft1_index N m 10 hN hm (by norm_num))).1
    have h2 := (ft1_error 10 (by norm_num)).2.1
    have h3 := ft1_nine.2
    linarith

/-- C95: the errors of the table in units of its eighth and last digit: the entries 0 to 7 and 15 are rounded correctly, the entries 8 to 14 are wrong. -/
theorem C95_digits (c : Nat) (hc : c < 16) :
    |((ft1Table.getD c 0 : ℝ) - (fitLaw 4 c - fitLaw 4 (c + 1))) * 10 ^ 8 - ([0, 0, 0, 0, 0, 0, 0, 0, 30, 211, -229, -24, -14, 21, 4, 0].getD c 0 : ℤ)| ≤ 1 / 2 := by
  rw [ft1Table_getD c (by omega), fitLaw_four c (by omega), fitLaw_four (c + 1) (by omega)]
  interval_cases c <;> norm_num [ft1Digits, Nat.factorial, abs_le]

/-! ### The null means -/

/-- The statistic of the first test, for cells from `start` up to `fin`. -/
noncomputable def ft1Chisq (n start fin : Nat) {N : Nat} (s : Nat → Fin N) : ℝ :=
  ∑ c ∈ Finset.Ico start fin, ((trialCount (trialAt (keyUsed 4) (keyIndex 4)) n s c : ℝ) - n * (ft1Table.getD c 0 : ℝ)) ^ 2 / (n * (ft1Table.getD c 0 : ℝ))

/-- The statistic of the second test. -/
noncomputable def ft1Places (n : Nat) {N : Nat} (s : Nat → Fin N) : ℝ :=
  ∑ q ∈ Finset.range 16, ((trialCount (trialAt (keyUsed 4) (keyPosition 4)) n s q : ℝ) - (n / 16 : ℕ)) ^ 2 / (n / 16 : ℕ)

theorem ft1_pvalues {N : Nat} (s : Nat → Fin N) (n start fin : Nat) (hn : 4 ≤ n) (hsf : start ≤ fin) (hf : fin ≤ 20)
    (hscan : ∃ ex, ftRange ft1Table n 20 0 (List.replicate 20 0) 0 0 = .ok (ex, start, fin) ∧ ex.length = 20 ∧
      ∀ j < 20, ex.getD j 0 = ft1Table.getD j 0 * n) (gammaQ : ℝ → ℝ → ℝ) :
    fillTreeTest gammaQ (keyOf s) 0 n =
      .ok (some (gammaQ (((fin - start : ℕ) - 1 : ℝ) / 2) (ft1Chisq n start fin s / 2), gammaQ (15 / 2) (ft1Places n s / 2))) := by
  obtain ⟨ex, h1, h2, h3⟩ := hscan
  obtain ⟨counts, position, k1, k2, k3, k4, k5⟩ := ft1_run s 4 le_rfl 0 n rfl
  rw [fillTreeTest, h1, Res.bind_ok, k1, Res.bind_ok, fillTreeCycle, if_neg (by omega), Res.bind_ok, if_pos rfl, fillTreePvalues]
  have hws : wsub fin start = fin - start := wsub_eq hsf (by omega)
  have hsum : (0 + ∑ t ∈ Finset.range (fin - start), (((counts.map (Nat.cast : Nat → ℝ)).drop start).getD (0 + t) 0 -
      ((ex.map (Rat.cast : ℚ → ℝ)).drop start).getD (0 + t) 0) ^ 2 / ((ex.map (Rat.cast : ℚ → ℝ)).drop start).getD (0 + t) 0) =
      ft1Chisq n start fin s := by
    rw [zero_add, ft1Chisq, Finset.sum_Ico_eq_sum_range]
    refine Finset.sum_congr rfl fun t ht => ?_
    have := Finset.mem_range.1 ht
    rw [Nat.zero_add, getD_map_drop (Nat.cast : Nat → ℝ) 0 (by simp), getD_map_drop (Rat.cast : ℚ → ℝ) 0 (by simp), k4, h3 _ (by omega)]
    push_cast
    rw [mul_comm ((ft1Table.getD (start + t) 0 : ℚ) : ℝ)]
  have hsum2 : (0 + ∑ t ∈ Finset.range 16, ((position.map (Nat.cast : Nat → ℝ)).getD (0 + t) 0 -
      (List.replicate 16 ((n / 16 : ℕ) : ℝ)).getD (0 + t) 0) ^ 2 / (List.replicate 16 ((n / 16 : ℕ) : ℝ)).getD (0 + t) 0) = ft1Places n s := by
    rw [zero_add, ft1Places]
    refine Finset.sum_congr rfl fun t ht => ?_
    have ht' := Finset.mem_range.1 ht
    have e1 := getD_map_drop (Nat.cast : Nat → ℝ) 0 (by simp) position 0 t
    rw [List.drop_zero, Nat.zero_add, k5] at e1
    have e2 : (List.replicate 16 ((n / 16 : ℕ) : ℝ)).getD t 0 = (n / 16 : ℕ) := by
      rw [List.getD_eq_getElem _ _ (by simpa using ht'), List.getElem_replicate]
    rw [Nat.zero_add, e1, e2]
  simp only []
  rw [chisqPearson, hws, pearsonLoop_some _ _ _ _ _ (by simp [k2]; omega) (by simp [h2]; omega), Res.bind_ok, Res.bind_ok, chisqPearson,
    pearsonLoop_some _ _ _ _ _ (by simp [k3]) (by simp), Res.bind_ok, Res.bind_ok, hsum, hsum2]
  norm_num

/-- **C95.** The means of both statistics for independent keys that are uniform on 1, ..., N.  (The second one divides the trees evenly only
if their number is a multiple of 16.) -/
theorem C95_mean (N m n : Nat) (h0 : 0 < N) (hn : 4 ≤ n) (hm : 16 * n ≤ m) (ex : List ℚ) (start fin : Nat)
    (hrange : ftRange ft1Table n 20 0 (List.replicate 20 0) 0 0 = .ok (ex, start, fin)) (hsf : start ≤ fin) (hf : fin ≤ 20) :
    ∃ w v : (Fin m → Fin N) → ℝ, (∀ ω gammaQ, fillTreeTest gammaQ (keySeq ω) 0 n =
        .ok (some (gammaQ (((fin - start : ℕ) - 1 : ℝ) / 2) (w ω / 2), gammaQ (15 / 2) (v ω / 2)))) ∧
      mean w = ∑ c ∈ Finset.Ico start fin, cellMean n (chance fun ω : Fin m → Fin N => ∃ counts position,
        fillTree (keySeq ω) 0 1 = .ok (some (counts, position)) ∧ counts.getD c 0 = 1) (ft1Table.getD c 0) ∧
      (16 ∣ n → mean v = ∑ q ∈ Finset.range 16, cellMean n (chance fun ω : Fin m → Fin N => ∃ counts position,
        fillTree (keySeq ω) 0 1 = .ok (some (counts, position)) ∧ position.getD q 0 = 1) (1 / 16)) := by
  have hne : Nonempty (Fin N) := ⟨⟨0, h0⟩⟩
  obtain ⟨ex', h1, h2⟩ := ftRange_spec ft1Table n 20 rfl 20 0 (List.replicate 20 0) 0 0 rfl (by simp) (fun j hj => absurd hj (Nat.not_lt_zero j))
  rw [hrange] at h1
  simp only [Res.ok.injEq, Prod.mk.injEq] at h1
  obtain ⟨rfl, -, -⟩ := h1
  refine ⟨fun ω => ft1Chisq n start fin (padSeq ⟨0, h0⟩ ω), fun ω => ft1Places n (padSeq ⟨0, h0⟩ ω), fun ω gammaQ => ?_, ?_, fun hd => ?_⟩
  · rw [keySeq_eq h0]
    exact ft1_pvalues (padSeq ⟨0, h0⟩ ω) n start fin hn hsf hf ⟨ex, hrange, h2⟩ gammaQ
  · have htr := (keyIndex_stops 4 N).trials (⟨0, h0⟩ : Fin N) (K := 20) (n := n) (m := m) (fun s => by have := (key_range 4 le_rfl s).1; omega) hm
    simp only [ft1Chisq]
    rw [mean_sum]
    refine Finset.sum_congr rfl fun c hc => ?_
    have hc' : c < 20 := by have := Finset.mem_Ico.1 hc; omega
    have hfil : (Finset.range 20).filter (fun x => x = c) = {c} := by
      ext x; simp only [Finset.mem_filter, Finset.mem_range, Finset.mem_singleton]; omega
    have h := mean_pearson htr (fun x => x = c) (ft1Table.getD c 0) (by omega)
    simp only [hfil, Finset.sum_singleton] at h
    rw [ft1_chance_index N 4 m 0 c h0 le_rfl rfl]
    refine Eq.trans h ?_
    congr 1
    refine (mean_first (⟨0, h0⟩ : Fin N) (F := fun s => if keyIndex 4 s = c then (1 : ℝ) else 0) ?_ (by omega)).symm
    intro s s' e
    beta_reduce
    rw [(keyIndex_stops 4 N).first s s' e]
  · have htr := (keyPosition_stops 4 N).trials (⟨0, h0⟩ : Fin N) (K := 16) (n := n) (m := m) (fun s => (key_range 4 le_rfl s).2) hm
    simp only [ft1Places]
    rw [mean_sum]
    refine Finset.sum_congr rfl fun c hc => ?_
    have hc' := Finset.mem_range.1 hc
    have hfil : (Finset.range 16).filter (fun x => x = c) = {c} := by
      ext x; simp only [Finset.mem_filter, Finset.mem_range, Finset.mem_singleton]; omega
    have h := mean_pearson htr (fun x => x = c) (1 / 16) (by omega)
    simp only [hfil, Finset.sum_singleton] at h
    rw [ft1_chance_position N 4 m 0 c h0 le_rfl rfl]
    have e16 : ((n / 16 : ℕ) : ℝ) = n * (1 / 16) := by rw [Nat.cast_div hd (by norm_num)]; push_cast; ring
    rw [e16]
    refine Eq.trans h ?_
    congr 1
    refine (mean_first (⟨0, h0⟩ : Fin N) (F := fun s => if keyPosition 4 s = c then (1 : ℝ) else 0) ?_ (by omega)).symm
    intro s s' e
    beta_reduce
    rw [(keyPosition_stops 4 N).first s s' e]

/-- How far the mean of a cell moves with the probability. -/
theorem cellMean_move (n : Nat) {p p' q a b : ℝ} (hq : 0 < q) (h1 : |p' - p| ≤ a * q) (h2 : |n * (p' + p - 2 * q) + (1 - p - p')| ≤ b) :
    |cellMean n p' q - cellMean n p q| ≤ a * b := by
  have e : cellMean n p' q - cellMean n p q = (p' - p) / q * (n * (p' + p - 2 * q) + (1 - p - p')) := by
    rw [cellMean, cellMean]; field_simp; ring
  rw [e, abs_mul, abs_div, abs_of_pos hq]
  have h3 : |p' - p| / q ≤ a := by rw [div_le_iff₀ hq]; exact h1
  exact mul_le_mul h3 h2 (abs_nonneg _) (le_trans (by positivity) h3)

theorem ft1_sum : 10.00306 < ∑ c ∈ Finset.Ico 4 15, cellMean 15000000 (fitLaw 4 c - fitLaw 4 (c + 1)) (ft1Table.getD c 0) ∧
    ∑ c ∈ Finset.Ico 4 15, cellMean 15000000 (fitLaw 4 c - fitLaw 4 (c + 1)) (ft1Table.getD c 0) < 10.00308 := by
  have e : ∑ c ∈ Finset.Ico 4 15, cellMean 15000000 (fitLaw 4 c - fitLaw 4 (c + 1)) (ft1Table.getD c 0) =
      ∑ c ∈ Finset.Ico 4 15, cellMean 15000000
        (([1, 1, 2, 6, 24, 104, 480, 2320, 11360, 55040, 253440, 1056000, 3801600, 10982400, 21964800, 21964800, 0].getD c 0 : ℕ) / c.factorial -
          ([1, 1, 2, 6, 24, 104, 480, 2320, 11360, 55040, 253440, 1056000, 3801600, 10982400, 21964800, 21964800, 0].getD (c + 1) 0 : ℕ) / (c + 1).factorial)
        ((((ft1Digits.getD c 0 : ℕ) : ℚ) / 10 ^ 8 : ℚ) : ℝ) := by
    refine Finset.sum_congr rfl fun c hc => ?_
    have := Finset.mem_Ico.1 hc
    rw [fitLaw_four c (by omega), fitLaw_four (c + 1) (by omega), ft1Table_getD c (by omega)]
  rw [e]
  constructor <;> norm_num [Finset.sum_Ico_succ_top, cellMean, ft1Digits, Nat.factorial]

/-- The size of a cell in the table. -/
theorem ft1_cell (c : Nat) (hc : c ∈ Finset.Ico 4 15) : 0 < (ft1Table.getD c 0 : ℝ) ∧ fitLaw 4 c - fitLaw 4 (c + 1) ≤ 1.001 * ft1Table.getD c 0 := by
  have hc' := Finset.mem_Ico.1 hc
  rw [ft1Table_getD c (by omega), fitLaw_four c (by omega), fitLaw_four (c + 1) (by omega)]
  obtain ⟨h1, h2⟩ := hc'
  interval_cases c <;> norm_num [ft1Digits, Nat.factorial]

def ft1Lt (n i : Nat) : Bool := Nat.blt (ft1Digits.getD i 0 * n) (4 * 10 ^ 8)
def ft1Gt (n i : Nat) : Bool := Nat.blt (4 * 10 ^ 8) (ft1Digits.getD i 0 * n)

theorem ft1_range (n : Nat) : ∃ ex, ftRange ft1Table n 20 0 (List.replicate 20 0) 0 0 =
    .ok (ex, wadd (ftScan (ft1Lt n) (ft1Gt n) 20 0 0 0).1 1, (ftScan (ft1Lt n) (ft1Gt n) 20 0 0 0).2) := by
  obtain ⟨ex, h1, -⟩ := ftRange_spec ft1Table n 20 rfl 20 0 (List.replicate 20 0) 0 0 rfl (by simp) (fun j hj => absurd hj (Nat.not_lt_zero j))
  refine ⟨ex, h1.trans ?_⟩
  rw [ftScan_congr (lt' := ft1Lt n) (gt' := ft1Gt n) 20 (fun i hi => ?_) 20 0 0 0 rfl]
  have e : ft1Table.getD i 0 * n = ((ft1Digits.getD i 0 * n : ℕ) : ℚ) / 10 ^ 8 := by
    rw [ft1Table, show (0 : ℚ) = (fun d : Nat => (d : ℚ) / 10 ^ 8) 0 by norm_num, List.getD_map]
    push_cast
    ring
  rw [e, ft1Lt, ft1Gt]
  constructor
  · rw [Bool.eq_iff_iff, decide_eq_true_iff, Nat.blt_eq, div_lt_iff₀ (by norm_num)]
    exact_mod_cast Iff.rfl
  · rw [Bool.eq_iff_iff, decide_eq_true_iff, Nat.blt_eq, lt_div_iff₀ (by norm_num)]
    exact_mod_cast Iff.rfl

/-- **C95.** A default run of 15000000 trees with keys of at least 31 bits: the cells 4 to 14 are compared with 10 degrees of freedom, and the
mean of the statistic is 10 up to 0.0032 (most of this comes from the errors of the table); the second statistic has 15 degrees of freedom and
the mean 15 up to 1e-6. -/
theorem C95_default (N m : Nat) (hN : 2000000000 ≤ N) (hm : 240000000 ≤ m) :
    ∃ w v : (Fin m → Fin N) → ℝ, (∀ ω gammaQ, fillTreeTest gammaQ (keySeq ω) 0 15000000 =
        .ok (some (gammaQ (10 / 2) (w ω / 2), gammaQ (15 / 2) (v ω / 2)))) ∧
      10.003 < mean w ∧ mean w < 10.0032 ∧ |mean v - 15| ≤ 1e-6 := by
  obtain ⟨ex, h1⟩ := ft1_range 15000000
  have hsc : ftScan (ft1Lt 15000000) (ft1Gt 15000000) 20 0 0 0 = (3, 15) := by decide +kernel
  rw [hsc] at h1
  obtain ⟨w, v, k1, k2, k3⟩ := C95_mean N m 15000000 (by omega) (by norm_num) (by omega) ex 4 15 h1 (by norm_num) (by norm_num)
  have key : |mean w - ∑ c ∈ Finset.Ico 4 15, cellMean 15000000 (fitLaw 4 c - fitLaw 4 (c + 1)) (ft1Table.getD c 0)| ≤ 11 * (6.1e-8 * 75) := by
    rw [k2, ← Finset.sum_sub_distrib]
    refine (Finset.abs_sum_le_sum_abs _ _).trans (le_trans (Finset.sum_le_sum fun c hc => ?_) (b := ∑ c ∈ Finset.Ico 4 15, (6.1e-8 * 75 : ℝ))
      (le_of_eq (by rw [Finset.sum_const, Nat.card_Ico]; norm_num)))
    have hc' := Finset.mem_Ico.1 hc
    have h2 := ft1_index N m c hN (by omega) (by omega)
    obtain ⟨h3, h4, h5⟩ := ft1_error c (by omega)
    obtain ⟨h6, h7⟩ := ft1_cell c hc
    generalize (chance fun ω : Fin m → Fin N => ∃ counts position, fillTree (keySeq ω) 0 1 = .ok (some (counts, position)) ∧ counts.getD c 0 = 1) = p' at *
    generalize fitLaw 4 c - fitLaw 4 (c + 1) = p at *
    generalize ((ft1Table.getD c 0 : ℚ) : ℝ) = q at *
    refine cellMean_move 15000000 h6 (h2.trans (by linarith)) ?_
    rw [abs_le] at *
    constructor <;> push_cast <;> linarith [h2.1, h2.2, h3.1, h3.2]
  refine ⟨w, v, fun ω gammaQ => (k1 ω gammaQ).trans (by norm_num), ?_, ?_, ?_⟩
  · have := ft1_sum.1
    have := (abs_le.1 key).1
    norm_num at *
    linarith
  · have := ft1_sum.2
    have := (abs_le.1 key).2
    norm_num at *
    linarith
  · rw [k3 (by norm_num)]
    have e15 : (15 : ℝ) = ∑ q ∈ Finset.range 16, cellMean 15000000 (1 / 16) (1 / 16) := by
      rw [Finset.sum_const, Finset.card_range, cellMean]; norm_num
    rw [e15, ← Finset.sum_sub_distrib]
    refine (Finset.abs_sum_le_sum_abs _ _).trans (le_trans (Finset.sum_le_sum fun q hq => ?_) (b := ∑ q ∈ Finset.range 16, (1e-6 / 16 : ℝ))
      (le_of_eq (by rw [Finset.sum_const, Finset.card_range]; norm_num)))
    have h2 := C95_position N 4 m 0 q (by omega) le_rfl rfl (by omega) (Finset.mem_range.1 hq)
    generalize (chance fun ω : Fin m → Fin N => ∃ counts position, fillTree (keySeq ω) 0 1 = .ok (some (counts, position)) ∧ position.getD q 0 = 1) = p' at *
    have hN' : (121 : ℝ) / N ≤ 6.05e-8 := by
      have : (2000000000 : ℝ) ≤ N := by exact_mod_cast hN
      rw [div_le_iff₀ (by linarith)]; linarith
    have h3 : |p' - 1 / 16| ≤ 6.05e-8 * (1 / 16) := by
      have : (121 : ℝ) / N / 2 ^ 4 ≤ 6.05e-8 * (1 / 16) := by norm_num at *; linarith
      refine le_trans ?_ this
      norm_num at h2 ⊢; exact h2
    refine (cellMean_move 15000000 (by norm_num) h3 (b := 1) ?_).trans (by norm_num)
    rw [abs_le] at *
    constructor <;> push_cast <;> linarith [h3.1, h3.2]

/-- **C95, failure.** With at most 19 trees no cell is expected more than four times; `end` stays 0 and `start` becomes 20, and
`chisq_pearson` is called for `2^32 - 20` cells behind the tables (with 1 to 3 trees the remainder by `tsamples/CYCLES` fails before). -/
theorem C95_few (gammaQ : ℝ → ℝ → ℝ) (key : Nat → Nat) (hk : ∀ i, key i ≠ 0) (n : Nat) (hn : n ≤ 19) :
    fillTreeTest gammaQ key 0 n = .ub := by
  obtain ⟨ex, h1⟩ := ft1_range n
  obtain ⟨l, counts, position, k1, -, -, -, -, -, k2, -⟩ := C43_filltree key hk 0 n (by norm_num) (by norm_num)
  have hlt : ∀ i < 20, ft1Digits.getD i 0 * 19 < 4 * 10 ^ 8 := by decide +kernel
  rw [ftScan_all 20 (fun i hi => by rw [ft1Lt, Nat.blt_eq]; exact lt_of_le_of_lt (Nat.mul_le_mul_left _ hn) (hlt i hi)) 19 0 0 rfl] at h1
  rw [fillTreeTest, h1, Res.bind_ok, k1, Res.bind_ok, fillTreeCycle]
  by_cases h : n ≠ 0 ∧ n / 4 = 0
  · rw [if_pos h]; rfl
  · rw [if_neg h, Res.bind_ok, fillTreePvalues]
    have hd : (counts.map (Nat.cast : Nat → ℝ)).drop (wadd (0 + 19) 1) = [] := List.drop_eq_nil_of_le (by rw [List.length_map, k2, wadd_eq (by norm_num)])
    simp only []
    rw [hd, chisqPearson, pearsonLoop_nil _ _ (by decide)]
    rfl

/-- Non-vacuity: the chances in random order for trees of 3 nodes; keys of 32 bits; and a run of 10 trees. -/
example : fitLaw 2 1 - fitLaw 2 2 = 0 ∧ fitLaw 2 2 - fitLaw 2 3 = 2 / 3 ∧ fitLaw 2 3 - fitLaw 2 4 = 1 / 3 := by
  norm_num [fitLaw, Finset.Nat.antidiagonal_succ]

example : (∃ w : (Fin 240000000 → Fin (2 ^ 32 - 1)) → ℝ, 10.003 < mean w) ∧ ∀ gammaQ, fillTreeTest gammaQ (fun i => 7 * i + 1) 0 10 = .ub := by
  obtain ⟨w, -, -, h, -⟩ := C95_default (2 ^ 32 - 1) 240000000 (by norm_num) le_rfl
  exact ⟨⟨w, h⟩, fun gammaQ => C95_few gammaQ _ (fun i => by omega) 10 (by norm_num)⟩

end Dh
