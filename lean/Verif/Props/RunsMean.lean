import Mathlib.Algebra.Order.BigOperators.Group.Finset
import Verif.Proof.RunsForm
import Verif.Model.RunsStat
import Verif.Props.Runs
import Verif.Props.MinDist
import Verif.Props.Operm5Mean
/-
C89: the statistic of the runs test and its mean for numbers in random order.
-/
set_option linter.unusedSimpArgs false
namespace Dh

namespace Spec

/-- The table of diehard_runs.c. -/
noncomputable def runsWeight (i j : Nat) : ℝ := ((runsA.getD i []).getD j 0 : Int) / 10

/-- The limit of the number of runs of class `i` per draw, for numbers in random order: `1/L! - 2/(L+1)! + 1/(L+2)!` runs of length
`L = i+1`, and for the last class `1/6! - 1/7!`. -/
noncomputable def runsProb (i : Nat) : ℝ :=
  if i < 5 then 1 / (i + 1).factorial - 2 / (i + 2).factorial + 1 / (i + 3).factorial else 1 / Nat.factorial 6 - 1 / Nat.factorial 7

/-- The quadratic form of the numbers `c i` of runs of each class. -/
noncomputable def runsForm (c : Nat → Nat) (n : Nat) : ℝ :=
  (∑ i ∈ Finset.range 6, ∑ j ∈ Finset.range 6, ((c i : ℝ) - n * runsProb i) * ((c j : ℝ) - n * runsProb j) * runsWeight i j) / n

/-- The ascending runs of each class among `n` draws; the last one counts only if the last draw does not exceed the first. -/
def upCount (src : Src) (n c : Nat) : Nat :=
  inClass (if src 0 < src (n - 1) then (upRuns (firstDraws src n)).dropLast else upRuns (firstDraws src n)) c

/-- The descending runs of each class among `n` draws; the last one counts only if the last draw exceeds the first. -/
def downCount (src : Src) (n c : Nat) : Nat :=
  inClass (if src 0 < src (n - 1) then downRuns (firstDraws src n) else (downRuns (firstDraws src n)).dropLast) c

end Spec
open Spec

/-! ### The loops -/

theorem runsB_getD : ∀ i < 6, runsB.getD i 0 = runsProb i := by
  intro i hi
  have h : i = 0 ∨ i = 1 ∨ i = 2 ∨ i = 3 ∨ i = 4 ∨ i = 5 := by omega
  rcases h with rfl | rfl | rfl | rfl | rfl | rfl <;> norm_num [runsB, runsProb, Nat.factorial]

theorem runsRowLoop_eq (counts : List Nat) (hc : counts.length = 6) (n xi : ℝ) (row : List Int) (hr : row.length = 6) : ∀ (todo j : Nat) (v : ℝ), j + todo ≤ 6 →
    runsRowLoop counts n xi row todo j v =
      .ok (v + ∑ k ∈ Finset.range todo, xi * ((counts.getD (j + k) 0 : ℝ) - n * runsProb (j + k)) * ((row.getD (j + k) 0 : Int) / 10))
  | 0, j, v, _ => by simp [runsRowLoop]
  | todo + 1, j, v, h => by
    rw [runsRowLoop, rd_dflt 0 (by omega), Res.bind_ok, rd_dflt 0 (by simp [runsB]; omega), Res.bind_ok, rd_dflt 0 (by omega), Res.bind_ok,
      runsRowLoop_eq counts hc n xi row hr todo (j + 1) _ (by omega), Finset.sum_range_succ', runsB_getD j (by omega)]
    simp only [Nat.add_zero, Nat.add_assoc, Nat.add_comm 1]
    congr 1
    ring

theorem runsA_row : ∀ i < 6, (runsA.getD i []).length = 6 := by decide

theorem runsQuadLoop_eq (counts : List Nat) (hc : counts.length = 6) (n : ℝ) : ∀ (todo i : Nat) (v : ℝ), i + todo ≤ 6 →
    runsQuadLoop counts n todo i v = .ok (v + ∑ k ∈ Finset.range todo, ∑ j ∈ Finset.range 6,
      ((counts.getD (i + k) 0 : ℝ) - n * runsProb (i + k)) * ((counts.getD j 0 : ℝ) - n * runsProb j) * runsWeight (i + k) j)
  | 0, i, v, _ => by simp [runsQuadLoop]
  | todo + 1, i, v, h => by
    rw [runsQuadLoop, rd_dflt 0 (by omega), Res.bind_ok, rd_dflt 0 (by simp [runsB]; omega), Res.bind_ok, rd_dflt [] (by simp [runsA]; omega), Res.bind_ok,
      show runMax = 6 from rfl, runsRowLoop_eq counts hc n _ _ (runsA_row i (by omega)) 6 0 v (by omega), Res.bind_ok,
      runsQuadLoop_eq counts hc n todo (i + 1) _ (by omega), Finset.sum_range_succ' (n := todo), runsB_getD i (by omega)]
    simp only [Nat.add_zero, Nat.zero_add, Nat.add_assoc, Nat.add_comm 1, runsWeight]
    congr 1
    ring

/-- **C89.** The runs test returns the upper tails of the gamma distribution with parameter 3 at half the quadratic forms of the numbers
of ascending and descending runs. -/
theorem C89_statistic (gammaQ : ℝ → ℝ → ℝ) (src : Src) (n : Nat) (hn : 1 ≤ n) :
    runsTest gammaQ src n = .ok (gammaQ 3 (runsForm (upCount src n) n / 2), gammaQ 3 (runsForm (downCount src n) n / 2)) := by
  obtain ⟨up, down, h1, h2, h3, -, h4, h5⟩ := C36_runs src n hn
  rw [runsTest, h1]
  simp only [Res.bind_ok, show runMax = 6 from rfl]
  rw [runsQuadLoop_eq up h2 n 6 0 0 (by omega), Res.bind_ok, runsQuadLoop_eq down h3 n 6 0 0 (by omega), Res.bind_ok]
  simp only [zero_add, Nat.zero_add]
  have e : ∀ (l : List Nat) (c : Nat → Nat), (∀ i < 6, l.getD i 0 = c i) →
      ∑ k ∈ Finset.range 6, ∑ j ∈ Finset.range 6, ((l.getD k 0 : ℝ) - n * runsProb k) * ((l.getD j 0 : ℝ) - n * runsProb j) * runsWeight k j =
      ∑ k ∈ Finset.range 6, ∑ j ∈ Finset.range 6, ((c k : ℝ) - n * runsProb k) * ((c j : ℝ) - n * runsProb j) * runsWeight k j := fun l c h =>
    Finset.sum_congr rfl fun i hi => Finset.sum_congr rfl fun j hj => by rw [h i (Finset.mem_range.1 hi), h j (Finset.mem_range.1 hj)]
  rw [e up (upCount src n) h4, e down (downCount src n) h5]
  rfl

/-! ### The mean -/

/-- The coefficients of the quadratic form in the numbers of runs longer than `p`. -/
def runsTailA : List (List Int) :=
  [[45294, 45155, 45231, 45230, 45240, 52770],
   [45155, 45366, 45189, 45250, 45230, 52780],
   [45231, 45189, 45400, 45120, 45240, 52780],
   [45230, 45250, 45120, 45730, 44850, 52770],
   [45240, 45230, 45240, 44850, 47360, 51040],
   [52770, 52780, 52780, 52770, 51040, 71700]]

theorem runs_abel (d : Nat → ℝ) (h6 : d 6 = 0) :
    ∑ i ∈ Finset.range 6, ∑ j ∈ Finset.range 6, (d i - d (i + 1)) * (d j - d (j + 1)) * runsWeight i j =
      ∑ p ∈ Finset.range 6, ∑ q ∈ Finset.range 6, (((runsTailA.getD p []).getD q 0 : Int) : ℝ) / 10 * (d p * d q) := by
  simp only [Finset.sum_range_succ, Finset.sum_range_zero, runsWeight, runsA, runsTailA, List.getD_cons_zero, List.getD_cons_succ, Nat.reduceAdd, h6]
  push_cast
  ring

/-- The mean of the quadratic form, from the covariances of the tail counts. -/
def runsTotal (f : Nat → Nat → ℚ) : ℚ := ∑ p ∈ Finset.range 6, ∑ q ∈ Finset.range 6, ((runsTailA.getD p []).getD q 0 : Int) * f p q

set_option maxRecDepth 100000 in
theorem runsTotal_X : runsTotal (termPairs termX) = 16420650751 / 272432160 := by decide +kernel

set_option maxRecDepth 100000 in
theorem runsTotal_Y : runsTotal (fun p q => termPairs termY p q + tailBias p * tailBias q) = 3426216358303 / 31135104 := by decide +kernel

theorem tailMean_diff : ∀ i < 6, ((tailMean i : ℚ) : ℝ) - (tailMean (i + 1) : ℚ) = runsProb i := by
  have h : ∀ i < 6, tailMean i = 1 / (i + 1).factorial - 1 / (i + 2).factorial := by decide +kernel
  have h6 : tailMean 6 = 0 := by decide +kernel
  intro i hi
  rw [h i hi, runsProb]
  split
  · rw [h (i + 1) (by omega)]
    push_cast
    ring
  · obtain rfl : i = 5 := by omega
    rw [h6]
    push_cast
    ring

theorem sum_drop_succ (l : List Nat) (i : Nat) (h : i < l.length) : (l.drop i).sum = l.getD i 0 + (l.drop (i + 1)).sum := by
  rw [List.drop_eq_getElem_cons h, List.sum_cons, List.getD_eq_getElem _ _ h]

/-- The mean of the form, for counts that are differences of tail counts on a circle. -/
theorem runsForm_mean {N : Nat} (x : Fin N → ℤ) (hx : Function.Injective x) (n : Nat) (hn : 14 ≤ n) (hN : n ≤ N) (c : Equiv.Perm (Fin N) → Nat → Nat)
    (hc : ∀ σ, ∀ i < 6, (c σ i : ℝ) = tailForm (circle x n (by omega) hN σ) n i - tailForm (circle x n (by omega) hN σ) n (i + 1)) :
    (mean fun σ : Equiv.Perm (Fin N) => runsForm (c σ) n) = 16420650751 / 2724321600 + 3426216358303 / 311351040 / n := by
  have hn0 : (n : ℝ) ≠ 0 := by exact_mod_cast (by omega : n ≠ 0)
  have e : ∀ σ : Equiv.Perm (Fin N), runsForm (c σ) n = (∑ p ∈ Finset.range 6, ∑ q ∈ Finset.range 6, (((runsTailA.getD p []).getD q 0 : Int) : ℝ) / 10 *
      ((tailForm (circle x n (by omega) hN σ) n p - n * (tailMean p : ℝ)) * (tailForm (circle x n (by omega) hN σ) n q - n * (tailMean q : ℝ)))) / n := by
    intro σ
    rw [runsForm, ← runs_abel (fun p => tailForm (circle x n (by omega) hN σ) n p - n * (tailMean p : ℝ))
      (by simp [tailForm, runTerms, tailMean])]
    congr 1
    refine Finset.sum_congr rfl fun i hi => Finset.sum_congr rfl fun j hj => ?_
    rw [hc σ i (Finset.mem_range.1 hi), hc σ j (Finset.mem_range.1 hj), ← tailMean_diff i (Finset.mem_range.1 hi), ← tailMean_diff j (Finset.mem_range.1 hj)]
    ring
  rw [mean_congr e, mean_div, mean_sum]
  simp only [mean_sum, mean_mul_left, mean_tails_centred x n (by omega) hN hx _ _ hn]
  have e2 : ∀ f : Nat → Nat → ℚ, ∑ p ∈ Finset.range 6, ∑ q ∈ Finset.range 6, (((runsTailA.getD p []).getD q 0 : Int) : ℝ) / 10 * (f p q : ℝ) =
      (runsTotal f : ℝ) / 10 := by
    intro f
    rw [runsTotal, Rat.cast_sum, Finset.sum_div]
    refine Finset.sum_congr rfl fun p _ => ?_
    rw [Rat.cast_sum, Finset.sum_div]
    refine Finset.sum_congr rfl fun q _ => ?_
    push_cast
    ring
  have e3 : ∑ p ∈ Finset.range 6, ∑ q ∈ Finset.range 6, (((runsTailA.getD p []).getD q 0 : Int) : ℝ) / 10 *
      (n * (termPairs termX p q : ℝ) + ((termPairs termY p q + tailBias p * tailBias q : ℚ) : ℝ)) =
      n * ((runsTotal (termPairs termX) : ℝ) / 10) + (runsTotal (fun p q => termPairs termY p q + tailBias p * tailBias q) : ℝ) / 10 := by
    rw [← e2, ← e2, Finset.mul_sum, ← Finset.sum_add_distrib]
    refine Finset.sum_congr rfl fun p _ => ?_
    rw [Finset.mul_sum, ← Finset.sum_add_distrib]
    exact Finset.sum_congr rfl fun q _ => by ring
  rw [e3, runsTotal_X, runsTotal_Y]
  push_cast
  field_simp
  ring

theorem count_tail {l : List Nat} (hl : l.length = 6) {r : Nat → Bool} {n : Nat} (h : ∀ p < 6, (l.drop p).sum = runTail r p n) {y : Nat → ℤ} (hy : Compares y n r)
    (hn : 7 ≤ n) : ∀ i < 6, (l.getD i 0 : ℝ) = tailForm y n i - tailForm y n (i + 1) := by
  have h1 : ∀ p < 7, ((l.drop p).sum : ℝ) = tailForm y n p := by
    intro p hp
    rcases Nat.lt_or_ge p 6 with h6 | h6
    · rw [h p h6, runTail_terms hy p h6 hn, tailForm]
    · obtain rfl : p = 6 := by omega
      rw [List.drop_eq_nil_of_le (by omega)]
      simp [tailForm, runTerms]
  intro i hi
  rw [← h1 i (by omega), ← h1 (i + 1) (by omega), sum_drop_succ l i (by omega)]
  push_cast
  ring

theorem runs_counts (src : Src) (n : Nat) (hn : 7 ≤ n) {y z : Nat → ℤ} (hy : Compares y n (runsBit src n)) (hz : Compares z n fun s => !runsBit src n s) :
    (∀ i < 6, (upCount src n i : ℝ) = tailForm y n i - tailForm y n (i + 1)) ∧
      ∀ i < 6, (downCount src n i : ℝ) = tailForm z n i - tailForm z n (i + 1) := by
  obtain ⟨up, down, h1, h2, h3, -, h4, h5⟩ := C36_runs src n (by omega)
  obtain ⟨up', down', k1, k2, k3, k4, k5⟩ := runs_tails src n (by omega)
  rw [h1] at k1
  obtain ⟨rfl, rfl⟩ : up = up' ∧ down = down' := by simpa using k1
  constructor
  · intro i hi
    rw [← count_tail h2 k4 hy hn i hi, h4 i hi]
    rfl
  · intro i hi
    rw [← count_tail h3 k5 hz hn i hi, h5 i hi]
    rfl

theorem circle_compares {N : Nat} (x : Fin N → UInt) (hx : Function.Injective x) (n : Nat) (hn : 2 ≤ n) (hN : n ≤ N) (σ : Equiv.Perm (Fin N)) :
    Compares (circle (fun i => ((x i).toNat : ℤ)) n (by omega) hN σ) n (runsBit (orderSrc x σ) n) ∧
      Compares (circle (fun i => -((x i).toNat : ℤ)) n (by omega) hN σ) n (fun s => !runsBit (orderSrc x σ) n s) := by
  have hs : ∀ s (h : s < n), orderSrc x σ s = x (σ ⟨s, by omega⟩) := fun s h => by rw [orderSrc, dif_pos (by omega)]
  have hne : ∀ s t (h : s < n) (h' : t < n), s ≠ t → (x (σ ⟨s, by omega⟩)).toNat ≠ (x (σ ⟨t, by omega⟩)).toNat := by
    intro s t h h' hst e
    have := σ.injective (hx (BitVec.eq_of_toNat_eq e))
    exact hst (congrArg Fin.val this)
  have hc : ∀ (g : Fin N → ℤ) s (h : s < n), circle g n (by omega) hN σ s = g (σ ⟨s, by omega⟩) := fun g s h => by
    simp only [circle, Nat.mod_eq_of_lt h]
  have hc' : ∀ (g : Fin N → ℤ), circle g n (by omega) hN σ n = g (σ ⟨0, by omega⟩) := fun g => by
    simp only [circle, Nat.mod_self]
  refine ⟨⟨?_, ?_⟩, ⟨?_, ?_⟩⟩
  · intro s h
    rw [runsBit, if_pos h, hs _ h, hs s (by omega), hc _ _ h, hc _ s (by omega)]
    congr 1
    simp only [BitVec.lt_def, gt_iff_lt, Nat.cast_lt]
  · intro s h
    subst h
    rw [runsBit, if_neg (by omega), hs s (by omega), hs 0 (by omega), hc _ s (by omega), hc']
    have := hne s 0 (by omega) (by omega) (by omega)
    rw [← decide_not]
    congr 1
    simp only [BitVec.lt_def, gt_iff_lt, Nat.cast_lt, eq_iff_iff]
    omega
  · intro s h
    have := hne s (s + 1) (by omega) (by omega) (by omega)
    simp only [runsBit, if_pos h, hs _ h, hs s (by omega), hc _ _ h, hc _ s (by omega)]
    rw [← decide_not]
    congr 1
    simp only [BitVec.lt_def, gt_iff_lt, Nat.cast_lt, eq_iff_iff]
    omega
  · intro s h
    subst h
    have := hne s 0 (by omega) (by omega) (by omega)
    simp only [runsBit, if_neg (show ¬ s + 1 < s + 1 by omega), hs s (by omega), hs 0 (by omega), hc _ s (by omega), hc']
    congr 2
    simp only [BitVec.lt_def, gt_iff_lt, Nat.cast_lt, eq_iff_iff]
    omega

/-- **C89.** The mean of the form of the ascending runs over all orders of `N` different values: not 6, the mean of the chi-square
distribution with 6 degrees of freedom, but about `6.0274 + 11004 / n`. -/
theorem C89_up_mean {N : Nat} (x : Fin N → UInt) (hx : Function.Injective x) (n : Nat) (hn : 14 ≤ n) (hN : n ≤ N) :
    (mean fun σ : Equiv.Perm (Fin N) => runsForm (upCount (orderSrc x σ) n) n) = 16420650751 / 2724321600 + 3426216358303 / 311351040 / n := by
  refine runsForm_mean (fun i => ((x i).toNat : ℤ)) (fun i j e => hx (BitVec.eq_of_toNat_eq (Int.ofNat.inj e))) n hn hN _ fun σ => ?_
  have h := circle_compares x hx n (by omega) hN σ
  exact (runs_counts _ n (by omega) h.1 h.2).1

/-- **C89.** The form of the descending runs has the same mean. -/
theorem C89_down_mean {N : Nat} (x : Fin N → UInt) (hx : Function.Injective x) (n : Nat) (hn : 14 ≤ n) (hN : n ≤ N) :
    (mean fun σ : Equiv.Perm (Fin N) => runsForm (downCount (orderSrc x σ) n) n) = 16420650751 / 2724321600 + 3426216358303 / 311351040 / n := by
  refine runsForm_mean (fun i => -((x i).toNat : ℤ)) (fun i j e => hx (BitVec.eq_of_toNat_eq (Int.ofNat.inj (neg_injective e)))) n hn hN _ fun σ => ?_
  have h := circle_compares x hx n (by omega) hN σ
  exact (runs_counts _ n (by omega) h.1 h.2).2

/-- **C89.** With the default 100000 draws the mean exceeds 6 by more than `0.137`. -/
theorem C89_default {N : Nat} (x : Fin N → UInt) (hx : Function.Injective x) (hN : 100000 ≤ N) :
    6.137 < (mean fun σ : Equiv.Perm (Fin N) => runsForm (upCount (orderSrc x σ) 100000) 100000) := by
  have h := C89_up_mean x hx 100000 (by norm_num) hN
  rw [h]
  norm_num

example : (mean fun σ : Equiv.Perm (Fin 100000) => runsForm (downCount (orderSrc (fun i => BitVec.ofNat 32 i.val) σ) 100000) 100000) =
    16420650751 / 2724321600 + 3426216358303 / 311351040 / 100000 := by
  have h := C89_down_mean (fun i : Fin 100000 => BitVec.ofNat 32 i.val) (fun i j e => by
    have := congrArg BitVec.toNat e
    simp only [BitVec.toNat_ofNat] at this
    rw [Nat.mod_eq_of_lt (by omega), Nat.mod_eq_of_lt (by omega)] at this
    exact Fin.ext this) 100000 (by norm_num) (by norm_num)
  simpa only [Nat.cast_ofNat] using h

end Dh
