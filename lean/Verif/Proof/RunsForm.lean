import Mathlib.Algebra.BigOperators.Group.List.Lemmas
import Mathlib.Algebra.BigOperators.Ring.List
import Verif.Proof.RunsCov
import Verif.Proof.RunsTail
/-
The covariances of the counts of diehard_runs.c.
-/
set_option linter.unusedSimpArgs false
namespace Dh
open Spec

/-! ### Tail counts and chains -/

/-- The results of the comparisons, for values `y` on a circle of length `n`. -/
structure Compares (y : Nat → ℤ) (n : Nat) (r : Nat → Bool) : Prop where
  inner : ∀ s, s + 1 < n → r s = decide (y s < y (s + 1))
  last : ∀ s, s + 1 = n → r s = !decide (y s < y (s + 1))

theorem linked_chain {y : Nat → ℤ} {n : Nat} {r : Nat → Bool} (h : Compares y n r) : ∀ (p s : Nat), s < n →
    (if linked r p s then (1 : ℝ) else 0) = if p ≤ s then chainInd y p (s - p) else 0
  | 0, s, _ => by simp [linked, chainInd_zero]
  | p + 1, 0, _ => by simp [linked]
  | p + 1, s + 1, hs => by
    have ih := linked_chain h p s (by omega)
    rw [linked, h.inner s hs]
    by_cases hp : p ≤ s
    · rw [if_pos hp] at ih
      rw [if_pos (show p + 1 ≤ s + 1 by omega), Nat.add_sub_add_right, chainInd_succ, ← ih, show s - p + p = s by omega]
      by_cases h1 : y s < y (s + 1) <;> simp [h1]
    · rw [if_neg hp] at ih
      rw [if_neg (show ¬ p + 1 ≤ s + 1 by omega)]
      have : linked r p s = false := by
        by_contra hl
        rw [Bool.not_eq_false] at hl
        rw [hl] at ih
        simp at ih
      simp [this]

theorem runTail_sum (r : Nat → Bool) (p : Nat) : ∀ n, (runTail r p n : ℝ) = ∑ s ∈ Finset.range n, if (!r s && linked r p s) = true then (1 : ℝ) else 0
  | 0 => by simp [runTail]
  | n + 1 => by
    rw [runTail_succ, Finset.sum_range_succ, Nat.cast_add, runTail_sum r p n]
    congr 1
    split <;> simp

theorem runTail_chain {y : Nat → ℤ} {n : Nat} {r : Nat → Bool} (h : Compares y n r) (p : Nat) (hp : p + 1 ≤ n) :
    (runTail r p n : ℝ) = (∑ i ∈ Finset.range (n - 1 - p), (chainInd y p i - chainInd y (p + 1) i)) + chainInd y (p + 1) (n - 1 - p) := by
  obtain ⟨w, rfl⟩ : ∃ w, n = p + w + 1 := ⟨n - p - 1, by omega⟩
  rw [runTail_sum, Finset.sum_range_succ, Finset.sum_range_add, show p + w + 1 - 1 - p = w by omega]
  have e1 : ∀ s ∈ Finset.range p, (if (!r s && linked r p s) = true then (1 : ℝ) else 0) = 0 := by
    intro s hs
    rw [Finset.mem_range] at hs
    have := linked_chain h p s (by omega)
    rw [if_neg (show ¬ p ≤ s by omega)] at this
    have : linked r p s = false := by
      by_contra hl
      rw [Bool.not_eq_false] at hl
      rw [hl] at this
      simp at this
    simp [this]
  have e2 : ∀ i ∈ Finset.range w, (if (!r (p + i) && linked r p (p + i)) = true then (1 : ℝ) else 0) = chainInd y p i - chainInd y (p + 1) i := by
    intro i hi
    rw [Finset.mem_range] at hi
    have := linked_chain h p (p + i) (by omega)
    rw [if_pos (show p ≤ p + i by omega), Nat.add_sub_cancel_left] at this
    rw [chainInd_succ, ← this, h.inner (p + i) (by omega), Nat.add_comm i p]
    by_cases h1 : y (p + i) < y (p + i + 1) <;> simp [h1]
  rw [Finset.sum_congr rfl e1, Finset.sum_congr rfl e2, Finset.sum_const_zero, zero_add]
  congr 1
  have := linked_chain h p (p + w) (by omega)
  rw [if_pos (show p ≤ p + w by omega), Nat.add_sub_cancel_left] at this
  rw [chainInd_succ, ← this, h.last (p + w) rfl, Nat.add_comm w p]
  by_cases h1 : y (p + w) < y (p + w + 1) <;> simp [h1]

/-! ### The counts as combinations of chains -/

/-- The terms `(c, m, o)` of the number of runs of more than `p` places: `c` times all chains of `m+1` values if `o = 0`, otherwise
`c` times the chain that begins `o` places before the end. -/
def runTerms (p : Nat) : List (ℚ × Nat × Nat) :=
  if p < 6 then [(1, p, 0), (-1, p + 1, 0)] ++ ((List.range (p + 1)).map (fun o => (-1, p, o + 1)) ++
    ((List.range (p + 1)).map (fun o => (1, p + 1, o + 1)) ++ [(1, p + 1, p + 1)])) else []

/-- All chains, or one chain. -/
noncomputable def chainSum (y : Nat → ℤ) (n m o : Nat) : ℝ := if o = 0 then ∑ i ∈ Finset.range n, chainInd y m i else chainInd y m (n - o)

theorem terms_range_sum (φ : Nat → ℝ) : ∀ n, ((List.range n).map φ).sum = ∑ i ∈ Finset.range n, φ i
  | 0 => rfl
  | n + 1 => by rw [List.range_succ, List.map_append, List.sum_append, terms_range_sum φ n, Finset.sum_range_succ]; simp

theorem runTail_terms {y : Nat → ℤ} {n : Nat} {r : Nat → Bool} (h : Compares y n r) (p : Nat) (hp : p < 6) (hn : 7 ≤ n) :
    (runTail r p n : ℝ) = ((runTerms p).map fun t => (t.1 : ℝ) * chainSum y n t.2.1 t.2.2).sum := by
  rw [runTail_chain h p (by omega), runTerms, if_pos hp]
  simp only [List.map_append, List.map_cons, List.map_nil, List.map_map, Function.comp_def, List.sum_append, List.sum_cons, List.sum_nil, terms_range_sum,
    chainSum, if_true, if_false, Nat.add_eq_zero_iff, one_ne_zero, and_false, Rat.cast_one, Rat.cast_neg, one_mul, neg_mul, add_zero]
  obtain ⟨w, rfl⟩ : ∃ w, n = w + (p + 1) := ⟨n - (p + 1), by omega⟩
  have e : ∀ m, ∑ i ∈ Finset.range (w + (p + 1)), chainInd y m i = (∑ i ∈ Finset.range w, chainInd y m i) +
      ∑ o ∈ Finset.range (p + 1), chainInd y m (w + (p + 1) - (o + 1)) := by
    intro m
    rw [Finset.sum_range_add, ← Finset.sum_range_reflect (fun k => chainInd y m (w + k)) (p + 1)]
    congr 1
    refine Finset.sum_congr rfl fun o ho => ?_
    rw [Finset.mem_range] at ho
    congr 1
    omega
  rw [e, e, show w + (p + 1) - 1 - p = w by omega, show w + (p + 1) - (p + 1) = w by omega, Finset.sum_sub_distrib]
  simp only [Finset.sum_neg_distrib]
  ring

/-! ### Means of products -/

/-- The part of the covariance of two terms that grows with `n`. -/
def termX (m o m' o' : Nat) : ℚ := if o = 0 ∧ o' = 0 then chainCovSum m m' else 0

/-- The rest of the covariance of two terms. -/
def termY (m o m' o' : Nat) : ℚ :=
  if o = 0 then if o' = 0 then 0 else chainCovSum m m'
  else if o' = 0 then chainCovSum m' m
  else if o' ≤ o then chainCov m m' (o - o') else chainCov m' m (o' - o)

/-- The mean of a term. -/
noncomputable def termMean (n m o : Nat) : ℝ := (if o = 0 then (n : ℝ) else 1) * (1 / (m + 1).factorial)

section
variable {N : Nat} (x : Fin N → ℤ) (n : Nat) (h0 : 0 < n) (hN : n ≤ N)

theorem mean_term (hx : Function.Injective x) (m o : Nat) (hm : m + 1 ≤ n) :
    (mean fun σ : Equiv.Perm (Fin N) => chainSum (circle x n h0 hN σ) n m o) = termMean n m o := by
  by_cases ho : o = 0
  · simp only [chainSum, termMean, if_pos ho]
    rw [mean_sum, Finset.sum_congr rfl fun i _ => mean_chain x n h0 hN hx m i hm, Finset.sum_const, Finset.card_range, nsmul_eq_mul]
  · simp only [chainSum, termMean, if_neg ho]
    rw [mean_chain x n h0 hN hx m _ hm, one_mul]

theorem mean_terms (hx : Function.Injective x) (m o m' o' : Nat) (hm : m ≤ 6) (hm' : m' ≤ 6) (ho : o ≤ 7) (ho' : o' ≤ 7) (hn : 14 ≤ n) :
    (mean fun σ : Equiv.Perm (Fin N) => chainSum (circle x n h0 hN σ) n m o * chainSum (circle x n h0 hN σ) n m' o') =
      n * (termX m o m' o' : ℝ) + (termY m o m' o' : ℝ) + termMean n m o * termMean n m' o' := by
  by_cases h1 : o = 0
  · by_cases h2 : o' = 0
    · simp only [chainSum, termX, termY, termMean, h1, h2, if_true, and_self]
      have : ∀ σ : Equiv.Perm (Fin N), (∑ i ∈ Finset.range n, chainInd (circle x n h0 hN σ) m i) * (∑ j ∈ Finset.range n, chainInd (circle x n h0 hN σ) m' j) =
          ∑ j ∈ Finset.range n, ∑ i ∈ Finset.range n, chainInd (circle x n h0 hN σ) m i * chainInd (circle x n h0 hN σ) m' j := by
        intro σ
        rw [Finset.mul_sum]
        exact Finset.sum_congr rfl fun j _ => by rw [Finset.sum_mul]
      rw [mean_congr this, mean_sum]
      have e : ∀ j ∈ Finset.range n, (mean fun σ : Equiv.Perm (Fin N) => ∑ i ∈ Finset.range n, chainInd (circle x n h0 hN σ) m i * chainInd (circle x n h0 hN σ) m' j) =
          (chainCovSum m m' : ℝ) + n / (m + 1).factorial * (1 / (m' + 1).factorial) := by
        intro j _
        rw [mean_sum]
        exact mean_chain_sum x n h0 hN hx m m' j (by omega)
      rw [Finset.sum_congr rfl e, Finset.sum_const, Finset.card_range, nsmul_eq_mul]
      push_cast
      ring
    · simp only [chainSum, termX, termY, termMean, h1, h2, if_true, if_false, and_false, Finset.sum_mul]
      rw [mean_sum, mean_chain_sum x n h0 hN hx m m' (n - o') (by omega)]
      push_cast
      ring
  · by_cases h2 : o' = 0
    · simp only [chainSum, termX, termY, termMean, h1, h2, if_true, if_false, false_and, Finset.mul_sum]
      rw [mean_sum]
      have := mean_chain_sum x n h0 hN hx m' m (n - o) (by omega)
      simp only [mul_comm (chainInd _ m' _)] at this
      rw [this]
      push_cast
      ring
    · simp only [chainSum, termX, termY, termMean, h1, h2, if_false, false_and]
      by_cases h3 : o' ≤ o
      · have := mean_chain_mul x n h0 hN hx m m' (n - o) (o - o') (by omega) (by omega)
        rw [show n - o + (o - o') = n - o' by omega] at this
        rw [this, if_pos h3]
        by_cases h4 : o - o' ≤ m
        · rw [if_pos h4]; push_cast; ring
        · rw [if_neg h4, if_neg (by omega), chainCov, if_neg h4]; push_cast; ring
      · have := mean_chain_mul x n h0 hN hx m' m (n - o') (o' - o) (by omega) (by omega)
        rw [show n - o' + (o' - o) = n - o by omega] at this
        rw [mean_congr fun σ => mul_comm _ _, this, if_neg h3]
        by_cases h4 : o' - o ≤ m'
        · rw [if_pos h4]; push_cast; ring
        · rw [if_neg h4, if_neg (by omega), chainCov, if_neg h4]; push_cast; ring

end

theorem mean_list {Ω ι : Type*} [Fintype Ω] [Nonempty Ω] (f : ι → Ω → ℝ) : ∀ L : List ι, (mean fun ω => (L.map fun t => f t ω).sum) = (L.map fun t => mean (f t)).sum
  | [] => by simp [mean_const]
  | a :: L => by
    simp only [List.map_cons, List.sum_cons]
    rw [mean_add, mean_list f L]

theorem list_mul_list {ι : Type*} (f g : ι → ℝ) (L L' : List ι) :
    (L.map f).sum * (L'.map g).sum = (L.map fun s => (L'.map fun t => f s * g t).sum).sum := by
  rw [← List.sum_map_mul_right]
  simp only [List.sum_map_mul_left]

/-- A double sum over the terms of two tail counts. -/
def termPairs (w : Nat → Nat → Nat → Nat → ℚ) (p q : Nat) : ℚ :=
  ((runTerms p).map fun s => ((runTerms q).map fun t => s.1 * t.1 * w s.2.1 s.2.2 t.2.1 t.2.2).sum).sum

/-- The mean number of runs of more than `p` places, per place. -/
def tailMean (p : Nat) : ℚ := ((runTerms p).map fun s => s.1 * (if s.2.2 = 0 then (1 : ℚ) else 0) * (1 / (s.2.1 + 1).factorial)).sum

/-- The deviation of the mean number of runs of more than `p` places. -/
def tailBias (p : Nat) : ℚ := ((runTerms p).map fun s => s.1 * (if s.2.2 = 0 then (0 : ℚ) else 1) * (1 / (s.2.1 + 1).factorial)).sum

/-- A tail count as a combination of chains. -/
noncomputable def tailForm (y : Nat → ℤ) (n p : Nat) : ℝ := ((runTerms p).map fun t => (t.1 : ℝ) * chainSum y n t.2.1 t.2.2).sum

theorem runTerms_bounds (p : Nat) : ∀ t ∈ runTerms p, t.2.1 ≤ 6 ∧ t.2.2 ≤ 7 := by
  intro t ht
  rw [runTerms] at ht
  split at ht
  · simp only [List.mem_append, List.mem_map, List.mem_range, List.mem_cons, List.not_mem_nil, or_false] at ht
    rcases ht with (rfl | rfl) | ⟨o, ho, rfl⟩ | ⟨o, ho, rfl⟩ | rfl <;> (simp only; omega)
  · simp at ht

section
variable {N : Nat} (x : Fin N → ℤ) (n : Nat) (h0 : 0 < n) (hN : n ≤ N)

theorem termMean_sum (p n : Nat) : ((runTerms p).map fun t => (t.1 : ℝ) * termMean n t.2.1 t.2.2).sum = n * (tailMean p : ℝ) + (tailBias p : ℝ) := by
  rw [tailMean, tailBias]
  generalize runTerms p = L
  induction L with
  | nil => simp
  | cons a L ih =>
    simp only [List.map_cons, List.sum_cons]
    rw [ih, Rat.cast_add, Rat.cast_add]
    generalize (List.map (β := ℚ) _ L).sum = u
    generalize (List.map (β := ℚ) _ L).sum = v
    simp only [termMean]
    split <;> (push_cast; ring)

theorem mean_tail (hx : Function.Injective x) (p : Nat) (hn : 14 ≤ n) :
    (mean fun σ : Equiv.Perm (Fin N) => tailForm (circle x n h0 hN σ) n p) = n * (tailMean p : ℝ) + (tailBias p : ℝ) := by
  simp only [tailForm]
  rw [mean_list, ← termMean_sum]
  congr 1
  refine List.map_congr_left fun t ht => ?_
  have := runTerms_bounds p t ht
  rw [mean_mul_left, mean_term x n h0 hN hx _ _ (by omega)]

theorem mean_tails (hx : Function.Injective x) (p q : Nat) (hn : 14 ≤ n) :
    (mean fun σ : Equiv.Perm (Fin N) => tailForm (circle x n h0 hN σ) n p * tailForm (circle x n h0 hN σ) n q) =
      n * (termPairs termX p q : ℝ) + (termPairs termY p q : ℝ) + (n * (tailMean p : ℝ) + (tailBias p : ℝ)) * (n * (tailMean q : ℝ) + (tailBias q : ℝ)) := by
  simp only [tailForm, list_mul_list]
  rw [mean_list]
  simp only [mean_list]
  rw [← termMean_sum, ← termMean_sum]
  rw [list_mul_list]
  simp only [← List.sum_map_mul_left, termPairs, Rat.cast_list_sum, List.map_map, Function.comp_def, Rat.cast_mul]
  rw [← List.sum_map_add, ← List.sum_map_add]
  congr 1
  refine List.map_congr_left fun s hs => ?_
  rw [← List.sum_map_add, ← List.sum_map_add]
  congr 1
  refine List.map_congr_left fun t ht => ?_
  have b1 := runTerms_bounds p s hs
  have b2 := runTerms_bounds q t ht
  have e : ∀ σ : Equiv.Perm (Fin N), (s.1 : ℝ) * chainSum (circle x n h0 hN σ) n s.2.1 s.2.2 * ((t.1 : ℝ) * chainSum (circle x n h0 hN σ) n t.2.1 t.2.2) =
      ((s.1 : ℝ) * t.1) * (chainSum (circle x n h0 hN σ) n s.2.1 s.2.2 * chainSum (circle x n h0 hN σ) n t.2.1 t.2.2) := fun σ => by ring
  rw [mean_congr e, mean_mul_left, mean_terms x n h0 hN hx _ _ _ _ b1.1 b2.1 b1.2 b2.2 hn]
  ring

/-- The second moments of the tail counts about their limits. -/
theorem mean_tails_centred (hx : Function.Injective x) (p q : Nat) (hn : 14 ≤ n) :
    (mean fun σ : Equiv.Perm (Fin N) => (tailForm (circle x n h0 hN σ) n p - n * (tailMean p : ℝ)) * (tailForm (circle x n h0 hN σ) n q - n * (tailMean q : ℝ))) =
      n * (termPairs termX p q : ℝ) + ((termPairs termY p q + tailBias p * tailBias q : ℚ) : ℝ) := by
  have e : ∀ σ : Equiv.Perm (Fin N), (tailForm (circle x n h0 hN σ) n p - n * (tailMean p : ℝ)) * (tailForm (circle x n h0 hN σ) n q - n * (tailMean q : ℝ)) =
      ((tailForm (circle x n h0 hN σ) n p * tailForm (circle x n h0 hN σ) n q - (n * (tailMean q : ℝ)) * tailForm (circle x n h0 hN σ) n p) -
        (n * (tailMean p : ℝ)) * tailForm (circle x n h0 hN σ) n q) + (n * (tailMean p : ℝ)) * (n * (tailMean q : ℝ)) := fun σ => by ring
  rw [mean_congr e, mean_add, mean_sub, mean_sub, mean_mul_left, mean_mul_left, mean_const, mean_tails x n h0 hN hx p q hn, mean_tail x n h0 hN hx p hn,
    mean_tail x n h0 hN hx q hn]
  push_cast
  ring

end

end Dh
