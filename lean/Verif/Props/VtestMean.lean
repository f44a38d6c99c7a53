import Mathlib.Tactic.Ring
import Mathlib.Tactic.FinCases
import Mathlib.Tactic.FieldSimp
import Mathlib.Tactic.Linarith
import Mathlib.Data.Rat.Cast.Order
import Mathlib.Data.Rat.BigOperators
import Verif.Proof.Uniform
import Verif.Props.Vtest
/-
C87: the mean of the statistic of `Vtest_eval` for independent trials.
-/
set_option linter.unusedSimpArgs false
namespace Dh

namespace Spec

/-- `n` trials with values below `K`: a trial has the value `c` with probability `p c`, and any two trials are independent. -/
structure PairTrials {Ω : Type*} [Fintype Ω] (n K : Nat) (X : Nat → Ω → Nat) (p : Nat → ℝ) : Prop where
  range : ∀ t < n, ∀ ω, X t ω < K
  one : ∀ t < n, ∀ c < K, (mean fun ω => if X t ω = c then (1 : ℝ) else 0) = p c
  two : ∀ s < n, ∀ t < n, s ≠ t → ∀ c < K, ∀ d < K, (mean fun ω => if X s ω = c ∧ X t ω = d then (1 : ℝ) else 0) = p c * p d

/-- The number of trials with the value `c`. -/
def trialCount {Ω : Type*} (X : Nat → Ω → Nat) (n : Nat) (ω : Ω) (c : Nat) : Nat := (List.range n).countP fun t => decide (X t ω = c)

/-- The mean of one term of Pearson's statistic, for a cell that has probability `p` and is given the probability `q`. -/
noncomputable def cellMean (n : Nat) (p q : ℝ) : ℝ := (p * (1 - p) + n * (p - q) ^ 2) / q

end Spec
open Spec

section
variable {Ω : Type*} [Fintype Ω] [Nonempty Ω] {n K : Nat} {X : Nat → Ω → Nat} {p : Nat → ℝ}

theorem trialCount_eq (X : Nat → Ω → Nat) (ω : Ω) (c : Nat) : ∀ n, (trialCount X n ω c : ℝ) = ∑ t ∈ Finset.range n, if X t ω = c then (1 : ℝ) else 0
  | 0 => by simp [trialCount]
  | n + 1 => by
    rw [Finset.sum_range_succ, ← trialCount_eq X ω c n, trialCount, trialCount, List.range_succ, List.countP_append]
    by_cases h : X n ω = c <;> simp [h]

/-- The observed number in a set of cells. -/
theorem trialCount_set (h : PairTrials n K X p) (S : Nat → Prop) [DecidablePred S] (ω : Ω) :
    ∑ c ∈ (Finset.range K).filter S, (trialCount X n ω c : ℝ) = ∑ t ∈ Finset.range n, if S (X t ω) then (1 : ℝ) else 0 := by
  simp only [trialCount_eq]
  rw [Finset.sum_comm]
  refine Finset.sum_congr rfl fun t ht => ?_
  rw [Finset.sum_ite_eq]
  by_cases hs : S (X t ω) <;> simp [hs, h.range t (Finset.mem_range.1 ht) ω]

theorem mean_set (h : PairTrials n K X p) (S : Nat → Prop) [DecidablePred S] {t : Nat} (ht : t < n) :
    (mean fun ω => if S (X t ω) then (1 : ℝ) else 0) = ∑ c ∈ (Finset.range K).filter S, p c := by
  have e : ∀ ω, (if S (X t ω) then (1 : ℝ) else 0) = ∑ c ∈ (Finset.range K).filter S, if X t ω = c then (1 : ℝ) else 0 := by
    intro ω
    rw [Finset.sum_ite_eq]
    by_cases hs : S (X t ω) <;> simp [hs, h.range t ht ω]
  rw [mean_congr e, mean_sum]
  refine Finset.sum_congr rfl fun c hc => ?_
  exact h.one t ht c (Finset.mem_range.1 (Finset.mem_filter.1 hc).1)

theorem mean_set_two (h : PairTrials n K X p) (S : Nat → Prop) [DecidablePred S] {s t : Nat} (hs : s < n) (ht : t < n) (hst : s ≠ t) :
    (mean fun ω => (if S (X s ω) then (1 : ℝ) else 0) * if S (X t ω) then (1 : ℝ) else 0) = (∑ c ∈ (Finset.range K).filter S, p c) ^ 2 := by
  have e : ∀ ω, ((if S (X s ω) then (1 : ℝ) else 0) * if S (X t ω) then (1 : ℝ) else 0) =
      ∑ c ∈ (Finset.range K).filter S, ∑ d ∈ (Finset.range K).filter S, if X s ω = c ∧ X t ω = d then (1 : ℝ) else 0 := by
    intro ω
    have : ∀ c d, (if X s ω = c ∧ X t ω = d then (1 : ℝ) else 0) = (if X s ω = c then (1 : ℝ) else 0) * if X t ω = d then (1 : ℝ) else 0 := by
      intro c d
      by_cases h1 : X s ω = c <;> by_cases h2 : X t ω = d <;> simp [h1, h2]
    simp only [this]
    rw [← Finset.sum_mul_sum, Finset.sum_ite_eq, Finset.sum_ite_eq]
    by_cases h1 : S (X s ω) <;> by_cases h2 : S (X t ω) <;> simp [h1, h2, h.range s hs ω, h.range t ht ω]
  rw [mean_congr e, mean_sum, sq, Finset.sum_mul_sum]
  refine Finset.sum_congr rfl fun c hc => ?_
  rw [mean_sum]
  refine Finset.sum_congr rfl fun d hd => ?_
  exact h.two s hs t ht hst c (Finset.mem_range.1 (Finset.mem_filter.1 hc).1) d (Finset.mem_range.1 (Finset.mem_filter.1 hd).1)

/-- The mean of one term of the statistic. -/
theorem mean_pearson (h : PairTrials n K X p) (S : Nat → Prop) [DecidablePred S] (q : ℝ) (hn : 0 < n) :
    (mean fun ω => ((∑ c ∈ (Finset.range K).filter S, (trialCount X n ω c : ℝ)) - n * q) ^ 2 / (n * q)) =
      cellMean n (∑ c ∈ (Finset.range K).filter S, p c) q := by
  have hn' : (n : ℝ) ≠ 0 := by exact_mod_cast hn.ne'
  simp only [trialCount_set h S]
  set P := ∑ c ∈ (Finset.range K).filter S, p c with hP
  rw [mean_div]
  have e1 : (mean fun ω => ∑ t ∈ Finset.range n, if S (X t ω) then (1 : ℝ) else 0) = n * P := by
    rw [mean_sum, Finset.sum_congr rfl fun t ht => mean_set h S (Finset.mem_range.1 ht)]
    simp [hP]
  have e2 : (mean fun ω => (∑ t ∈ Finset.range n, if S (X t ω) then (1 : ℝ) else 0) ^ 2) = n * P + n * (n - 1) * P ^ 2 := by
    simp only [sq, Finset.sum_mul_sum]
    rw [mean_sum]
    have : ∀ s ∈ Finset.range n, (mean fun ω => ∑ t ∈ Finset.range n, (if S (X s ω) then (1 : ℝ) else 0) * if S (X t ω) then (1 : ℝ) else 0) =
        P + (n - 1) * P ^ 2 := by
      intro s hs
      rw [mean_sum]
      have e : ∀ t ∈ Finset.range n, (mean fun ω => (if S (X s ω) then (1 : ℝ) else 0) * if S (X t ω) then (1 : ℝ) else 0) =
          P ^ 2 + if s = t then P - P ^ 2 else 0 := by
        intro t ht
        by_cases hst : s = t
        · subst hst
          rw [if_pos rfl, add_sub_cancel, hP, ← mean_set h S (Finset.mem_range.1 hs)]
          refine mean_congr fun ω => ?_
          split <;> simp
        · rw [if_neg hst, add_zero, mean_set_two h S (Finset.mem_range.1 hs) (Finset.mem_range.1 ht) hst]
      rw [Finset.sum_congr rfl e, Finset.sum_add_distrib, Finset.sum_ite_eq, if_pos hs, Finset.sum_const, Finset.card_range, nsmul_eq_mul]
      ring
    rw [Finset.sum_congr rfl this, Finset.sum_const, Finset.card_range, nsmul_eq_mul]
    ring
  have e3 : ∀ ω, ((∑ t ∈ Finset.range n, if S (X t ω) then (1 : ℝ) else 0) - n * q) ^ 2 =
      ((∑ t ∈ Finset.range n, if S (X t ω) then (1 : ℝ) else 0) ^ 2 - (2 * (n * q)) * ∑ t ∈ Finset.range n, if S (X t ω) then (1 : ℝ) else 0) + (n * q) ^ 2 := by
    intro ω; ring
  rw [mean_congr e3, mean_add, mean_sub, mean_const, mean_mul_left, e1, e2, cellMean]
  by_cases hq : q = 0
  · simp [hq]
  · field_simp
    ring

theorem list_sum_filter {M : Type*} [AddCommMonoid M] (K : Nat) (S : Nat → Prop) [DecidablePred S] (f : Nat → M) :
    (((List.range K).filter fun c => decide (S c)).map f).sum = ∑ c ∈ (Finset.range K).filter S, f c := by
  induction K with
  | zero => simp
  | succ K ih =>
    rw [List.range_succ, List.filter_append, List.map_append, List.sum_append, ih, Finset.range_add_one, Finset.filter_insert]
    by_cases h : S K
    · rw [if_pos h, Finset.sum_insert (by simp), add_comm]
      simp [h]
    · rw [if_neg h]
      simp [h]

/-- The mean of the statistic of `Vtest_eval` over independent trials that have the
probabilities `p` while the vector of expectations is made from the probabilities `q`: every cell that expects the cutoff or more contributes,
and the others contribute together if they expect the cutoff or more.  The degrees of freedom are one less than the number of
contributions. -/
theorem vtest_mean_cutoff (h : PairTrials n K X p) (hn : 0 < n) (q : Nat → ℚ) (k : ℚ) (hk : 0 < k) :
    ∃ w : Ω → Vtest, (∀ ω, vtestEval { vtestCreate K with
        cutoff := k
        x := (List.range K).map (fun c => (trialCount X n ω c : ℚ))
        y := (List.range K).map (fun c => (n : ℚ) * q c) } = .ok (w ω)) ∧
      (mean fun ω => ((w ω).chisq : ℝ)) = ∑ c ∈ (Finset.range K).filter (fun c => k ≤ n * q c), cellMean n (p c) (q c) +
        (if k ≤ n * ∑ c ∈ (Finset.range K).filter (fun c => ¬ k ≤ n * q c), q c then
          cellMean n (∑ c ∈ (Finset.range K).filter (fun c => ¬ k ≤ n * q c), p c) (∑ c ∈ (Finset.range K).filter (fun c => ¬ k ≤ n * q c), (q c : ℝ)) else 0) ∧
      ∀ ω, (w ω).ndof = (((Finset.range K).filter (fun c => k ≤ n * q c)).card +
        (if k ≤ n * ∑ c ∈ (Finset.range K).filter (fun c => ¬ k ≤ n * q c), q c then 1 else 0) + (2 ^ 32 - 1)) % 2 ^ 32 := by
  classical
  set g : Ω → Nat → ℚ × ℚ := fun ω c => ((trialCount X n ω c : ℚ), (n : ℚ) * q c) with hg
  have hn0 : (n : ℝ) ≠ 0 := by exact_mod_cast hn.ne'
  have hzip : ∀ ω, ((List.range K).map fun c => (trialCount X n ω c : ℚ)).zip ((List.range K).map fun c => (n : ℚ) * q c) = (List.range K).map (g ω) := by
    intro ω
    rw [List.zip_map']
  have hbig : ∀ ω, bigCells k ((List.range K).map (g ω)) = ((List.range K).filter fun c => decide (k ≤ (n : ℚ) * q c)).map (g ω) := by
    intro ω
    rw [bigCells, List.filter_map]
    rfl
  have hsmall : ∀ ω, smallCells k ((List.range K).map (g ω)) = ((List.range K).filter fun c => decide (¬ k ≤ (n : ℚ) * q c)).map (g ω) := by
    intro ω
    rw [smallCells, List.filter_map]
    rfl
  have hq' : ∀ (S : Nat → Prop) [DecidablePred S] (f : Nat → ℚ), (((List.range K).filter fun c => decide (S c)).map f).sum =
      ∑ c ∈ (Finset.range K).filter S, f c := fun S _ f => list_sum_filter K S f
  have hq : ∀ (S : Nat → Prop) [DecidablePred S] (f : Nat → ℚ), (((((List.range K).filter fun c => decide (S c)).map f).sum : ℚ) : ℝ) =
      ∑ c ∈ (Finset.range K).filter S, (f c : ℝ) := by
    intro S _ f
    rw [hq', Rat.cast_sum]
  have hpool1 : ∀ ω, ((pooled (smallCells k ((List.range K).map (g ω)))).1 : ℝ) = ∑ c ∈ (Finset.range K).filter (fun c => ¬ k ≤ n * q c), (trialCount X n ω c : ℝ) := by
    intro ω
    rw [hsmall, pooled, List.map_map, hq (fun c => ¬ k ≤ (n : ℚ) * q c)]
    refine Finset.sum_congr rfl fun c _ => ?_
    simp [hg]
  have hpool2 : ∀ ω, (pooled (smallCells k ((List.range K).map (g ω)))).2 = n * ∑ c ∈ (Finset.range K).filter (fun c => ¬ k ≤ n * q c), q c := by
    intro ω
    have := hq' (fun c => ¬ k ≤ (n : ℚ) * q c) (Prod.snd ∘ g ω)
    rw [← List.map_map] at this
    rw [hsmall, pooled, Finset.mul_sum]
    exact this
  have hcond : ∀ ω, (smallCells k ((List.range K).map (g ω)) ≠ [] ∧ k ≤ (pooled (smallCells k ((List.range K).map (g ω)))).2) ↔
      k ≤ n * ∑ c ∈ (Finset.range K).filter (fun c => ¬ k ≤ n * q c), q c := by
    intro ω
    rw [hpool2]
    refine ⟨fun h => h.2, fun h => ⟨fun hnil => ?_, h⟩⟩
    have := hpool2 ω
    rw [hnil] at this
    rw [← this] at h
    simp only [pooled, List.map_nil, List.sum_nil] at h
    exact absurd h (not_le.2 hk)
  have hlen : (((List.range K).filter fun c => decide (k ≤ (n : ℚ) * q c))).length = ((Finset.range K).filter (fun c => k ≤ n * q c)).card := by
    have := list_sum_filter K (fun c => k ≤ (n : ℚ) * q c) (fun _ => 1)
    simp only [List.map_const', List.sum_replicate, nsmul_eq_mul, mul_one, Finset.sum_const] at this
    exact_mod_cast this
  choose w hw1 hw2 _ hw3 _ _ _ using fun ω => C16_vtest_eval { vtestCreate K with
      cutoff := k
      x := (List.range K).map fun c => (trialCount X n ω c : ℚ)
      y := (List.range K).map fun c => (n : ℚ) * q c } (by simp [vtestCreate]) (by simp [vtestCreate]) hk
  refine ⟨w, fun ω => ?_, ?_, fun ω => ?_⟩
  · exact hw1 ω
  · have e : ∀ ω, ((w ω).chisq : ℝ) = ∑ c ∈ (Finset.range K).filter (fun c => k ≤ n * q c), ((trialCount X n ω c : ℝ) - n * q c) ^ 2 / (n * q c) +
        (if k ≤ n * ∑ c ∈ (Finset.range K).filter (fun c => ¬ k ≤ n * q c), q c then
          ((∑ c ∈ (Finset.range K).filter (fun c => ¬ k ≤ n * q c), (trialCount X n ω c : ℝ)) - n * (∑ c ∈ (Finset.range K).filter (fun c => ¬ k ≤ n * q c), (q c : ℝ))) ^ 2 /
            (n * (∑ c ∈ (Finset.range K).filter (fun c => ¬ k ≤ n * q c), (q c : ℝ))) else 0) := by
      intro ω
      rw [hw2, hzip, usedCells, List.map_append, List.sum_append, hbig, List.map_map, Rat.cast_add, hq (fun c => k ≤ (n : ℚ) * q c)]
      congr 1
      · refine Finset.sum_congr rfl fun c _ => ?_
        simp [hg, pearson]
      · by_cases hc : k ≤ n * ∑ c ∈ (Finset.range K).filter (fun c => ¬ k ≤ n * q c), q c
        · rw [if_pos ((hcond ω).2 hc), if_pos hc, List.map_singleton, List.sum_singleton, pearson, ← hpool1, hpool2]
          push_cast
          simp only [Rat.cast_sum]
        · rw [if_neg (fun h => hc ((hcond ω).1 h)), if_neg hc]
          simp
    rw [mean_congr e, mean_add, mean_sum]
    congr 1
    · refine Finset.sum_congr rfl fun c hc => ?_
      have hcK := Finset.mem_range.1 (Finset.mem_filter.1 hc).1
      have := mean_pearson h (fun d => d = c) (q c) hn
      have hs : (Finset.range K).filter (fun d => d = c) = {c} := by
        ext d
        simp only [Finset.mem_filter, Finset.mem_range, Finset.mem_singleton]
        omega
      simp only [hs, Finset.sum_singleton] at this
      exact this
    · split
      · exact mean_pearson h _ _ hn
      · rw [mean_const]
  · rw [hw3 ω rfl, hzip, usedCells, List.length_append, hbig, List.length_map, hlen]
    by_cases hc : k ≤ n * ∑ c ∈ (Finset.range K).filter (fun c => ¬ k ≤ n * q c), q c
    · rw [if_pos ((hcond ω).2 hc), if_pos hc]
      rfl
    · rw [if_neg (fun h => hc ((hcond ω).1 h)), if_neg hc]
      rfl

/-- **C87.** The mean of the statistic of `Vtest_eval` (with the cutoff 5 of `Vtest_create`) over independent trials that have the
probabilities `p` while the vector of expectations is made from the probabilities `q`: every cell that expects five or more contributes,
and the others contribute together if they expect five or more.  The degrees of freedom are one less than the number of
contributions. -/
theorem C87_vtest_mean (h : PairTrials n K X p) (hn : 0 < n) (q : Nat → ℚ) :
    ∃ w : Ω → Vtest, (∀ ω, vtestEval { vtestCreate K with
        x := (List.range K).map (fun c => (trialCount X n ω c : ℚ))
        y := (List.range K).map (fun c => (n : ℚ) * q c) } = .ok (w ω)) ∧
      (mean fun ω => ((w ω).chisq : ℝ)) = ∑ c ∈ (Finset.range K).filter (fun c => 5 ≤ n * q c), cellMean n (p c) (q c) +
        (if 5 ≤ n * ∑ c ∈ (Finset.range K).filter (fun c => ¬ 5 ≤ n * q c), q c then
          cellMean n (∑ c ∈ (Finset.range K).filter (fun c => ¬ 5 ≤ n * q c), p c) (∑ c ∈ (Finset.range K).filter (fun c => ¬ 5 ≤ n * q c), (q c : ℝ)) else 0) ∧
      ∀ ω, (w ω).ndof = (((Finset.range K).filter (fun c => 5 ≤ n * q c)).card +
        (if 5 ≤ n * ∑ c ∈ (Finset.range K).filter (fun c => ¬ 5 ≤ n * q c), q c then 1 else 0) + (2 ^ 32 - 1)) % 2 ^ 32 :=
  vtest_mean_cutoff h hn q 5 (by norm_num)

theorem cellMean_self (n : Nat) {q : ℝ} (hq : q ≠ 0) : cellMean n q q = 1 - q := by
  rw [cellMean]
  field_simp
  ring

/-- **C87.** When the expectations are those of the trials, the mean exceeds the number of used cells minus one by the probability of the
cells that are left out; it is the number of degrees of freedom exactly if none is left out. -/
theorem C87_right_law {q : Nat → ℚ} (h : PairTrials n K X fun c => (q c : ℝ)) (hn : 0 < n) (hsum : ∑ c ∈ Finset.range K, q c = 1) :
    ∃ w : Ω → Vtest, (∀ ω, vtestEval { vtestCreate K with
        x := (List.range K).map (fun c => (trialCount X n ω c : ℚ))
        y := (List.range K).map (fun c => (n : ℚ) * q c) } = .ok (w ω)) ∧
      (5 ≤ n * ∑ c ∈ (Finset.range K).filter (fun c => ¬ 5 ≤ n * q c), q c →
        (mean fun ω => ((w ω).chisq : ℝ)) = ((Finset.range K).filter (fun c => 5 ≤ n * q c)).card) ∧
      (¬ 5 ≤ n * ∑ c ∈ (Finset.range K).filter (fun c => ¬ 5 ≤ n * q c), q c →
        (mean fun ω => ((w ω).chisq : ℝ)) = ((Finset.range K).filter (fun c => 5 ≤ n * q c)).card - 1 +
          ∑ c ∈ (Finset.range K).filter (fun c => ¬ 5 ≤ n * q c), (q c : ℝ)) := by
  obtain ⟨w, h1, h2, -⟩ := C87_vtest_mean h hn q
  have hn0 : (0 : ℚ) < n := by exact_mod_cast hn
  have hbig : ∑ c ∈ (Finset.range K).filter (fun c => 5 ≤ n * q c), cellMean n (q c) (q c) =
      ((Finset.range K).filter (fun c => 5 ≤ n * q c)).card - ∑ c ∈ (Finset.range K).filter (fun c => 5 ≤ n * q c), (q c : ℝ) := by
    rw [Finset.sum_congr rfl fun c hc => cellMean_self n (q := q c) ?_]
    · rw [Finset.sum_sub_distrib]
      simp
    · intro h0
      have := (Finset.mem_filter.1 hc).2
      rw [Rat.cast_eq_zero.1 h0] at this
      norm_num at this
  have hsplit : ∑ c ∈ (Finset.range K).filter (fun c => 5 ≤ n * q c), (q c : ℝ) + ∑ c ∈ (Finset.range K).filter (fun c => ¬ 5 ≤ n * q c), (q c : ℝ) = 1 := by
    rw [Finset.sum_filter_add_sum_filter_not, ← Rat.cast_sum, hsum, Rat.cast_one]
  refine ⟨w, h1, fun hc => ?_, fun hc => ?_⟩
  · rw [h2, hbig, if_pos hc, cellMean_self]
    · linarith
    · rw [← Rat.cast_sum]
      intro h0
      rw [Rat.cast_eq_zero.1 h0] at hc
      norm_num at hc
  · rw [h2, hbig, if_neg hc]
    linarith

end

/-- Independent uniform digits below `K`. -/
theorem uniform_trials (n K : Nat) (hK : 0 < K) : PairTrials n K (fun t (ω : Fin n → Fin K) => if h : t < n then (ω ⟨t, h⟩).val else 0) fun _ => ((1 / K : ℚ) : ℝ) := by
  haveI : Nonempty (Fin K) := ⟨⟨0, hK⟩⟩
  have hK0 : (K : ℝ) ≠ 0 := by exact_mod_cast hK.ne'
  refine ⟨fun t ht ω => by simp only [dif_pos ht]; exact (ω _).2, fun t ht c hc => ?_, fun s hs t ht hst c hc d hd => ?_⟩
  · have h := mean_restrict (A := Fin K) (I := Fin 1) (J := Fin n) (fun _ => ⟨t, ht⟩) (fun a b _ => Subsingleton.elim a b)
      (fun b => if (b 0).val = c then (1 : ℝ) else 0)
    simp only [dif_pos ht]
    rw [h, mean_indicator]
    have hs : (Finset.univ.filter fun b : Fin 1 → Fin K => (b 0).val = c) = {fun _ => ⟨c, hc⟩} := by
      ext b
      simp only [Finset.mem_filter, Finset.mem_univ, true_and, Finset.mem_singleton]
      exact ⟨fun e => funext fun i => by rw [Subsingleton.elim i 0]; exact Fin.ext e, fun e => by rw [e]⟩
    rw [hs]
    simp
  · have h := mean_restrict (A := Fin K) (I := Fin 2) (J := Fin n) (fun i => if i = 0 then ⟨s, hs⟩ else ⟨t, ht⟩) (fun a b e => by
      fin_cases a <;> fin_cases b <;> simp_all)
      (fun b => if (b 0).val = c ∧ (b 1).val = d then (1 : ℝ) else 0)
    simp only [dif_pos ht, dif_pos hs]
    have h2 : ∀ ω : Fin n → Fin K, (if (ω ⟨s, hs⟩).val = c ∧ (ω ⟨t, ht⟩).val = d then (1 : ℝ) else 0) =
      (fun b : Fin 2 → Fin K => if (b 0).val = c ∧ (b 1).val = d then (1 : ℝ) else 0) (fun i => ω (if i = 0 then ⟨s, hs⟩ else ⟨t, ht⟩)) := fun ω => rfl
    rw [mean_congr h2, h, mean_indicator]
    have hs : (Finset.univ.filter fun b : Fin 2 → Fin K => (b 0).val = c ∧ (b 1).val = d) = {fun i => if i = 0 then ⟨c, hc⟩ else ⟨d, hd⟩} := by
      ext b
      simp only [Finset.mem_filter, Finset.mem_univ, true_and, Finset.mem_singleton]
      constructor
      · rintro ⟨e, e'⟩
        funext i
        fin_cases i
        · exact Fin.ext e
        · exact Fin.ext e'
      · intro e
        rw [e]
        exact ⟨rfl, rfl⟩
    rw [hs]
    simp
    ring

/-- A thousand digits: the mean of the statistic is nine, the number of degrees of freedom. -/
example : ∃ w : (Fin 1000 → Fin 10) → Vtest, (∀ ω, vtestEval { vtestCreate 10 with
      x := (List.range 10).map (fun c => (trialCount (fun t (ω : Fin 1000 → Fin 10) => if h : t < 1000 then (ω ⟨t, h⟩).val else 0) 1000 ω c : ℚ))
      y := (List.range 10).map (fun _ => ((1000 : ℕ) : ℚ) * (1 / (10 : ℕ))) } = .ok (w ω)) ∧
    (mean fun ω => ((w ω).chisq : ℝ)) = 9 := by
  obtain ⟨w, h1, -, h3⟩ := C87_right_law (uniform_trials 1000 10 (by norm_num)) (by norm_num) (by norm_num)
  refine ⟨w, h1, ?_⟩
  rw [h3] <;> norm_num

end Dh
