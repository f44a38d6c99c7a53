import Verif.Proof.KeyTree
import Mathlib.Data.Nat.Choose.Sum
import Mathlib.Data.Nat.Factorial.BigOperators
import Mathlib.RingTheory.PowerSeries.WellKnown
/-
How many sequences of keys fill a search tree in a given way, between two bounds that differ by the coincidences among the keys only.
-/
namespace Dh
open Spec Finset

/-! ### The law for keys in random order -/

/-- The probability that a search tree of height `h` has room for `k` keys in random order: the first key is at the root, and the number of
smaller ones among the others is uniform. -/
noncomputable def Spec.fitLaw : Nat → Nat → ℝ
  | 0, k => if k = 0 then 1 else 0
  | _ + 1, 0 => 1
  | h + 1, k + 1 => (∑ p ∈ antidiagonal k, fitLaw h p.1 * fitLaw h p.2) / (k + 1)

/-- The probability that the key after `k` keys is the first without room, and ends at a given place. -/
noncomputable def dropLaw : Nat → Nat → ℝ
  | 0, k => if k = 0 then 1 else 0
  | _ + 1, 0 => 0
  | h + 1, k + 1 => (∑ p ∈ antidiagonal k, ((p.1 : ℝ) + 1) * dropLaw h p.1 * fitLaw h p.2) / ((k + 1) * (k + 2))

theorem fitLaw_zero (h : Nat) : fitLaw h 0 = 1 := by cases h <;> simp [fitLaw]

theorem fitLaw_nonneg : ∀ h k, 0 ≤ fitLaw h k
  | 0, k => by rw [fitLaw]; split <;> norm_num
  | _ + 1, 0 => by rw [fitLaw]; norm_num
  | h + 1, k + 1 => by
    rw [fitLaw]
    exact div_nonneg (sum_nonneg fun p _ => mul_nonneg (fitLaw_nonneg h _) (fitLaw_nonneg h _)) (by positivity)

theorem dropLaw_nonneg : ∀ h k, 0 ≤ dropLaw h k
  | 0, k => by rw [dropLaw]; split <;> norm_num
  | _ + 1, 0 => by rw [dropLaw]
  | h + 1, k + 1 => by
    rw [dropLaw]
    exact div_nonneg (sum_nonneg fun p _ => mul_nonneg (mul_nonneg (by positivity) (dropLaw_nonneg h _)) (fitLaw_nonneg h _)) (by positivity)

theorem sum_swap (k : Nat) (f : Nat → Nat → ℝ) : ∑ p ∈ antidiagonal k, f p.1 p.2 = ∑ p ∈ antidiagonal k, f p.2 p.1 := by
  exact (Finset.Nat.sum_antidiagonal_swap (f := fun p : Nat × Nat => f p.2 p.1))

theorem dropLaw_eq : ∀ h k, dropLaw h k = (fitLaw h k - fitLaw h (k + 1)) / 2 ^ h
  | 0, k => by simp [dropLaw, fitLaw]
  | h + 1, 0 => by simp [dropLaw, fitLaw, fitLaw_zero]
  | h + 1, k + 1 => by
    have e1 : 2 * ∑ p ∈ antidiagonal k, ((p.1 : ℝ) + 1) * (fitLaw h p.1 * fitLaw h p.2) =
        (k + 2) * ∑ p ∈ antidiagonal k, fitLaw h p.1 * fitLaw h p.2 := by
      rw [two_mul]
      nth_rw 2 [sum_swap k fun i j => ((i : ℝ) + 1) * (fitLaw h i * fitLaw h j)]
      rw [← sum_add_distrib, mul_sum]
      refine sum_congr rfl fun p hp => ?_
      have : (p.1 : ℝ) + p.2 = k := by exact_mod_cast mem_antidiagonal.1 hp
      rw [← this]; ring
    have e2 : 2 * ∑ p ∈ antidiagonal k, ((p.1 : ℝ) + 1) * (fitLaw h (p.1 + 1) * fitLaw h p.2) =
        (k + 1) * ∑ p ∈ antidiagonal (k + 1), fitLaw h p.1 * fitLaw h p.2 := by
      have e3 : ∑ p ∈ antidiagonal k, ((p.1 : ℝ) + 1) * (fitLaw h (p.1 + 1) * fitLaw h p.2) =
          ∑ p ∈ antidiagonal (k + 1), (p.1 : ℝ) * (fitLaw h p.1 * fitLaw h p.2) := by
        rw [Finset.Nat.sum_antidiagonal_succ]
        push_cast
        rw [zero_mul, zero_add]
      rw [e3, two_mul]
      nth_rw 2 [sum_swap (k + 1) fun i j => (i : ℝ) * (fitLaw h i * fitLaw h j)]
      rw [← sum_add_distrib, mul_sum]
      refine sum_congr rfl fun p hp => ?_
      have : (p.1 : ℝ) + p.2 = k + 1 := by exact_mod_cast mem_antidiagonal.1 hp
      rw [← this]; ring
    rw [dropLaw]
    have e4 : ∑ p ∈ antidiagonal k, ((p.1 : ℝ) + 1) * dropLaw h p.1 * fitLaw h p.2 =
        (∑ p ∈ antidiagonal k, ((p.1 : ℝ) + 1) * (fitLaw h p.1 * fitLaw h p.2) -
          ∑ p ∈ antidiagonal k, ((p.1 : ℝ) + 1) * (fitLaw h (p.1 + 1) * fitLaw h p.2)) / 2 ^ h := by
      rw [← sum_sub_distrib, sum_div]
      refine sum_congr rfl fun p _ => ?_
      rw [dropLaw_eq h p.1]; ring
    rw [e4, fitLaw, fitLaw]
    generalize ∑ p ∈ antidiagonal k, ((p.1 : ℝ) + 1) * (fitLaw h p.1 * fitLaw h p.2) = A at *
    generalize ∑ p ∈ antidiagonal k, ((p.1 : ℝ) + 1) * (fitLaw h (p.1 + 1) * fitLaw h p.2) = B at *
    generalize ∑ p ∈ antidiagonal k, fitLaw h p.1 * fitLaw h p.2 = C at *
    generalize ∑ p ∈ antidiagonal (k + 1), fitLaw h p.1 * fitLaw h p.2 = D at *
    have hA : A = (k + 2) * C / 2 := by linarith
    have hB : B = (k + 1) * D / 2 := by linarith
    have h2 : (2 : ℝ) ^ (h + 1) = 2 * 2 ^ h := by rw [pow_succ]; ring
    rw [hA, hB, h2]
    push_cast
    field_simp
    ring

/-! ### Sums over sequences of keys -/

/-- The sum over the sequences of `n` keys from `a + 1` to `a + N`. -/
def seqSum (a N : Nat) : Nat → (List Nat → ℝ) → ℝ
  | 0, f => f []
  | n + 1, f => ∑ p ∈ range N, seqSum a N n fun l => f ((a + 1 + p) :: l)

theorem seqSum_congr (a N : Nat) : ∀ (n : Nat) {f g : List Nat → ℝ}, (∀ l, f l = g l) → seqSum a N n f = seqSum a N n g
  | 0, _, _, h => h []
  | n + 1, _, _, h => sum_congr rfl fun _ _ => seqSum_congr a N n fun _ => h _

theorem seqSum_sum {ι : Type*} (a N : Nat) (s : Finset ι) : ∀ (n : Nat) (f : ι → List Nat → ℝ),
    (seqSum a N n fun l => ∑ i ∈ s, f i l) = ∑ i ∈ s, seqSum a N n (f i)
  | 0, _ => rfl
  | n + 1, f => by
    simp only [seqSum]
    rw [sum_comm]
    exact sum_congr rfl fun p _ => seqSum_sum a N s n fun i l => f i ((a + 1 + p) :: l)

theorem seqSum_zero (a N : Nat) : ∀ n, (seqSum a N n fun _ => 0) = 0
  | 0 => rfl
  | n + 1 => by simp only [seqSum, seqSum_zero a N n, sum_const_zero]

/-- The keys up to `a + P` and the others can be taken apart. -/
theorem seqSum_split (a P Q : Nat) : ∀ (n : Nat) (f g : List Nat → ℝ),
    (seqSum a (P + Q) n fun l => f (l.filter (· ≤ a + P)) * g (l.filter (a + P < ·))) =
      ∑ p ∈ antidiagonal n, (n.choose p.1 : ℝ) * (seqSum a P p.1 f * seqSum (a + P) Q p.2 g)
  | 0, f, g => by simp [seqSum]
  | n + 1, f, g => by
    rw [seqSum, sum_range_add, sum_antidiagonal_choose_succ_mul (fun i j => seqSum a P i f * seqSum (a + P) Q j g), add_comm]
    congr 1
    · have e : ∀ y ∈ range Q, (seqSum a (P + Q) n fun l => f (((a + 1 + (P + y)) :: l).filter (· ≤ a + P)) * g (((a + 1 + (P + y)) :: l).filter (a + P < ·))) =
          ∑ p ∈ antidiagonal n, (n.choose p.1 : ℝ) * (seqSum a P p.1 f * seqSum (a + P) Q p.2 fun l => g ((a + P + 1 + y) :: l)) := by
        intro y _
        rw [← seqSum_split a P Q n f fun l => g ((a + P + 1 + y) :: l)]
        refine seqSum_congr _ _ _ fun l => ?_
        rw [List.filter_cons_of_neg (by simp; omega), List.filter_cons_of_pos (by simp; omega)]
        congr 3; omega
      rw [sum_congr rfl e, sum_comm]
      refine sum_congr rfl fun p _ => ?_
      rw [seqSum, mul_sum, mul_sum]
    · have e : ∀ y ∈ range P, (seqSum a (P + Q) n fun l => f (((a + 1 + y) :: l).filter (· ≤ a + P)) * g (((a + 1 + y) :: l).filter (a + P < ·))) =
          ∑ p ∈ antidiagonal n, (n.choose p.2 : ℝ) * ((seqSum a P p.1 fun l => f ((a + 1 + y) :: l)) * seqSum (a + P) Q p.2 g) := by
        intro y hy
        have := mem_range.1 hy
        have e := seqSum_split a P Q n (fun l => f ((a + 1 + y) :: l)) g
        have e2 : ∑ p ∈ antidiagonal n, (n.choose p.2 : ℝ) * ((seqSum a P p.1 fun l => f ((a + 1 + y) :: l)) * seqSum (a + P) Q p.2 g) =
            ∑ p ∈ antidiagonal n, (n.choose p.1 : ℝ) * ((seqSum a P p.1 fun l => f ((a + 1 + y) :: l)) * seqSum (a + P) Q p.2 g) := by
          refine sum_congr rfl fun p hp => ?_
          rw [Nat.choose_symm_of_eq_add (mem_antidiagonal.1 hp).symm]
        rw [e2, ← e]
        refine seqSum_congr _ _ _ fun l => ?_
        rw [List.filter_cons_of_pos (by simp; omega), List.filter_cons_of_neg (by simp; omega)]
      rw [sum_congr rfl e, sum_comm]
      refine sum_congr rfl fun p _ => ?_
      rw [seqSum, sum_mul, mul_sum]

/-! ### The numbers of sequences -/

/-- Sequences of `k` keys for which there is room. -/
def countFit (h k a N : Nat) : ℝ := seqSum a N k fun l => if fits h l then 1 else 0

/-- Sequences of `k + 1` keys with room for all but the last, which ends at `q`. -/
def countEnd (h q k a N : Nat) : ℝ :=
  seqSum a N k fun l => ∑ z ∈ range N, if fits h l = true ∧ fits h (l ++ [a + 1 + z]) = false ∧ endPos h l (a + 1 + z) = q then 1 else 0

theorem countFit_succ (h k a M : Nat) : countFit (h + 1) (k + 1) a (M + 1) =
    ∑ p ∈ range (M + 1), ∑ q ∈ antidiagonal k, (k.choose q.1 : ℝ) * (countFit h q.1 a (p + 1) * countFit h q.2 (a + (p + 1)) (M - p)) := by
  rw [countFit, seqSum]
  refine sum_congr rfl fun p hp => ?_
  have hp' := mem_range.1 hp
  have hM : M + 1 = (p + 1) + (M - p) := by omega
  have e := seqSum_split a (p + 1) (M - p) k (fun l => if fits h l then 1 else 0) (fun l => if fits h l then 1 else 0)
  rw [← hM] at e
  refine Eq.trans (seqSum_congr _ _ _ fun l => ?_) e
  have hx : a + 1 + p = a + (p + 1) := by omega
  rw [hx, fits]
  cases fits h (l.filter (· ≤ a + (p + 1))) <;> cases fits h (l.filter (a + (p + 1) < ·)) <;> simp

theorem countEnd_left (h q k a M : Nat) (hq : q < 2 ^ h) : countEnd (h + 1) q (k + 1) a (M + 1) =
    ∑ p ∈ range (M + 1), ∑ r ∈ antidiagonal k, (k.choose r.1 : ℝ) * (countEnd h q r.1 a (p + 1) * countFit h r.2 (a + (p + 1)) (M - p)) := by
  rw [countEnd, seqSum]
  refine sum_congr rfl fun p hp => ?_
  have hp' := mem_range.1 hp
  have hM : M + 1 = (p + 1) + (M - p) := by omega
  have e := seqSum_split a (p + 1) (M - p) k (fun l => ∑ z ∈ range (p + 1), if fits h l = true ∧ fits h (l ++ [a + 1 + z]) = false ∧
    endPos h l (a + 1 + z) = q then 1 else 0) (fun l => if fits h l then 1 else 0)
  rw [← hM] at e
  refine Eq.trans (seqSum_congr _ _ _ fun l => ?_) e
  have hx : a + 1 + p = a + (p + 1) := by omega
  have hsum : ∀ f : Nat → ℝ, ∑ z ∈ range (M + 1), f z = ∑ z ∈ range (p + 1), f z + ∑ z ∈ range (M - p), f (p + 1 + z) := fun f => by
    rw [← sum_range_add, ← hM]
  rw [hx, hsum, sum_mul]
  have h2 : ∑ z ∈ range (M - p), (if fits (h + 1) ((a + (p + 1)) :: l) = true ∧ fits (h + 1) ((a + (p + 1)) :: l ++ [a + 1 + (p + 1 + z)]) = false ∧
      endPos (h + 1) ((a + (p + 1)) :: l) (a + 1 + (p + 1 + z)) = q then (1 : ℝ) else 0) = 0 := by
    refine sum_eq_zero fun z _ => ?_
    rw [if_neg]
    rintro ⟨-, -, g⟩
    rw [endPos, if_neg (by omega)] at g
    omega
  rw [h2, add_zero]
  refine sum_congr rfl fun z hz => ?_
  have hz' := mem_range.1 hz
  have f1 : ((l ++ [a + 1 + z]).filter fun y => decide (y ≤ a + (p + 1))) = (l.filter fun y => decide (y ≤ a + (p + 1))) ++ [a + 1 + z] := by
    rw [List.filter_append, List.filter_cons_of_pos (by simp; omega)]; simp
  have f2 : ((l ++ [a + 1 + z]).filter fun y => decide (a + (p + 1) < y)) = l.filter fun y => decide (a + (p + 1) < y) := by
    rw [List.filter_append, List.filter_cons_of_neg (by simp; omega)]; simp
  have f3 : endPos (h + 1) ((a + (p + 1)) :: l) (a + 1 + z) = endPos h (l.filter fun y => decide (y ≤ a + (p + 1))) (a + 1 + z) := by
    rw [endPos, if_pos (by omega)]
  rw [f3, List.cons_append, fits, fits, f1, f2]
  cases fits h (l.filter (· ≤ a + (p + 1))) <;> cases fits h (l.filter (a + (p + 1) < ·)) <;> simp

theorem countEnd_right (h q k a M : Nat) : countEnd (h + 1) (2 ^ h + q) (k + 1) a (M + 1) =
    ∑ p ∈ range (M + 1), ∑ r ∈ antidiagonal k, (k.choose r.1 : ℝ) * (countFit h r.1 a (p + 1) * countEnd h q r.2 (a + (p + 1)) (M - p)) := by
  rw [countEnd, seqSum]
  refine sum_congr rfl fun p hp => ?_
  have hp' := mem_range.1 hp
  have hM : M + 1 = (p + 1) + (M - p) := by omega
  have e := seqSum_split a (p + 1) (M - p) k (fun l => if fits h l then 1 else 0)
    (fun l => ∑ z ∈ range (M - p), if fits h l = true ∧ fits h (l ++ [a + (p + 1) + 1 + z]) = false ∧
    endPos h l (a + (p + 1) + 1 + z) = q then 1 else 0)
  rw [← hM] at e
  refine Eq.trans (seqSum_congr _ _ _ fun l => ?_) e
  have hx : a + 1 + p = a + (p + 1) := by omega
  have hsum : ∀ f : Nat → ℝ, ∑ z ∈ range (M + 1), f z = ∑ z ∈ range (p + 1), f z + ∑ z ∈ range (M - p), f (p + 1 + z) := fun f => by
    rw [← sum_range_add, ← hM]
  rw [hx, hsum, mul_sum]
  have h2 : ∑ z ∈ range (p + 1), (if fits (h + 1) ((a + (p + 1)) :: l) = true ∧ fits (h + 1) ((a + (p + 1)) :: l ++ [a + 1 + z]) = false ∧
      endPos (h + 1) ((a + (p + 1)) :: l) (a + 1 + z) = 2 ^ h + q then (1 : ℝ) else 0) = 0 := by
    refine sum_eq_zero fun z hz => ?_
    have hz' := mem_range.1 hz
    rw [if_neg]
    rintro ⟨-, -, g⟩
    rw [endPos, if_pos (by omega)] at g
    have := endPos_lt h (l.filter (· ≤ a + (p + 1))) (a + 1 + z)
    omega
  rw [h2, zero_add]
  refine sum_congr rfl fun z hz => ?_
  have f0 : a + 1 + (p + 1 + z) = a + (p + 1) + 1 + z := by omega
  rw [f0]
  have f1 : ((l ++ [a + (p + 1) + 1 + z]).filter fun y => decide (y ≤ a + (p + 1))) = l.filter fun y => decide (y ≤ a + (p + 1)) := by
    rw [List.filter_append, List.filter_cons_of_neg (by simp; omega)]; simp
  have f2 : ((l ++ [a + (p + 1) + 1 + z]).filter fun y => decide (a + (p + 1) < y)) = (l.filter fun y => decide (a + (p + 1) < y)) ++ [a + (p + 1) + 1 + z] := by
    rw [List.filter_append, List.filter_cons_of_pos (by simp; omega)]; simp
  have f3 : endPos (h + 1) ((a + (p + 1)) :: l) (a + (p + 1) + 1 + z) = 2 ^ h + endPos h (l.filter fun y => decide (a + (p + 1) < y)) (a + (p + 1) + 1 + z) := by
    rw [endPos, if_neg (by omega)]
  rw [f3, List.cons_append, fits, fits, f1, f2]
  cases fits h (l.filter (· ≤ a + (p + 1))) <;> cases fits h (l.filter (a + (p + 1) < ·)) <;> simp

end Dh
