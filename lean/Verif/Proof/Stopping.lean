import Verif.Proof.IidTrials
import Mathlib.Data.Fin.Tuple.Basic
/-
Trials that consume a variable number of independent draws, one trial after the other.
-/
namespace Dh
open Spec

variable {A : Type*}

/-- The sequence that begins with `ω`. -/
def padSeq (a0 : A) {m : Nat} (ω : Fin m → A) : Nat → A := fun i => if h : i < m then ω ⟨i, h⟩ else a0

/-- The sequence without its first `j` members. -/
def dropSeq (j : Nat) (s : Nat → A) : Nat → A := fun i => s (j + i)

/-- Only the first `m` members of the sequence matter. -/
def FirstOnly {β : Type*} (m : Nat) (F : (Nat → A) → β) : Prop := ∀ s s', (∀ i < m, s i = s' i) → F s = F s'

theorem FirstOnly.mono {β : Type*} {m m' : Nat} {F : (Nat → A) → β} (h : FirstOnly m F) (hm : m ≤ m') : FirstOnly m' F :=
  fun s s' e => h s s' fun i hi => e i (by omega)

theorem mean_first [Fintype A] [Nonempty A] (a0 : A) {m m' : Nat} {F : (Nat → A) → ℝ} (h : FirstOnly m F) (hm : m ≤ m') :
    (mean fun ω : Fin m' → A => F (padSeq a0 ω)) = mean fun ω : Fin m → A => F (padSeq a0 ω) := by
  have e := mean_restrict (A := A) (I := Fin m) (J := Fin m') (Fin.castLE hm) (Fin.castLE_injective hm) (fun ω => F (padSeq a0 ω))
  rw [← e]
  refine mean_congr fun ω => h _ _ fun i hi => ?_
  simp only [padSeq, dif_pos hi, dif_pos (lt_of_lt_of_le hi hm)]
  rfl

theorem mean_split [Fintype A] [Nonempty A] (a0 : A) {j r : Nat} {F G : (Nat → A) → ℝ} (hF : FirstOnly j F) (hG : FirstOnly r G) :
    (mean fun ω : Fin (j + r) → A => F (padSeq a0 ω) * G (dropSeq j (padSeq a0 ω))) =
      (mean fun ω : Fin j → A => F (padSeq a0 ω)) * mean fun ω : Fin r → A => G (padSeq a0 ω) := by
  have e := mean_equiv (Fin.appendEquiv j r) (fun ω : Fin (j + r) → A => F (padSeq a0 ω) * G (dropSeq j (padSeq a0 ω)))
  rw [← e]
  have h1 : ∀ q : (Fin j → A) × (Fin r → A), F (padSeq a0 (Fin.appendEquiv j r q)) = F (padSeq a0 q.1) := by
    intro q
    refine hF _ _ fun i hi => ?_
    simp only [padSeq, dif_pos hi, dif_pos (by omega : i < j + r)]
    exact Fin.append_left q.1 q.2 ⟨i, hi⟩
  have h2 : ∀ q : (Fin j → A) × (Fin r → A), G (dropSeq j (padSeq a0 (Fin.appendEquiv j r q))) = G (padSeq a0 q.2) := by
    intro q
    refine hG _ _ fun i hi => ?_
    simp only [dropSeq, padSeq, dif_pos hi, dif_pos (by omega : j + i < j + r)]
    exact Fin.append_right q.1 q.2 ⟨i, hi⟩
  simp only [h1, h2]
  rw [mean, mean, mean, Fintype.sum_prod_type, Fintype.card_prod, Nat.cast_mul, div_mul_div_comm, Finset.sum_mul_sum]

namespace Spec

/-- A trial with the value `X` that uses `τ` draws, at most `b`, and no others. -/
structure Stops (b : Nat) (τ X : (Nat → A) → Nat) : Prop where
  bound : ∀ s, τ s ≤ b
  adapt : ∀ s s', (∀ i < τ s, s i = s' i) → τ s' = τ s ∧ X s' = X s

/-- The value of the trial number `t`: every trial begins where the one before has ended. -/
def trialAt (τ X : (Nat → A) → Nat) : Nat → (Nat → A) → Nat
  | 0, s => X s
  | t + 1, s => trialAt τ X t (dropSeq (τ s) s)

end Spec

section
variable {b : Nat} {τ X : (Nat → A) → Nat} (h : Stops b τ X)
include h

theorem Spec.Stops.first : FirstOnly b X := fun s s' e => ((h.adapt s s' fun i hi => e i (lt_of_lt_of_le hi (h.bound s))).2).symm

theorem Spec.Stops.trial_first : ∀ t, FirstOnly (b * (t + 1)) (trialAt τ X t)
  | 0 => by simpa [trialAt] using h.first
  | t + 1 => by
    intro s s' e
    have hb := h.bound s
    have ha := h.adapt s s' fun i hi => e i (by nlinarith)
    rw [trialAt, trialAt, ha.1]
    refine Spec.Stops.trial_first t _ _ fun i hi => e _ ?_
    rw [Nat.mul_succ]
    omega

/-- The first trial ends after `j` draws with a property of its value. -/
theorem Spec.Stops.ends_first (j : Nat) (f : Nat → ℝ) : FirstOnly j fun s => if τ s = j then f (X s) else 0 := by
  intro s s' e
  by_cases h1 : τ s = j
  · have := h.adapt s s' (by rw [h1]; exact e)
    simp only [this.1, this.2]
  · by_cases h2 : τ s' = j
    · have := h.adapt s' s (by rw [h2]; exact fun i hi => (e i hi).symm)
      exact absurd (this.1.trans h2) h1
    · simp only [if_neg h1, if_neg h2]

variable [Fintype A] [Nonempty A] (a0 : A)

/-- What follows the first trial is independent of it. -/
theorem Spec.Stops.mean_next {r m : Nat} (f : Nat → ℝ) {G : (Nat → A) → ℝ} (hG : FirstOnly r G) (hm : b + r ≤ m) :
    (mean fun ω : Fin m → A => f (X (padSeq a0 ω)) * G (dropSeq (τ (padSeq a0 ω)) (padSeq a0 ω))) =
      (mean fun ω : Fin b → A => f (X (padSeq a0 ω))) * mean fun ω : Fin r → A => G (padSeq a0 ω) := by
  have e : ∀ s : Nat → A, f (X s) * G (dropSeq (τ s) s) = ∑ j ∈ Finset.range (b + 1), (if τ s = j then f (X s) else 0) * G (dropSeq j s) := by
    intro s
    simp only [ite_mul, zero_mul]
    rw [Finset.sum_ite_eq, if_pos (Finset.mem_range.2 (Nat.lt_succ_of_le (h.bound s)))]
  have e2 : ∀ s : Nat → A, f (X s) = ∑ j ∈ Finset.range (b + 1), if τ s = j then f (X s) else 0 := by
    intro s
    rw [Finset.sum_ite_eq, if_pos (Finset.mem_range.2 (Nat.lt_succ_of_le (h.bound s)))]
  rw [mean_congr fun ω => e _, mean_sum, mean_congr fun ω => e2 _, mean_sum, Finset.sum_mul]
  refine Finset.sum_congr rfl fun j hj => ?_
  have hjb : j ≤ b := Nat.le_of_lt_succ (Finset.mem_range.1 hj)
  have hF := h.ends_first j f
  have hFG : FirstOnly (j + r) fun s : Nat → A => (if τ s = j then f (X s) else 0) * G (dropSeq j s) := by
    intro s s' es
    beta_reduce
    rw [show (if τ s = j then f (X s) else 0) = if τ s' = j then f (X s') else 0 from hF s s' fun i hi => es i (by omega),
      hG (dropSeq j s) (dropSeq j s') fun i hi => es _ (by omega)]
  rw [mean_first a0 hFG (by omega), mean_split a0 hF hG, mean_first a0 hF hjb]

theorem Spec.Stops.mean_one (f : Nat → ℝ) : ∀ (t m : Nat), b * (t + 1) ≤ m →
    (mean fun ω : Fin m → A => f (trialAt τ X t (padSeq a0 ω))) = mean fun ω : Fin b → A => f (X (padSeq a0 ω))
  | 0, m, hm => by
    refine mean_first a0 (F := fun s => f (X s)) ?_ (by simpa using hm)
    intro s s' e
    beta_reduce
    rw [h.first s s' e]
  | t + 1, m, hm => by
    have hG : FirstOnly (b * (t + 1)) fun s => f (trialAt τ X t s) := fun s s' e => by beta_reduce; rw [h.trial_first t s s' e]
    have := h.mean_next a0 (fun _ => 1) hG (m := m) (by rw [Nat.mul_succ] at hm; omega)
    simp only [one_mul] at this
    rw [mean_const, one_mul, Spec.Stops.mean_one f t _ le_rfl] at this
    exact this

theorem Spec.Stops.mean_two (f g : Nat → ℝ) : ∀ (s t m : Nat), s < t → b * (t + 1) ≤ m →
    (mean fun ω : Fin m → A => f (trialAt τ X s (padSeq a0 ω)) * g (trialAt τ X t (padSeq a0 ω))) =
      (mean fun ω : Fin b → A => f (X (padSeq a0 ω))) * mean fun ω : Fin b → A => g (X (padSeq a0 ω))
  | _, 0, _, hst, _ => absurd hst (Nat.not_lt_zero _)
  | 0, t + 1, m, _, hm => by
    have hG : FirstOnly (b * (t + 1)) fun s => g (trialAt τ X t s) := fun s s' e => by beta_reduce; rw [h.trial_first t s s' e]
    have := h.mean_next a0 f hG (m := m) (by rw [Nat.mul_succ] at hm; omega)
    rw [h.mean_one a0 g t _ le_rfl] at this
    exact this
  | s + 1, t + 1, m, hst, hm => by
    have hG : FirstOnly (b * (t + 1)) fun q => f (trialAt τ X s q) * g (trialAt τ X t q) := fun q q' e => by
      beta_reduce
      rw [h.trial_first t q q' e, h.trial_first s q q' fun i hi => e i (lt_of_lt_of_le hi (Nat.mul_le_mul_left b (by omega)))]
    have := h.mean_next a0 (fun _ => 1) hG (m := m) (by rw [Nat.mul_succ] at hm; omega)
    simp only [one_mul] at this
    rw [mean_const, one_mul, Spec.Stops.mean_two f g s t _ (by omega) le_rfl] at this
    exact this

/-- The values of the trials are independent and have the law of the first one. -/
theorem Spec.Stops.trials {K n m : Nat} (hX : ∀ s, X s < K) (hm : b * n ≤ m) :
    PairTrials n K (fun t (ω : Fin m → A) => trialAt τ X t (padSeq a0 ω)) fun c => mean fun ω : Fin b → A => if X (padSeq a0 ω) = c then (1 : ℝ) else 0 := by
  have hr : ∀ t s, trialAt τ X t s < K := by
    intro t
    induction t with
    | zero => exact hX
    | succ t ih => exact fun s => ih _
  have hle : ∀ t < n, b * (t + 1) ≤ m := fun t ht => (Nat.mul_le_mul_left b ht).trans hm
  refine ⟨fun t _ ω => hr t _, fun t ht c _ => h.mean_one a0 (fun x => if x = c then 1 else 0) t m (hle t ht), fun s hs t ht hst c _ d _ => ?_⟩
  have hand : ∀ ω : Fin m → A, (if trialAt τ X s (padSeq a0 ω) = c ∧ trialAt τ X t (padSeq a0 ω) = d then (1 : ℝ) else 0) =
      (if trialAt τ X s (padSeq a0 ω) = c then (1 : ℝ) else 0) * if trialAt τ X t (padSeq a0 ω) = d then (1 : ℝ) else 0 := by
    intro ω
    by_cases h1 : trialAt τ X s (padSeq a0 ω) = c <;> by_cases h2 : trialAt τ X t (padSeq a0 ω) = d <;> simp [h1, h2]
  rw [mean_congr hand]
  rcases Nat.lt_or_gt_of_ne hst with hlt | hgt
  · exact h.mean_two a0 (fun x => if x = c then 1 else 0) (fun x => if x = d then 1 else 0) s t m hlt (hle t ht)
  · have := h.mean_two a0 (fun x => if x = d then 1 else 0) (fun x => if x = c then 1 else 0) t s m hgt (hle s hs)
    rw [mul_comm] at this
    rw [← this]
    exact mean_congr fun ω => mul_comm _ _

end

end Dh
