import Mathlib.Probability.ProductMeasure
import Mathlib.Probability.ProbabilityMassFunction.Constructions
import Mathlib.Probability.Distributions.Uniform
import Verif.Props.Craps
/-
Infinitely many rolls of a fair die, and the games of craps they make.
-/
set_option linter.unusedSimpArgs false
namespace Dh
open MeasureTheory Measure

namespace Spec

/-- A fair die (the faces are numbered from 0). -/
noncomputable def die : Measure (Fin 6) := (PMF.uniformOfFintype (Fin 6)).toMeasure

noncomputable instance : IsProbabilityMeasure die := by unfold die; infer_instance

/-- Infinitely many independent rolls of a fair die. -/
noncomputable def fairRolls : Measure (ℕ → Fin 6) := Measure.infinitePi fun _ => die

noncomputable instance : IsProbabilityMeasure fairRolls := by unfold fairRolls; infer_instance

/-- The values of the rolls, 1 to 6. -/
def faces (ω : ℕ → Fin 6) (i : Nat) : Nat := (ω i).val + 1

end Spec
open Spec

theorem die_singleton (a : Fin 6) : die {a} = 6⁻¹ := by
  rw [die, PMF.toMeasure_apply_singleton _ _ (measurableSet_singleton a), PMF.uniformOfFintype_apply]
  simp

/-- The sequence that begins with `a`. -/
def consRoll (a : Fin 6) (ω : ℕ → Fin 6) : ℕ → Fin 6
  | 0 => a
  | i + 1 => ω i

/-- The sequence without its first `k` terms. -/
def shiftSeq (k : Nat) (ω : ℕ → Fin 6) : ℕ → Fin 6 := fun i => ω (k + i)

theorem measurable_shiftSeq (k : Nat) : Measurable (shiftSeq k) :=
  measurable_pi_iff.2 fun i => measurable_pi_apply (k + i)

theorem measurable_consRoll : Measurable fun q : Fin 6 × (ℕ → Fin 6) => consRoll q.1 q.2 :=
  measurable_pi_iff.2 fun i => by
    cases i with
    | zero => exact measurable_fst
    | succ i => exact (measurable_pi_apply i).comp measurable_snd

theorem map_consRoll : (die.prod fairRolls).map (fun q => consRoll q.1 q.2) = fairRolls := by
  rw [fairRolls]
  refine eq_infinitePi _ fun s t ht => ?_
  rw [Measure.map_apply measurable_consRoll (MeasurableSet.pi s.countable_toSet fun i _ => ht i)]
  have hsub : ∀ i, i ∈ s.preimage Nat.succ Nat.succ_injective.injOn ↔ i + 1 ∈ s := fun i => by simp
  have e : (fun q : Fin 6 × (ℕ → Fin 6) => consRoll q.1 q.2) ⁻¹' Set.pi s t =
      (if 0 ∈ s then t 0 else Set.univ) ×ˢ Set.pi (s.preimage Nat.succ Nat.succ_injective.injOn : Finset ℕ) (fun i => t (i + 1)) := by
    ext ⟨a, ω⟩
    simp only [Set.mem_preimage, Set.mem_pi, Set.mem_prod, Finset.mem_coe, hsub]
    constructor
    · intro h
      refine ⟨?_, fun i hi => h (i + 1) hi⟩
      by_cases h0 : 0 ∈ s
      · rw [if_pos h0]; exact h 0 h0
      · rw [if_neg h0]; trivial
    · rintro ⟨h1, h2⟩ i hi
      cases i with
      | zero => rw [if_pos hi] at h1; exact h1
      | succ i => exact h2 i hi
  rw [e, Measure.prod_prod, infinitePi_pi _ fun i _ => ht _]
  have hs : ∏ i ∈ s, die (t i) = (if 0 ∈ s then die (t 0) else 1) * ∏ i ∈ s.preimage Nat.succ Nat.succ_injective.injOn, die (t (i + 1)) := by
    have hi : ∏ i ∈ s.preimage Nat.succ Nat.succ_injective.injOn, die (t (i + 1)) = ∏ i ∈ s.filter (fun i => i ≠ 0), die (t i) := by
      refine Finset.prod_bij (fun i _ => i + 1) (fun i hi => ?_) (fun i _ j _ h => by omega) (fun i hi => ?_) fun i _ => rfl
      · rw [Finset.mem_filter]; exact ⟨(hsub i).1 hi, by omega⟩
      · obtain ⟨h1, h2⟩ := Finset.mem_filter.1 hi
        exact ⟨i - 1, (hsub _).2 (by rwa [Nat.sub_add_cancel (by omega)]), by omega⟩
    rw [hi, ← Finset.prod_filter_mul_prod_filter_not s (fun i => i = 0)]
    congr 1
    rw [Finset.filter_eq']
    by_cases h0 : 0 ∈ s <;> simp [h0]
  rw [hs]
  congr 1
  by_cases h0 : 0 ∈ s <;> simp [h0]

/-- The first roll. -/
theorem fairRolls_cons {S : Set (ℕ → Fin 6)} (hS : MeasurableSet S) :
    fairRolls S = ∑ a : Fin 6, fairRolls {ω | consRoll a ω ∈ S} * 6⁻¹ := by
  conv_lhs => rw [← map_consRoll, Measure.map_apply measurable_consRoll hS, Measure.prod_apply (measurable_consRoll hS), lintegral_fintype]
  refine Finset.sum_congr rfl fun a _ => ?_
  rw [die_singleton]
  rfl

theorem measurable_consRoll_right (a : Fin 6) : Measurable (consRoll a) :=
  measurable_consRoll.comp (Measurable.prodMk measurable_const measurable_id)

/-! ### Games -/

theorem throwsFrom_congr {d d' : Nat → Nat} {pos pos' n : Nat} (h : ∀ i < 2 * n, d (pos + i) = d' (pos' + i)) :
    throwsFrom d pos n = throwsFrom d' pos' n := by
  rw [throwsFrom, throwsFrom]
  refine List.map_congr_left fun k hk => ?_
  have hk := List.mem_range.1 hk
  rw [h (2 * k) (by omega), Nat.add_assoc, h (2 * k + 1) (by omega), Nat.add_assoc]

theorem faces_shift (ω : ℕ → Fin 6) (k i : Nat) : faces (shiftSeq k ω) i = faces ω (k + i) := rfl

theorem throwsFrom_shift (ω : ℕ → Fin 6) (pos n : Nat) : throwsFrom (faces ω) pos n = throwsFrom (faces (shiftSeq pos ω)) 0 n :=
  throwsFrom_congr fun i _ => by rw [faces_shift, Nat.zero_add]

theorem measurableSet_throws (n : Nat) (f : List Nat → Bool) : MeasurableSet {ω : ℕ → Fin 6 | f (throwsFrom (faces ω) 0 n) = true} := by
  let r : (ℕ → Fin 6) → (Fin (2 * n) → Fin 6) := fun ω i => ω i
  have hr : Measurable r := measurable_pi_iff.2 fun i => measurable_pi_apply _
  let g : (Fin (2 * n) → Fin 6) → Nat → Nat := fun v i => if h : i < 2 * n then (v ⟨i, h⟩).val + 1 else 0
  have e : {ω : ℕ → Fin 6 | f (throwsFrom (faces ω) 0 n) = true} = r ⁻¹' {v | f (throwsFrom (g v) 0 n) = true} := by
    ext ω
    simp only [Set.mem_setOf_eq, Set.mem_preimage]
    rw [throwsFrom_congr (d' := g (r ω)) (pos' := 0)]
    intro i hi
    simp [g, r, faces, hi]
  rw [e]
  exact hr (Set.toFinite _).measurableSet

theorem throwSums_sum (f : Nat → ENNReal) : (throwSums.map f).sum = ∑ a : Fin 6, ∑ b : Fin 6, f ((a.val + 1) + (b.val + 1)) := by
  simp only [Fin.sum_univ_six]
  have : throwSums = [2, 3, 4, 5, 6, 7, 3, 4, 5, 6, 7, 8, 4, 5, 6, 7, 8, 9, 5, 6, 7, 8, 9, 10, 6, 7, 8, 9, 10, 11, 7, 8, 9, 10, 11, 12] := rfl
  rw [this]
  simp only [List.map_cons, List.map_nil, List.sum_cons, List.sum_nil, add_assoc, add_zero]
  rfl

/-- The first `n` throws, and what follows them. -/
theorem fairRolls_throws {A : Set (ℕ → Fin 6)} (hA : MeasurableSet A) : ∀ (n : Nat) (f : List Nat → Bool),
    fairRolls {ω | f (throwsFrom (faces ω) 0 n) = true ∧ shiftSeq (2 * n) ω ∈ A} =
      ((throwSeqs n).countP f : ENNReal) * (6⁻¹ * 6⁻¹) ^ n * fairRolls A
  | 0, f => by
    have h0 : ∀ ω : ℕ → Fin 6, shiftSeq 0 ω = ω := fun ω => by funext i; simp [shiftSeq]
    by_cases h : f [] = true
    · simp [throwsFrom, throwSeqs, h, h0]
    · simp [throwsFrom, throwSeqs, h]
  | n + 1, f => by
    have hm : ∀ (n : Nat) (f : List Nat → Bool), MeasurableSet {ω | f (throwsFrom (faces ω) 0 n) = true ∧ shiftSeq (2 * n) ω ∈ A} :=
      fun n f => (measurableSet_throws n f).inter (measurable_shiftSeq _ hA)
    have hcons : ∀ (a b : Fin 6) (ω : ℕ → Fin 6), (f (throwsFrom (faces (consRoll a (consRoll b ω))) 0 (n + 1)) = true ∧
        shiftSeq (2 * (n + 1)) (consRoll a (consRoll b ω)) ∈ A) ↔
        (f (((a.val + 1) + (b.val + 1)) :: throwsFrom (faces ω) 0 n) = true ∧ shiftSeq (2 * n) ω ∈ A) := by
      intro a b ω
      have e1 : throwsFrom (faces (consRoll a (consRoll b ω))) 0 (n + 1) = ((a.val + 1) + (b.val + 1)) :: throwsFrom (faces ω) 0 n := by
        rw [throwsFrom_succ]
        congr 1
        refine throwsFrom_congr fun i _ => ?_
        rw [show 0 + 2 + i = i + 1 + 1 from by omega, Nat.zero_add]
        rfl
      have e2 : shiftSeq (2 * (n + 1)) (consRoll a (consRoll b ω)) = shiftSeq (2 * n) ω := by
        funext i
        simp only [shiftSeq]
        rw [show 2 * (n + 1) + i = 2 * n + i + 1 + 1 from by omega]
        rfl
      rw [e1, e2]
    rw [fairRolls_cons (hm _ _)]
    have h2 : ∀ a : Fin 6, fairRolls {ω | consRoll a ω ∈ {ω | f (throwsFrom (faces ω) 0 (n + 1)) = true ∧ shiftSeq (2 * (n + 1)) ω ∈ A}} =
        ∑ b : Fin 6, ((throwSeqs n).countP (fun l => f (((a.val + 1) + (b.val + 1)) :: l)) : ENNReal) * (6⁻¹ * 6⁻¹) ^ n * fairRolls A * 6⁻¹ := by
      intro a
      refine (fairRolls_cons (measurable_consRoll_right a (hm (n + 1) f))).trans ?_
      refine Finset.sum_congr rfl fun b _ => ?_
      rw [← fairRolls_throws hA n fun l => f (((a.val + 1) + (b.val + 1)) :: l)]
      congr 2
      ext ω
      exact hcons a b ω
    simp only [h2]
    rw [countP_throwSeqs, Nat.cast_list_sum, List.map_map, throwSums_sum]
    simp only [Finset.sum_mul, Function.comp]
    refine Finset.sum_congr rfl fun a _ => Finset.sum_congr rfl fun b _ => ?_
    ring

end Dh
