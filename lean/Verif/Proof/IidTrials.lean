import Verif.Props.VtestMean
import Mathlib.Logic.Equiv.Fin.Basic
/-
Independent trials: a function of the coordinates of a uniformly distributed sequence.
-/
namespace Dh
open Spec

theorem mean_two {B : Type*} [Fintype B] (f g : B → ℝ) : (mean fun b : Fin 2 → B => f (b 0) * g (b 1)) = mean f * mean g := by
  have h := mean_equiv (finTwoArrowEquiv B) (fun q : B × B => f q.1 * g q.2)
  have e : (fun b : Fin 2 → B => f (b 0) * g (b 1)) = fun b => (fun q : B × B => f q.1 * g q.2) (finTwoArrowEquiv B b) := rfl
  rw [e, h, mean, mean, mean, Fintype.sum_prod_type, Fintype.card_prod, Nat.cast_mul, div_mul_div_comm, Finset.sum_mul_sum]

theorem mean_coord {B : Type*} [Fintype B] [Nonempty B] {n t : Nat} (ht : t < n) (f : B → ℝ) : (mean fun ω : Fin n → B => f (ω ⟨t, ht⟩)) = mean f := by
  have h := mean_restrict (A := B) (I := Fin 1) (J := Fin n) (fun _ => ⟨t, ht⟩) (fun a b _ => Subsingleton.elim a b) (fun b => f (b 0))
  rw [h]
  exact mean_equiv (Equiv.funUnique (Fin 1) B) f

theorem mean_coord_two {B : Type*} [Fintype B] [Nonempty B] {n s t : Nat} (hs : s < n) (ht : t < n) (hst : s ≠ t) (f g : B → ℝ) :
    (mean fun ω : Fin n → B => f (ω ⟨s, hs⟩) * g (ω ⟨t, ht⟩)) = mean f * mean g := by
  have h := mean_restrict (A := B) (I := Fin 2) (J := Fin n) (fun i => if i = 0 then ⟨s, hs⟩ else ⟨t, ht⟩) (fun a b e => by
      fin_cases a <;> fin_cases b <;> simp_all) (fun b => f (b 0) * g (b 1))
  rw [← mean_two f g, ← h]
  rfl

/-- The trials `f (ω t)` have the law of `f`. -/
theorem iid_trials {B : Type*} [Fintype B] [Nonempty B] (n K : Nat) (f : B → Nat) (hf : ∀ b, f b < K) :
    PairTrials n K (fun t (ω : Fin n → B) => if h : t < n then f (ω ⟨t, h⟩) else 0) fun c => mean fun b => if f b = c then (1 : ℝ) else 0 := by
  refine ⟨fun t ht ω => by simp only [dif_pos ht]; exact hf _, fun t ht c hc => ?_, fun s hs t ht hst c hc d hd => ?_⟩
  · simp only [dif_pos ht]
    exact mean_coord ht fun b => if f b = c then (1 : ℝ) else 0
  · simp only [dif_pos ht, dif_pos hs]
    rw [← mean_coord_two hs ht hst]
    refine mean_congr fun ω => ?_
    by_cases h1 : f (ω ⟨s, hs⟩) = c <;> by_cases h2 : f (ω ⟨t, ht⟩) = d <;> simp [h1, h2]

end Dh
