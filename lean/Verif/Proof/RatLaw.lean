import Mathlib.MeasureTheory.Integral.Bochner.Basic
import Mathlib.MeasureTheory.Integral.Bochner.Set
import Mathlib.Data.Fintype.BigOperators
import Verif.Proof.IidTrials
/-
Means over independent trials with rational probabilities, as means over equally likely outcomes.
-/
set_option linter.unusedSimpArgs false
namespace Dh
open MeasureTheory Spec

theorem mean_pi {B : Type*} [Fintype B] {n : Nat} (f : Fin n → B → ℝ) : (mean fun u : Fin n → B => ∏ t, f t (u t)) = ∏ t, mean (f t) := by
  classical
  simp only [mean]
  rw [Finset.prod_div_distrib, ← Fintype.piFinset_univ, ← Finset.prod_univ_sum, Fintype.card_fun, Finset.prod_const, Finset.card_univ, Fintype.card_fin]
  push_cast
  rfl

/-- Rational probabilities come from equally likely outcomes. -/
theorem exists_uniform {K : Nat} (q : Fin K → ℚ) (h0 : ∀ e, 0 ≤ q e) (h1 : ∑ e, q e = 1) :
    ∃ (D : Nat) (_ : 0 < D) (Y : Fin D → Fin K), ∀ e, (mean fun b => if Y b = e then (1 : ℝ) else 0) = q e := by
  classical
  let D := ∏ e, (q e).den
  have hD : 0 < D := Finset.prod_pos fun e _ => (q e).den_pos
  have hD0 : (D : ℚ) ≠ 0 := by exact_mod_cast hD.ne'
  have ha : ∀ e, ∃ a : Nat, q e * D = a := by
    intro e
    obtain ⟨k, hk⟩ : (q e).den ∣ D := Finset.dvd_prod_of_mem _ (Finset.mem_univ e)
    refine ⟨(q e).num.toNat * k, ?_⟩
    have hn : (((q e).num.toNat : ℕ) : ℚ) = (q e).num := by
      have := Int.toNat_of_nonneg (Rat.num_nonneg.2 (h0 e))
      exact_mod_cast this
    rw [hk]
    push_cast
    rw [hn, ← mul_assoc, Rat.mul_den_eq_num]
  choose a ha using ha
  have hs : ∑ e, a e = D := by
    have : ((∑ e, a e : ℕ) : ℚ) = D := by
      push_cast
      rw [← Finset.sum_congr rfl fun e _ => ha e, ← Finset.sum_mul, h1, one_mul]
    exact_mod_cast this
  have hc : Fintype.card (Σ e : Fin K, Fin (a e)) = D := by
    rw [Fintype.card_sigma]
    simpa using hs
  let φ := (Fintype.equivFinOfCardEq hc).symm
  refine ⟨D, hD, fun b => (φ b).1, fun e => ?_⟩
  rw [mean_equiv φ fun x : (Σ e : Fin K, Fin (a e)) => if x.1 = e then (1 : ℝ) else 0, mean, hc]
  rw [Fintype.sum_sigma]
  have hin : ∀ x : Fin K, (∑ _y : Fin (a x), if x = e then (1 : ℝ) else 0) = if x = e then (a x : ℝ) else 0 := by
    intro x
    split <;> simp
  refine (congrArg (· / (D : ℝ)) (Finset.sum_congr rfl fun x _ => hin x)).trans ?_
  rw [Finset.sum_ite_eq' Finset.univ e, if_pos (Finset.mem_univ e), ← Rat.cast_natCast, ← ha e]
  push_cast
  rw [mul_div_assoc, div_self (by exact_mod_cast hD.ne'), mul_one]

/-- The integral of a function of independent trials is a mean over equally likely outcomes. -/
theorem integral_trials {Ω : Type*} [MeasurableSpace Ω] (P : Measure Ω) [IsProbabilityMeasure P] {n K : Nat} (q : Fin K → ℚ) (h0 : ∀ e, 0 ≤ q e)
    (Z : Ω → Fin n → Fin K) (hZ : Measurable Z) (hP : ∀ e : Fin n → Fin K, P (Z ⁻¹' {e}) = ∏ t, ENNReal.ofReal (q (e t)))
    {B : Type*} [Fintype B] (Y : B → Fin K) (hY : ∀ e, (mean fun b => if Y b = e then (1 : ℝ) else 0) = q e) (Φ : (Fin n → Fin K) → ℝ) :
    ∫ ω, Φ (Z ω) ∂P = mean fun u : Fin n → B => Φ fun t => Y (u t) := by
  classical
  have h2 : (mean fun u : Fin n → B => Φ fun t => Y (u t)) = ∑ e : Fin n → Fin K, Φ e * ∏ t, (q (e t) : ℝ) := by
    have : ∀ u : Fin n → B, (Φ fun t => Y (u t)) = ∑ e : Fin n → Fin K, Φ e * ∏ t, if Y (u t) = e t then (1 : ℝ) else 0 := by
      intro u
      rw [Finset.sum_eq_single fun t => Y (u t)]
      · simp
      · intro e _ hne
        obtain ⟨t, ht⟩ := Function.ne_iff.1 hne
        rw [Finset.prod_eq_zero (Finset.mem_univ t) (if_neg fun h => ht h.symm), mul_zero]
      · intro h; exact absurd (Finset.mem_univ _) h
    rw [mean_congr this, mean_sum]
    refine Finset.sum_congr rfl fun e _ => ?_
    rw [mean_mul_left, mean_pi fun t b => if Y b = e t then (1 : ℝ) else 0]
    simp only [hY]
  rw [h2, ← integral_map (f := Φ) hZ.aemeasurable (measurable_of_finite Φ).aestronglyMeasurable, integral_fintype]
  · refine Finset.sum_congr rfl fun e _ => ?_
    rw [Measure.real, Measure.map_apply hZ (measurableSet_singleton e), hP, ENNReal.toReal_prod, smul_eq_mul, mul_comm]
    congr 1
    refine Finset.prod_congr rfl fun t _ => ?_
    rw [ENNReal.toReal_ofReal]
    exact_mod_cast h0 (e t)
  · haveI := Measure.isProbabilityMeasure_map (μ := P) hZ.aemeasurable
    exact Integrable.of_finite

end Dh
