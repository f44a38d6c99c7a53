import Mathlib.Probability.Independence.InfinitePi
import Mathlib.MeasureTheory.Constructions.Pi
import Mathlib.MeasureTheory.Measure.Lebesgue.Basic
/-
A sequence of independent uniform deviates, all of them in the unit interval: it shows that the hypotheses of the theorems on null
laws can be met.
-/
namespace Dh
open MeasureTheory ProbabilityTheory

/-- Lebesgue measure on the unit interval. -/
noncomputable def unif01 : Measure ℝ := volume.restrict (Set.Icc 0 1)

instance : IsProbabilityMeasure unif01 := ⟨by rw [unif01, Measure.restrict_apply_univ, Real.volume_Icc]; simp⟩

/-- The law of a sequence of independent uniform deviates. -/
noncomputable def unifSeq : Measure (ℕ → ℝ) := Measure.infinitePi fun _ => unif01

instance : IsProbabilityMeasure unifSeq := by unfold unifSeq; infer_instance

/-- The `i`-th deviate. -/
noncomputable def deviate (i : ℕ) (ω : ℕ → ℝ) : ℝ := max 0 (min 1 (ω i))

theorem deviate_meas (i : ℕ) : Measurable (deviate i) := by unfold deviate; fun_prop

theorem deviate_mem (i : ℕ) (ω : ℕ → ℝ) : 0 ≤ deviate i ω ∧ deviate i ω ≤ 1 := ⟨le_max_left _ _, max_le zero_le_one (min_le_left _ _)⟩

theorem deviate_indep : iIndepFun deviate unifSeq :=
  iIndepFun_infinitePi (X := fun _ x => max 0 (min 1 x)) fun _ => by fun_prop

theorem deviate_law (i : ℕ) : unifSeq.map (deviate i) = volume.restrict (Set.Icc 0 1) := by
  have h1 : unifSeq.map (deviate i) = (unifSeq.map fun ω => ω i).map fun x => max 0 (min 1 x) := by
    rw [Measure.map_map (by fun_prop) (by fun_prop)]
    rfl
  have h2 : unifSeq.map (fun ω => ω i) = unif01 := Measure.infinitePi_map_eval (fun _ => unif01) i
  rw [h1, h2]
  have h3 : (fun x : ℝ => max 0 (min 1 x)) =ᵐ[unif01] id := by
    rw [unif01, Filter.EventuallyEq, ae_restrict_iff' measurableSet_Icc]
    refine Filter.Eventually.of_forall fun x hx => ?_
    rw [min_eq_right hx.2, max_eq_right hx.1]
    rfl
  rw [Measure.map_congr h3, Measure.map_id]
  rfl

end Dh
