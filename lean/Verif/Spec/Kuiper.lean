import Mathlib.Data.Real.Basic
/-
Kuiper's statistic of a sample on `[0,1)`, from its definition by the empirical distribution function.
-/
namespace Dh.Spec

/-- The empirical distribution function: the proportion of the sample that is at most `x`. -/
noncomputable def edf (xs : List ℝ) (x : ℝ) : ℝ :=
  (xs.countP (fun u => decide (u ≤ x)) : ℝ) / (xs.length : ℝ)

/-- The differences of the empirical process `edf x - x` between two points of `[0,1)`.  Kuiper's statistic,
`sup (edf x - x) + sup (y - edf y)`, is the least upper bound of this set. -/
def kuiperGaps (xs : List ℝ) : Set ℝ :=
  {d | ∃ x y : ℝ, (0 ≤ x ∧ x < 1) ∧ (0 ≤ y ∧ y < 1) ∧ d = (edf xs x - x) + (y - edf xs y)}

end Dh.Spec
