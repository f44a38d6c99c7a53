import Mathlib.Analysis.SpecialFunctions.Trigonometric.Basic
import Mathlib.Topology.Algebra.InfiniteSum.Defs
/-
Kuiper's limit distribution.
-/
namespace Dh
namespace Spec
noncomputable section

/-- The probability of more than `x` under Kuiper's limit distribution, in the form that converges fast for small `x`
(the form after Jacobi's transformation; the code sums the other one). -/
def kuiperSf (x : ℝ) : ℝ := 1 - Real.sqrt (2 * Real.pi) * ∑' m : ℕ,
  Real.pi ^ 2 * ((m : ℝ) + 1) ^ 2 / x ^ 3 * Real.exp (-(Real.pi ^ 2 * ((m : ℝ) + 1) ^ 2 / (2 * x ^ 2)))

end
end Spec
end Dh
