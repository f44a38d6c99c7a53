import Mathlib.Data.Real.Sqrt
import Verif.Model.Sts
import Verif.Model.SmallTests
import Verif.Model.Dct
/-
The p-values of sts_monobit, sts_runs and rgb_lagged_sums.  Real arithmetic takes the place of `double`.
-/
namespace Dh

/-- `sts_monobit`, sts_monobit.c:64-123: the statistic, its expectation 0 and the deviation `sqrt(nbits)` (lines 65-67, `nbits` is a
`uint`), given to `Xtest_eval` (line 122). -/
noncomputable def monobitTest (cdf : ℝ → ℝ → ℝ) (r : Nat) (src : Src) (tsamples : Nat) : ℝ :=
  xtestEval cdf (stsMonobit r src tsamples) 0 (Real.sqrt ((r * tsamples % 2 ^ 32 : Nat) : ℝ))

/-- The fraction of ones, sts_runs.c:97. -/
noncomputable def runsPones (r : Nat) (ws : List UInt) (c : RunsC) : ℝ := c.pones / (ws.length * r)

/-- `sts_runs`, sts_runs.c:43-114: the counters and the p-value of `Xtest_eval` (lines 106, 107, 113). -/
noncomputable def stsRunsTest (cdf : ℝ → ℝ → ℝ) (r : Nat) (ws : List UInt) : Res ℝ := do
  let c ← stsRuns r ws
  pure (xtestEval cdf c.x (2 * (r * ws.length : Nat) * runsPones r ws c * (1 - runsPones r ws c))
    (2 * Real.sqrt (r * ws.length : Nat) * runsPones r ws c * (1 - runsPones r ws c)))

/-- `rgb_lagged_sums`, rgb_lagged_sums.c:58-82. -/
noncomputable def laggedTest (cdf : ℝ → ℝ → ℝ) (u : Nat → ℚ) (lag tsamples : Nat) : ℝ :=
  xtestEval cdf ((laggedSums u lag tsamples).1 : ℚ) (tsamples * 0.5) (Real.sqrt (tsamples / 12))

end Dh
