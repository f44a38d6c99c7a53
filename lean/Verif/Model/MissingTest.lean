import Verif.Model.Missing
import Verif.Model.XtestStats
/-
The p-values of the missing-words tests: what `Xtest_eval` makes of the number of missing words.
-/
namespace Dh

/-- `diehard_opso` with its target, diehard_opso.c:74-75 and 140-141. -/
noncomputable def opsoTest (cdf : ℝ → ℝ → ℝ) (src : Src) (tsamples : Nat) : Res ℝ := do
  let x ← opso src tsamples
  pure (xtestEval cdf x 141909.3299550069 290.4622634038)

/-- `diehard_oqso` with its target, diehard_oqso.c:60-61 and 127-128. -/
noncomputable def oqsoTest (cdf : ℝ → ℝ → ℝ) (src : Src) (tsamples : Nat) : Res ℝ := do
  let x ← oqso src tsamples
  pure (xtestEval cdf x 141909.6005321316 294.6558723658)

/-- `diehard_dna` with its target, diehard_dna.c:84-85 and 205-206. -/
noncomputable def dnaTest (cdf : ℝ → ℝ → ℝ) (rmaxBits : Nat) (src : Src) (tsamples : Nat) : Res ℝ := do
  let x ← dna rmaxBits src tsamples
  pure (xtestEval cdf x 141910.4026047629 337.2901506904)

/-- `diehard_bitstream` with its target, diehard_bitstream.c:80-82 and 263-264. -/
noncomputable def bitstreamTest (cdf : ℝ → ℝ → ℝ) (words : Src) (tsamples : Nat) : Res ℝ := do
  let x ← bitstream words tsamples
  pure (xtestEval cdf x 141909 428)

/-- `dab_opso2` with its target, dab_opso2.c:61-77 and 125-130: both p-values. -/
noncomputable def opso2Test (cdf : ℝ → ℝ → ℝ) (rmaxBits : Nat) (src : Src) (tsamples : Nat) : Res (ℝ × ℝ) := do
  let x ← opso2 rmaxBits src tsamples
  match x with
  | none => pure (0.5, 0.5)
  | some (x1, x2) => pure (xtestEval cdf x1 307285.393182468 528.341514924662, xtestEval cdf x2 307285.393182468 528.341514924662)

end Dh
