import Mathlib.Analysis.Real.Sqrt
import Verif.Model.Count1s
import Verif.Model.Vtest
/-
Model of the end of diehard_count_1s_stream.c and diehard_count_1s_byte.c: the two chi-square statistics and the p-value of their
difference.
-/
namespace Dh

/-- The vector of expectations, the loops over `i` of diehard_count_1s_stream.c:206-230 and 234-255 (the same loops are at
diehard_count_1s_byte.c:204-255). -/
def c1sExpVec (digits tsamples : Nat) : (todo i : Nat) → (y : List ℚ) → Res (List ℚ)
  | 0, _, y => .ok y
  | todo + 1, i, y => do
    let e ← c1sExpected digits tsamples i
    c1sExpVec digits tsamples todo (i + 1) (y ++ [e])

/-- `vtest4` (`digits = 4`) or `vtest5` (`digits = 5`): `Vtest_create` (204, 232; the cutoff stays 5), the expectations, the counts
`x`, and `Vtest_eval` (401-402).  The value is `chisq`. -/
def c1sChisq (digits tsamples : Nat) (x : List Nat) : Res ℚ := do
  let y ← c1sExpVec digits tsamples (5 ^ digits) 0 []
  let v ← vtestEval { vtestCreate (5 ^ digits) with x := x.map (fun c : Nat => (c : ℚ)), y := y }
  pure v.chisq

/-- `ptest.x = vtest5.chisq - vtest4.chisq; Xtest_eval(&ptest)` with `ptest.y = 2500`, `ptest.sigma = sqrt(5000)`:
diehard_count_1s_stream.c:201-202 and 406-409, diehard_count_1s_byte.c:201-202 and 313-316, Xtest.c:36-37.  `gaussP` stands for
`gsl_cdf_gaussian_P`. -/
noncomputable def c1sPvalue (gaussP : ℝ → ℝ → ℝ) (tsamples : Nat) (f : C1sTab) : Res ℝ := do
  let chisq4 ← c1sChisq 4 tsamples f.x4
  let chisq5 ← c1sChisq 5 tsamples f.x5
  pure (gaussP (2500 - ((chisq5 : ℝ) - (chisq4 : ℝ))) (Real.sqrt 5000))

/-- `diehard_count_1s_stream` as a whole. -/
noncomputable def c1sStreamTest (gaussP : ℝ → ℝ → ℝ) (w : Src) (tsamples : Nat) : Res ℝ := do
  let f ← c1sStream w tsamples
  c1sPvalue gaussP tsamples f

/-- `diehard_count_1s_byte` as a whole. -/
noncomputable def c1sByteTest (gaussP : ℝ → ℝ → ℝ) (w : Src) (tsamples : Nat) : Res ℝ := do
  let f ← c1sByte w tsamples
  c1sPvalue gaussP tsamples f

end Dh
