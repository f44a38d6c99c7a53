import Mathlib.Data.Real.Basic
import Verif.Model.Runs
/-
Model of the end of diehard_runs.c: the quadratic forms and the p-values.  Doubles are real numbers.
-/
namespace Dh

/-- The table `a`, diehard_runs.c:57-64, multiplied by 10. -/
def runsA : List (List Int) :=
  [[45294, 90449, 135680, 180910, 226150, 278920],
   [90449, 180970, 271390, 361870, 452340, 557890],
   [135680, 271390, 407210, 542810, 678520, 836850],
   [180910, 361870, 542810, 724140, 904700, 1115800],
   [226150, 452340, 678520, 904700, 1132620, 1394760],
   [278920, 557890, 836850, 1115800, 1394760, 1728600]]

/-- The table `b`, diehard_runs.c:69-75. -/
noncomputable def runsB : List ℝ := [1 / 6, 5 / 24, 11 / 120, 19 / 720, 29 / 5040, 1 / 840]

/-- The loop over `j`, diehard_runs.c:157-160, for one of `uv` and `dv`; `xi` is the first factor and `row` is `a[i]`. -/
noncomputable def runsRowLoop (counts : List Nat) (tsamples : ℝ) (xi : ℝ) (row : List Int) : (todo j : Nat) → (v : ℝ) → Res ℝ
  | 0, _, v => .ok v
  | todo + 1, j, v => do
    let c ← rd counts j
    let bj ← rd runsB j
    let a ← rd row j
    runsRowLoop counts tsamples xi row todo (j + 1) (v + xi * ((c : ℝ) - tsamples * bj) * ((a : ℝ) / 10))

/-- The loop over `i`, diehard_runs.c:153-161, for one of `uv` and `dv` (the two sums are independent of each other). -/
noncomputable def runsQuadLoop (counts : List Nat) (tsamples : ℝ) : (todo i : Nat) → (v : ℝ) → Res ℝ
  | 0, _, v => .ok v
  | todo + 1, i, v => do
    let c ← rd counts i
    let bi ← rd runsB i
    let row ← rd runsA i
    let v ← runsRowLoop counts tsamples ((c : ℝ) - tsamples * bi) row runMax 0 v
    runsQuadLoop counts tsamples todo (i + 1) v

/-- `diehard_runs`, diehard_runs.c:77-179, as a whole: the p-values of `test[0]` and `test[1]`; `gammaQ` is
`gsl_sf_gamma_inc_Q`. -/
noncomputable def runsTest (gammaQ : ℝ → ℝ → ℝ) (src : Src) (tsamples : Nat) : Res (ℝ × ℝ) := do
  let (up, down) ← runs src tsamples
  let uv ← runsQuadLoop up tsamples runMax 0 0
  let dv ← runsQuadLoop down tsamples runMax 0 0
  let uv := uv / tsamples
  let dv := dv / tsamples
  .ok (gammaQ 3 (uv / 2), gammaQ 3 (dv / 2))

end Dh
