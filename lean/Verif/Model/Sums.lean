import Verif.Basic
import Mathlib.Analysis.Real.Sqrt
/-
Model of diehard_sums.c:51-281.  Doubles are real numbers.  `u i` is the result of the `i`-th call of `gsl_rng_uniform`; `cdf` is
`gsl_cdf_gaussian_P(.,1.0)`.  `m = test[0]->tsamples` (134) is taken to be a non-negative `int`.
-/
namespace Dh

/-- The first loop, diehard_sums.c:179-185: `rand_list[t] = gsl_rng_uniform(rng); y[0] += rand_list[t];`. -/
noncomputable def sumsDraw (u : ℕ → ℝ) : (todo t : Nat) → (rl y : List ℝ) → Res (List ℝ × List ℝ)
  | 0, _, rl, y => .ok (rl, y)
  | todo + 1, t, rl, y => do
    let rl ← wr rl t (u t)
    let y0 ← rd y 0
    let r ← rd rl t
    let y ← wr y 0 (y0 + r)
    sumsDraw u todo (t + 1) rl y

/-- The second loop, diehard_sums.c:192-209; the draws continue after the first `m`. -/
noncomputable def sumsSlide (u : ℕ → ℝ) (m : Nat) (mean std : ℝ) (rl : List ℝ) :
    (todo t : Nat) → (y : List ℝ) → Res (List ℝ)
  | 0, _, y => .ok y
  | todo + 1, t, y => do
    let newrand := u (m + (t - 1))
    let yp ← rd y (t - 1)
    let r ← rd rl (t - 1)
    let y ← wr y t (yp - r + newrand)
    let yp ← rd y (t - 1)
    let y ← wr y (t - 1) ((yp - mean) * std)
    sumsSlide u m mean std rl todo (t + 1) y

/-- The third loop, diehard_sums.c:233-255. -/
noncomputable def sumsTransform (cdf : ℝ → ℝ) (m : Nat) (y : List ℝ) : (todo t : Nat) → (x : List ℝ) → Res (List ℝ)
  | 0, _, x => .ok x
  | todo + 1, t, x => do
    let a : ℝ := 2 * m + 1 - t
    let b : ℝ := 2 * a - 2
    let y2 ← rd y (t - 2)
    let y1 ← rd y (t - 1)
    let y0 ← rd y t
    let x ← wr x t (y2 / Real.sqrt (a * b) - y1 * Real.sqrt ((a - 1) / (b + 2)) + y0 * Real.sqrt (a / b))
    let xt ← rd x t
    let x ← wr x t (cdf xt)
    sumsTransform cdf m y todo (t + 1) x

/-- `diehard_sums`, diehard_sums.c:51-281 up to the call `kstest(x,m)` (269): the vector `x`.  `x0` and `rl0` are the indeterminate
contents of the malloced `x` and `rand_list` (167-168). -/
noncomputable def diehardSums (cdf : ℝ → ℝ) (u : ℕ → ℝ) (m : Nat) (x0 rl0 : List ℝ) : Res (List ℝ) := do
  let mean : ℝ := 0.5 * m
  let std : ℝ := Real.sqrt 12
  let (rl, y) ← sumsDraw u m 0 rl0 (List.replicate m 0)
  let y ← sumsSlide u m mean std rl (m - 1) 1 y
  let yl ← (if m = 0 then .ub else rd y (m - 1) : Res ℝ)
  let y ← wr y (m - 1) ((yl - mean) * std)
  let y0 ← rd y 0
  let x ← wr x0 0 (y0 / Real.sqrt (1 * m))
  let x0 ← rd x 0
  let y1 ← rd y 1
  let x ← wr x 1 (-x0 * (m - 1 : ℝ) / Real.sqrt (2 * m - 1) + y1 * Real.sqrt (m / (2 * m - 1)))
  let x0 ← rd x 0
  let x ← wr x 0 (cdf x0)
  let x1 ← rd x 1
  let x ← wr x 1 (cdf x1)
  sumsTransform cdf m y (m - 2) 2 x

end Dh
