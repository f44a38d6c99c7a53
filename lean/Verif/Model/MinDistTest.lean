import Verif.Model.MinDist
import Mathlib.Analysis.Real.Pi.Bounds
import Mathlib.Data.Nat.Factorial.DoubleFactorial
/-
The whole of `diehard_2dsphere` and `rgb_minimum_distance`.  Doubles are real numbers; `u i` is the result of the `i`-th call of
`gsl_rng_uniform_pos`.  `mem` is the contents of the malloced array of `tsamples` points, each of 5 coordinates.  `gsl_heapsort` is
the function `sort`.
-/
namespace Dh

/-- The loop over `d`, diehard_2dsphere.c:96-97 and rgb_minimum_distance.c:122-123: `x` is the next value to be drawn. -/
noncomputable def mdCoords (u : ℕ → ℝ) (scale : ℝ) : (todo d x : Nat) → (c : List ℝ) → Res (List ℝ)
  | 0, _, _, c => .ok c
  | todo + 1, d, x, c => do
    let c ← wr c d (u x * scale)
    mdCoords u scale todo (d + 1) (x + 1) c

/-- The loop over `t`, diehard_2dsphere.c:88-107 and rgb_minimum_distance.c:113-133. -/
noncomputable def mdPoints (u : ℕ → ℝ) (scale : ℝ) (dim : Nat) : (todo t x : Nat) → (points : List (List ℝ)) → Res (List (List ℝ))
  | 0, _, _, points => .ok points
  | todo + 1, t, x, points => do
    let c ← rd points t
    let c ← mdCoords u scale dim 0 x c
    let points ← wr points t c
    mdPoints u scale dim todo (t + 1) (x + dim) points

/-- `diehard_2dsphere`, diehard_2dsphere.c:55-180: the p-value. -/
noncomputable def diehard2dsphere (u : ℕ → ℝ) (sort : List (List ℝ) → List (List ℝ)) (mem : List (List ℝ)) : Res ℝ := do
  let points ← mdPoints u 10000 2 mem.length 0 0 mem
  let mindist ← minDist 10000 2 (sort points)
  .ok (1 - Real.exp (-mindist * mindist / 0.995))

/-- `rgb_md_Q`, rgb_minimum_distance.c:44. -/
noncomputable def rgbMdQ : List ℝ := [0, 0, 0.4135, 0.5312, 0.6202, 1.3789]

/-- `dvolume`, rgb_minimum_distance.c:196-200; `gsl_sf_fact` and `gsl_sf_doublefact` are the factorial and the double factorial, and
`pow` with a whole exponent is the power. -/
noncomputable def mdVolume (dim : Nat) (mindist : ℝ) : ℝ :=
  if dim % 2 = 0 then Real.pi ^ (dim / 2) * mindist ^ dim / (dim / 2).factorial
  else 2 * (2 * Real.pi) ^ ((dim - 1) / 2) * mindist ^ dim / dim.doubleFactorial

/-- `rgb_minimum_distance`, rgb_minimum_distance.c:66-222: the p-value; `dim` is `ntuple`. -/
noncomputable def rgbMinimumDistance (u : ℕ → ℝ) (sort : List (List ℝ) → List (List ℝ)) (dim : Nat) (mem : List (List ℝ)) : Res ℝ := do
  let tsamples := mem.length
  let points ← mdPoints u 1 dim tsamples 0 0 mem
  let mindist ← minDist 1 dim (sort points)
  let dvolume := mdVolume dim mindist
  let earg := -1 * tsamples * (tsamples - 1) * dvolume / 2
  let q ← rd rgbMdQ dim
  let qarg := 1 + ((2 + q) / 6) * (1 * tsamples : ℝ) ^ 3 * dvolume * dvolume
  .ok (1 - Real.exp earg * qarg)

end Dh
