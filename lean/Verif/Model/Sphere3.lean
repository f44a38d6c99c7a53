import Verif.Basic
import Mathlib.Analysis.Real.Sqrt
import Mathlib.Analysis.SpecialFunctions.Exp
/-
Model of diehard_3dsphere.c.  Doubles are real numbers; `u i` is the result of the `i`-th call of `gsl_rng_uniform_pos`.
-/
namespace Dh

open Classical in
/-- The loop over the earlier points, diehard_3dsphere.c:71-86; the first argument is `k + 1`. -/
noncomputable def sphInner (c3 : List (List ℝ)) (j : Nat) : (k1 : Nat) → (rmin r3min : ℝ) → Res (ℝ × ℝ)
  | 0, rmin, r3min => .ok (rmin, r3min)
  | k + 1, rmin, r3min => do
    let pj ← rd c3 j
    let pk ← rd c3 k
    let xj ← rd pj 0
    let xk ← rd pk 0
    let yj ← rd pj 1
    let yk ← rd pk 1
    let zj ← rd pj 2
    let zk ← rd pk 2
    let xdelta := xj - xk
    let ydelta := yj - yk
    let zdelta := zj - zk
    let r2 := xdelta * xdelta + ydelta * ydelta + zdelta * zdelta
    let r1 := Real.sqrt r2
    let r3 := r2 * r1
    if r1 < rmin then sphInner c3 j k r1 r3 else sphInner c3 j k rmin r3min

/-- The loop over the points, diehard_3dsphere.c:58-87; `c3` is the malloced array of `POINTS_3D` points with arbitrary contents. -/
noncomputable def sphOuter (u : ℕ → ℝ) : (todo j : Nat) → (c3 : List (List ℝ)) → (rmin r3min : ℝ) → Res (ℝ × ℝ)
  | 0, _, _, rmin, r3min => .ok (rmin, r3min)
  | todo + 1, j, c3, rmin, r3min => do
    let c3 ← wr c3 j [1000 * u (3 * j), 1000 * u (3 * j + 1), 1000 * u (3 * j + 2)]
    let (rmin, r3min) ← sphInner c3 j j rmin r3min
    sphOuter u todo (j + 1) c3 rmin r3min

/-- `diehard_3dsphere`, diehard_3dsphere.c:32-102: the p-value; `points` is `POINTS_3D` = 4000 (25). -/
noncomputable def diehard3dsphere (u : ℕ → ℝ) (points : Nat) (c3 : List (List ℝ)) : Res ℝ := do
  let (_, r3min) ← sphOuter u points 0 c3 2000 0
  .ok (1 - Real.exp (-r3min / 30))

end Dh
