import Verif.Basic
import Mathlib.Analysis.Real.Sqrt
/-
rgb_minimum_distance.c and diehard_2dsphere.c: the search for the minimum distance.  Doubles are real numbers: rounding is not
modelled.
-/
namespace Dh

/-- The loop of `distance`, rgb_minimum_distance.c:58-61. -/
noncomputable def distLoop (a b : List ℝ) : (todo i : Nat) → (distance : ℝ) → Res ℝ
  | 0, _, distance => .ok distance
  | todo + 1, i, distance => do
    let x ← rd a i
    let y ← rd b i
    let delta := x - y
    distLoop a b todo (i + 1) (distance + delta * delta)

/-- `distance`, rgb_minimum_distance.c:54-64, on `dTuple`s (arrays of 5 coordinates, libdieharder.h:310-313). -/
noncomputable def distance (a b : List ℝ) (dim : Nat) : Res ℝ := do
  let d ← distLoop a b dim 0 0
  .ok (Real.sqrt d)

open Classical in
/-- The loop over `j`, rgb_minimum_distance.c:174-181 and diehard_2dsphere.c:146-153. -/
noncomputable def mdInner (points : List (List ℝ)) (dim i : Nat) : (todo j : Nat) → (mindist : ℝ) → Res ℝ
  | 0, _, mindist => .ok mindist
  | todo + 1, j, mindist => do
    let pj ← rd points j
    let pi ← rd points i
    let xj ← rd pj 0
    let xi ← rd pi 0
    if xj - xi > mindist then .ok mindist else do
    let dist ← distance pj pi dim
    mdInner points dim i todo (j + 1) (if dist < mindist then dist else mindist)

/-- The loop over `i`, rgb_minimum_distance.c:165-182 and diehard_2dsphere.c:137-154. -/
noncomputable def mdOuter (points : List (List ℝ)) (dim tsamples : Nat) : (todo i : Nat) → (mindist : ℝ) → Res ℝ
  | 0, _, mindist => .ok mindist
  | todo + 1, i, mindist => do
    let mindist ← mdInner points dim i (tsamples - (i + 1)) (i + 1) mindist
    mdOuter points dim tsamples todo (i + 1) mindist

/-- `mindist` as computed by `rgb_minimum_distance` (cap 1, dimension `ntuple`; 164-182) and `diehard_2dsphere` (cap 10000,
dimension 2; 136-154) from the points after `gsl_heapsort`.  The sorting itself is GSL and is represented by its result. -/
noncomputable def minDist (cap : ℝ) (dim : Nat) (sorted : List (List ℝ)) : Res ℝ :=
  mdOuter sorted dim sorted.length sorted.length 0 cap

open Classical in
/-- `compare_points`, rgb_minimum_distance.c:46-52: the comparison handed to `gsl_heapsort`. -/
noncomputable def comparePoints (a b : List ℝ) : Res Int := do
  let x ← rd a 0
  let y ← rd b 0
  let diff := x - y
  .ok (if diff > 0 then 1 else if diff < 0 then -1 else 0)

end Dh
