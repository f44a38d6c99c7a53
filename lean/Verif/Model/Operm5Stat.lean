import Mathlib.Data.Real.Basic
import Verif.Model.Perms
import Verif.Model.Operm5Table
/-
Model of the end of diehard_operm5.c: the quadratic form and the p-value.  Doubles are real numbers.
-/
namespace Dh

/-- The loop over `j`, diehard_operm5.c:201-203; `xi` is `x[i]` and `row` is `pseudoInv[i]`. -/
noncomputable def op5RowLoop (x : List ℝ) (xi : ℝ) (row : List Int) : (todo j : Nat) → (chisq : ℝ) → Res ℝ
  | 0, _, chisq => .ok chisq
  | todo + 1, j, chisq => do
    let p ← rd row j
    let xj ← rd x j
    op5RowLoop x xi row todo (j + 1) (chisq + xi * ((p : ℝ) / 10 ^ 14) * xj)

/-- The loop over `i`, diehard_operm5.c:200-204. -/
noncomputable def op5QuadLoop (x : List ℝ) : (todo i : Nat) → (chisq : ℝ) → Res ℝ
  | 0, _, chisq => .ok chisq
  | todo + 1, i, chisq => do
    let xi ← rd x i
    let row ← rd op5Table i
    let chisq ← op5RowLoop x xi row 120 0 chisq
    op5QuadLoop x todo (i + 1) chisq

/-- The loop over `i` without overlap, diehard_operm5.c:208-210. -/
noncomputable def op5SquareLoop (x : List ℝ) : (todo i : Nat) → (chisq : ℝ) → Res ℝ
  | 0, _, chisq => .ok chisq
  | todo + 1, i, chisq => do
    let xi ← rd x i
    op5SquareLoop x todo (i + 1) (chisq + xi * xi)

/-- `diehard_operm5`, diehard_operm5.c:124-240, as a whole; `gammaQ` is `gsl_sf_gamma_inc_Q`.  `tcount` is never read. -/
noncomputable def operm5Test (gammaQ : ℝ → ℝ → ℝ) (overlap : Bool) (src : Src) (tsamples : Nat) : Res ℝ := do
  let count ← operm5 overlap src tsamples
  let av : ℝ := (tsamples : ℝ) / 120
  let norm : ℝ := if overlap then tsamples else av
  let x := count.map (fun c : Nat => (c : ℝ) - av)
  let chisq ← (if overlap then op5QuadLoop x 120 0 0 else op5SquareLoop x 120 0 0 : Res ℝ)
  let chisq := |chisq / norm|
  let ndof : ℝ := if overlap then 96 else 119
  .ok (gammaQ (ndof / 2) (chisq / 2))

end Dh
