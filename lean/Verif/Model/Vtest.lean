import Verif.Basic
import Mathlib.Data.Rat.Defs
import Mathlib.Algebra.Order.Ring.Rat
/-
Model of libdieharder/Vtest.c.  Doubles are rationals.
-/
namespace Dh

/-- The fields of `Vtest` (include/dieharder/Vtest.h:14-22); `pvalue` is a function of the other
results (`gsl_sf_gamma_inc_Q`, line 212) and is left out. -/
structure Vtest where
  nvec : Nat
  ndof : Nat
  cutoff : ℚ
  x : List ℚ
  y : List ℚ
  chisq : ℚ
  deriving DecidableEq

/-- `Vtest_create`, Vtest.c:22-47. -/
def vtestCreate (nvec : Nat) : Vtest :=
  ⟨nvec, 0, 5, List.replicate nvec 0, List.replicate nvec 0, 0⟩

/-- The local variables of `Vtest_eval` and the two vectors it writes. -/
structure VLoc where
  x : List ℚ
  y : List ℚ
  chisq : ℚ
  ndof : Nat
  itail : Option Nat

/-- The loop Vtest.c:112-142.  `itail = none` is the C value `-1`.  A division by an expectation
of zero (possible only with a cutoff `<= 0`) is not modelled: rational division is total. -/
def vtestLoop (cutoff : ℚ) (preset : Nat) : (todo i : Nat) → VLoc → Res VLoc
  | 0, _, s => .ok s
  | todo + 1, i, s => do
    let yi ← rd s.y i
    let xi ← rd s.x i
    if yi ≥ cutoff then
      vtestLoop cutoff preset todo (i + 1)
        { s with chisq := s.chisq + (xi - yi) * (xi - yi) / yi
                 ndof := if preset = 0 then s.ndof + 1 else s.ndof }
    else
      match s.itail with
      | none => vtestLoop cutoff preset todo (i + 1) { s with itail := some i }
      | some t => do
        let yt ← rd s.y t
        let y ← wr s.y t (yt + yi)
        let xt ← rd s.x t
        let x ← wr s.x t (xt + xi)
        vtestLoop cutoff preset todo (i + 1) { s with x := x, y := y }

/-- `Vtest_eval`, Vtest.c:57-219 without the p-value (line 212).  `ndof` is `unsigned int`. -/
def vtestEval (v : Vtest) : Res Vtest := do
  let s ← vtestLoop v.cutoff v.ndof v.nvec 0 ⟨v.x, v.y, 0, 0, none⟩
  let (chisq, ndof) ← (match s.itail with
    | none => .ok (s.chisq, s.ndof)
    | some t => do
      let yt ← rd s.y t
      let xt ← rd s.x t
      if yt ≥ v.cutoff then
        .ok (s.chisq + (xt - yt) * (xt - yt) / yt, if v.ndof = 0 then s.ndof + 1 else s.ndof)
      else .ok (s.chisq, s.ndof) : Res (ℚ × Nat))
  .ok { v with x := s.x, y := s.y, chisq := chisq,
               ndof := if v.ndof = 0 then (ndof + 2 ^ 32 - 1) % 2 ^ 32 else v.ndof }

end Dh
