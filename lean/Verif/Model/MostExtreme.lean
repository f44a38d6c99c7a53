import Verif.Basic
import Mathlib.Data.Real.Basic
/-
dab_dct.c: `evalMostExtreme`, which dab_monobit2.c uses.
-/
namespace Dh

/-- `p` after lines 292-295. -/
noncomputable def foldP (p : ℝ) : ℝ := if p > 1 / 2 then 1 - p else p

/-- `cursign` after lines 291-295. -/
noncomputable def foldSign (p : ℝ) : Int := if p > 1 / 2 then 1 else -1

/-- The loop of `evalMostExtreme`, dab_dct.c:290-301. -/
noncomputable def extremeLoop (pvalue : List ℝ) : (todo i : Nat) → (ext : ℝ) → (sign : Int) → Res (ℝ × Int)
  | 0, _, ext, sign => .ok (ext, sign)
  | todo + 1, i, ext, sign => do
    let p ← rd pvalue i
    if foldP p < ext then extremeLoop pvalue todo (i + 1) (foldP p) (foldSign p)
    else extremeLoop pvalue todo (i + 1) ext sign

/-- `evalMostExtreme`, dab_dct.c:285-307; `dab_monobit2` returns its value (dab_monobit2.c:97).  Doubles are reals. -/
noncomputable def evalMostExtreme (pvalue : List ℝ) (num : Nat) : Res ℝ := do
  let (ext, sign) ← extremeLoop pvalue num 0 1 1
  .ok (if sign = 1 then 1 - (1 - ext) ^ num else (1 - ext) ^ num)

end Dh
