import Verif.Model.WordTests
import Verif.Model.Vtest
/-
dab_bytedistrib.c: the statistic.
-/
namespace Dh

/-- `dab_bytedistrib` up to the p-value, dab_bytedistrib.c:33-92: what `Vtest_eval` returns for the table of `bytedistrib`.  The degrees of
freedom are set in line 79 and kept by `Vtest_eval`. -/
def byteStat (rmaxBits : Nat) (src : Src) (tsamples : Nat) : Res Vtest := do
  let counts ← bytedistrib rmaxBits src tsamples
  vtestEval { vtestCreate 2304 with ndof := 255 * 9, x := counts.map (Nat.cast : Nat → ℚ), y := List.replicate 2304 ((tsamples : ℚ) / 256) }

end Dh
