import Verif.Model.WordTests
import Verif.Model.Chisq
import Verif.Model.MostExtreme
/-
dab_monobit2.c as a whole: the choice of the levels, the table (Model/WordTests.lean), the p-values and the value returned.
-/
namespace Dh

/-- The search for the number of levels, dab_monobit2.c:39-44 (`todo` is `BLOCK_MAX - j`). -/
noncomputable def monobit2Levels (blens tsamples : Nat) : (todo j : Nat) → Nat
  | 0, j => j
  | todo + 1, j =>
    let nmax := blens * 2 ^ (j + 1)
    let nsamp := tsamples / 2 ^ (j + 1)
    if nsamp * binomialPdf (nmax / 2) (1 / 2) nmax < 20 then j else monobit2Levels blens tsamples todo (j + 1)

/-- The loop over the levels, dab_monobit2.c:88-92; the array `pvalues` of 16 doubles is the list of the values stored. -/
noncomputable def monobit2Pvalues (gammaQ : ℝ → ℝ → ℝ) (blens tsamples : Nat) (counts : List Nat) : (todo j : Nat) → Res (List ℝ)
  | 0, _ => .ok []
  | todo + 1, j => do
    let p ← chisqBinomial gammaQ ((counts.drop (blens * (2 ^ (j + 1) - 1))).map fun c : Nat => (c : ℝ)) (1 / 2) (blens * 2 ^ (j + 1)) (tsamples / 2 ^ (j + 1))
    let ps ← monobit2Pvalues gammaQ blens tsamples counts todo (j + 1)
    .ok (p :: ps)

/-- `dab_monobit2`, dab_monobit2.c:26-103: the p-value and the number of levels, which is stored in `test[0]->ntuple`. -/
noncomputable def dabMonobit2 (gammaQ : ℝ → ℝ → ℝ) (blens ntuple : Nat) (src : Src) (tsamples : Nat) : Res (ℝ × Nat) := do
  let ntup ← (if ntuple = 0 then .ok (monobit2Levels blens tsamples 16 0) else if 16 ≤ ntuple then .exit else .ok ntuple : Res Nat)
  let counts ← monobit2 blens ntup src tsamples
  let ps ← monobit2Pvalues gammaQ blens tsamples counts ntup 0
  let p ← evalMostExtreme ps ntup
  .ok (p, ntup)

end Dh
