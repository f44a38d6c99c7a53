import Mathlib.Data.Real.Basic
import Verif.Model.Vtest
/-
The p-value of a `Vtest`.
-/
namespace Dh

/-- The p-value that `Vtest_eval` stores, Vtest.c:212, for the fields it leaves; `gammaQ` is `gsl_sf_gamma_inc_Q`. -/
noncomputable def vtestPvalue (gammaQ : ℝ → ℝ → ℝ) (v : Vtest) : ℝ := gammaQ ((v.ndof : ℝ) / 2) ((v.chisq : ℝ) / 2)

end Dh
