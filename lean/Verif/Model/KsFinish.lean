import Verif.Model.KsDist
/-
The end of `kstest`, where the largest distance becomes a p-value.
-/
namespace Dh

/-- The approximation of `p_ks_new`, `2.0*exp(-(2.000071+.331/sqrt(n)+1.409/n)*s)`, kstest.c:277. -/
noncomputable def ksEasy (n : Nat) (s : ℝ) : ℝ := 2 * Real.exp (-(2.000071 + 0.331 / Real.sqrt n + 1.409 / n) * s)

/-- kstest.c:111-136: `q_ks` for more than KCOUNTMAX samples unless -k is given, else `p_ks_new`. -/
noncomputable def ksFinish (ksTest count : Nat) (dmax : ℝ) : Res ℝ :=
  if ksTest = 0 ∧ count > 4999 then .ok (ksAsymptotic count dmax) else pKsNew ksEasy ksTest count dmax

end Dh
