import Verif.Model.Parking
import Verif.Model.Dct
/-
The whole of diehard_parking_lot.c.
-/
namespace Dh

/-- `diehard_parking_lot`, diehard_parking_lot.c:75-156: the p-value.  `u i` is the result of the `i`-th call of `gsl_rng_uniform`, two
for each attempt (lines 110-111 and 120-121); `cdf` is as in `xtestEval`. -/
noncomputable def diehardParkingLot (cdf : ℝ → ℝ → ℝ) (u : ℕ → ℚ) : Res ℝ := do
  let (_, k) ← parkingLot fun n => ⟨100 * u (2 * n), 100 * u (2 * n + 1)⟩
  .ok (xtestEval cdf k 3523 21.9)

end Dh
