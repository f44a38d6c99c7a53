import Verif.Model.Craps
import Verif.Model.Vtest
import Verif.Model.Dct
/-
The two statistics of libdieharder/diehard_craps.c.  Doubles are rational numbers, and real numbers where there is a square root.
-/
namespace Dh

/-- The expectation of class `i`, diehard_craps.c:78-79. -/
def crapsTerm (i : Nat) : ℚ :=
  (27 * (27 / 36) ^ (i - 1) + 40 * (13 / 18) ^ (i - 1) + 55 * (25 / 36) ^ (i - 1)) / 648

/-- The loop over `i`, diehard_craps.c:77-81. -/
def crapsTerms : (todo i : Nat) → (sum : ℚ) → (y : List ℚ) → Res (ℚ × List ℚ)
  | 0, _, sum, y => .ok (sum, y)
  | todo + 1, i, sum, y => do
    let y ← wr y i (crapsTerm i)
    let t ← rd y i
    crapsTerms todo (i + 1) (sum + t) y

/-- The loop over `i`, diehard_craps.c:86-88. -/
def crapsScale (tsamples : Nat) : (todo i : Nat) → (y : List ℚ) → Res (List ℚ)
  | 0, _, y => .ok y
  | todo + 1, i, y => do
    let t ← rd y i
    let y ← wr y i (t * (tsamples : ℚ))
    crapsScale tsamples todo (i + 1) y

/-- `vtest.y`, diehard_craps.c:73-88. -/
def crapsExpected (tsamples : Nat) : Res (List ℚ) := do
  let y ← wr (vtestCreate 21).y 0 (1 / 3)
  let (sum, y) ← crapsTerms 19 1 (1 / 3) y
  let y ← wr y 20 (1 - sum)
  crapsScale tsamples 21 0 y

/-- `diehard_craps`, diehard_craps.c:35-163, on the values `d` of `roll()`: the p-value of the number of wins (65-67, 148-149, with
`Xtest_eval`; `cdf` stands for `gsl_cdf_gaussian_P`), and `vtest` after `Vtest_eval` (150). -/
noncomputable def crapsTest (cdf : ℝ → ℝ → ℝ) (d : Nat → Nat) (fuel tsamples : Nat) : Res (ℝ × Vtest) := do
  let y ← crapsExpected tsamples
  let (wins, x) ← craps d fuel tsamples
  let pvalue := xtestEval cdf wins (tsamples * crapsP) (Real.sqrt (tsamples * crapsP * (1 - crapsP)))
  let v ← vtestEval { vtestCreate 21 with
    cutoff := 5
    x := x.map (Nat.cast : Nat → ℚ)
    y := y }
  .ok (pvalue, v)

end Dh
