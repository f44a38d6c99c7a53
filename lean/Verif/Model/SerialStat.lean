import Mathlib.Analysis.Real.Sqrt
import Verif.Model.Sts
/-
Model of the statistics of libdieharder/sts_serial.c.  Doubles are real numbers; the two functions of the GSL are parameters.
-/
namespace Dh

/-- The loop over `i`, sts_serial.c:281-284. -/
noncomputable def psi2Loop (f : List Nat) : (todo i : Nat) → ℝ → Res ℝ
  | 0, _, s => .ok s
  | todo + 1, i, s => do
    let v ← rd f i
    psi2Loop f todo (i + 1) (s + v * v)

/-- The loops over `m` that fill `freq[m]` and `psi2[m]`, sts_serial.c:209-272 and 280-289, made one loop.  `psi2[0]` is 0 (159). -/
noncomputable def psi2All (ws : List UInt) : (todo m : Nat) → List ℝ → Res (List ℝ)
  | 0, _, psi => .ok psi
  | todo + 1, m, psi => do
    let f ← stsSerial ws m
    let s ← psi2Loop f (2 ^ m) 0 0
    psi2All ws todo (m + 1) (psi ++ [2 ^ m * s / (32 * ws.length : Nat) - (32 * ws.length : Nat)])

/-- The loop over `m`, sts_serial.c:303-325; `out` are the p-values so far. -/
noncomputable def serialPvals (gammaQ : ℝ → ℝ → ℝ) (psi : List ℝ) : (todo m : Nat) → List ℝ → Res (List ℝ)
  | 0, _, out => .ok out
  | todo + 1, m, out => do
    let a ← rd psi m
    let b ← rd psi (m - 1)
    let c ← rd psi (m - 2)
    let delpsi2 := a - b
    let del2psi2 := a - 2 * b + c
    let out := out ++ [gammaQ (2 ^ (m - 2)) (delpsi2 / 2)]
    let out := if m > 2 then out ++ [gammaQ (2 ^ (m - 3)) (del2psi2 / 2)] else out
    serialPvals gammaQ psi todo (m + 1) out

/-- `sts_serial`, sts_serial.c:115-325 with `nb = 16` (115), for the sampled words `ws`: the p-values in the order of the tests
`test[0], test[1], ...`.  `gaussP x sigma` is `gsl_cdf_gaussian_P`, `gammaQ` is `gsl_sf_gamma_inc_Q`; `bsize` is taken as a natural
number. -/
noncomputable def stsSerialTest (gaussP gammaQ : ℝ → ℝ → ℝ) (ws : List UInt) : Res (List ℝ) := do
  let psi ← psi2All ws 16 1 [0]
  let f1 ← stsSerial ws 1
  let z ← rd f1 0
  let bsize : ℝ := (32 * ws.length : Nat)
  let monoMean := 2 * (z : ℝ) - bsize
  let monoSigma := Real.sqrt bsize
  serialPvals gammaQ psi 15 2 [gaussP monoMean monoSigma]

end Dh
