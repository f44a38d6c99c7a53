import Verif.Model.Dct
import Mathlib.Analysis.SpecialFunctions.Log.Basic
import Mathlib.Data.Nat.Choose.Basic
/-
Model of the remaining functions of libdieharder/chisq.c (`chisq_pearson` is in Model/Dct).  Doubles are real numbers,
`gammaQ` stands for `gsl_sf_gamma_inc_Q`; the printing is left out.
-/
namespace Dh

/-- `gsl_ran_poisson_pdf`, by its documentation. -/
noncomputable def poissonPdf (k : Nat) (lambda : ℝ) : ℝ := lambda ^ k / k.factorial * Real.exp (-lambda)

/-- `gsl_ran_geometric_pdf`, by its documentation: `p (1-p)^(k-1)` for `k ≥ 1`. -/
noncomputable def geometricPdf (k : Nat) (p : ℝ) : ℝ := if k = 0 then 0 else p * (1 - p) ^ (k - 1)

/-- `gsl_ran_binomial_pdf`, by its documentation. -/
noncomputable def binomialPdf (k : Nat) (p : ℝ) (n : Nat) : ℝ := if n < k then 0 else n.choose k * p ^ k * (1 - p) ^ (n - k)

/-- `for(k = 0;k<kmax;k++) expected[k] = nsamp*...;`, chisq.c:56-58 and 287-289. -/
noncomputable def expectLoop (pdf : Nat → ℝ) (nsamp : Nat) : (todo k : Nat) → List ℝ → Res (List ℝ)
  | 0, _, e => .ok e
  | todo + 1, k, e => do
    let e ← wr e k (nsamp * pdf k)
    expectLoop pdf nsamp todo (k + 1) e

/-- The loop of chisq.c:64-73 and 295-304. -/
noncomputable def poissonLoop (observed : List Nat) (expected : List ℝ) : (todo k : Nat) → (chisq : ℝ) → Res ℝ
  | 0, _, chisq => .ok chisq
  | todo + 1, k, chisq => do
    let o ← rd observed k
    let e ← rd expected k
    poissonLoop observed expected todo (k + 1) (chisq + ((o : ℝ) - e) * ((o : ℝ) - e) / e)

/-- `chisq_poisson`, chisq.c:44-93.  `e0` is the malloced vector. -/
noncomputable def chisqPoisson (gammaQ : ℝ → ℝ → ℝ) (e0 : List ℝ) (observed : List Nat) (lambda : ℝ) (kmax nsamp : Nat) : Res ℝ := do
  let expected ← expectLoop (fun k => poissonPdf k lambda) nsamp kmax 0 e0
  let chisq ← poissonLoop observed expected kmax 0 0
  .ok (gammaQ ((kmax - 1 : ℝ) / 2) (chisq / 2))

/-- `chisq_geometric`, chisq.c:275-323. -/
noncomputable def chisqGeometric (gammaQ : ℝ → ℝ → ℝ) (e0 : List ℝ) (observed : List Nat) (prob : ℝ) (kmax nsamp : Nat) : Res ℝ := do
  let expected ← expectLoop (fun k => geometricPdf (k + 1) prob) nsamp kmax 0 e0
  let chisq ← poissonLoop observed expected kmax 0 0
  .ok (gammaQ ((kmax - 1 : ℝ) / 2) (chisq / 2))

/-- The loop of `chisq_binomial`, chisq.c:165-178; the state is `chisq` and the unsigned `ndof`. -/
noncomputable def binomialLoop (observed : List ℝ) (prob : ℝ) (nmax nsamp : Nat) : (todo n : Nat) → ℝ → UInt → Res (ℝ × UInt)
  | 0, _, chisq, ndof => .ok (chisq, ndof)
  | todo + 1, n, chisq, ndof => do
    let o ← rd observed n
    if o > 10 then
      let expected := nsamp * binomialPdf n prob nmax
      binomialLoop observed prob nmax nsamp todo (n + 1) (chisq + (o - expected) * (o - expected) / expected) (ndof + 1)
    else binomialLoop observed prob nmax nsamp todo (n + 1) chisq ndof

/-- `chisq_binomial`, chisq.c:149-199. -/
noncomputable def chisqBinomial (gammaQ : ℝ → ℝ → ℝ) (observed : List ℝ) (prob : ℝ) (kmax nsamp : Nat) : Res ℝ := do
  let (chisq, ndof) ← binomialLoop observed prob kmax nsamp (kmax + 1) 0 0 0
  let ndof := ndof - 1
  .ok (gammaQ ((ndof.toNat : ℝ) / 2) (chisq / 2))

/-- The loop of `chisq_uint_uniform_gtest`, chisq.c:213-221. -/
noncomputable def gtestLoop (observed : List Nat) (expected : ℝ) : (todo k : Nat) → (chisq : ℝ) → Res ℝ
  | 0, _, chisq => .ok chisq
  | todo + 1, k, chisq => do
    let o ← rd observed k
    if o = 0 then gtestLoop observed expected todo (k + 1) chisq
    else gtestLoop observed expected todo (k + 1) (chisq + 2 * ((o : ℝ) * Real.log ((o : ℝ) / expected)))

/-- `chisq_uint_uniform_gtest`, chisq.c:206-245, for `kmax ≥ 0`.  `kmax * kmax` is computed in `int`, which overflows from 46341 on
(`kmax + 1` overflows later). -/
noncomputable def chisqGtest (gammaQ : ℝ → ℝ → ℝ) (observed : List Nat) (numItems kmax : Nat) : Res ℝ := do
  let expected : ℝ := numItems / kmax
  let chisq ← gtestLoop observed expected kmax 0 0
  if 2 ^ 31 ≤ kmax * kmax then .ub else
  let chisq := chisq / (1 + (kmax + 1 : ℝ) / (6 * numItems) + (kmax * kmax : ℝ) / (6 * numItems * numItems))
  .ok (gammaQ ((kmax - 1 : ℝ) / 2) (|chisq| / 2))

/-- `for (k = 0; k < columns; k++) sum1 += obs[i * columns + k];` and the like (chisq.c:260-261): unsigned sums of `todo`
entries from place `p` on, `step` apart. -/
def sum2d (obs : List UInt) (step : Nat) : (todo p : Nat) → UInt → Res UInt
  | 0, _, s => .ok s
  | todo + 1, p, s => do
    let x ← rd obs p
    sum2d obs step todo (p + step) (s + x)

/-- The loop over `j` of `chisq2d`, chisq.c:257-265. -/
noncomputable def chisq2dJ (obs : List UInt) (rows columns N i : Nat) : (todo j : Nat) → ℝ → Res ℝ
  | 0, _, c => .ok c
  | todo + 1, j, c => do
    let sum1 ← sum2d obs 1 columns (i * columns) 0
    let sum2 ← sum2d obs columns rows j 0
    let expected := (sum1.toNat : ℝ) * sum2.toNat / N
    let x ← rd obs (i * columns + j)
    let top := (x.toNat : ℝ) - expected
    chisq2dJ obs rows columns N i todo (j + 1) (c + top * top / expected)

/-- The loop over `i` of `chisq2d`, chisq.c:256-266. -/
noncomputable def chisq2dI (obs : List UInt) (rows columns N : Nat) : (todo i : Nat) → ℝ → Res ℝ
  | 0, _, c => .ok c
  | todo + 1, i, c => do
    let c ← chisq2dJ obs rows columns N i columns 0 c
    chisq2dI obs rows columns N todo (i + 1) c

/-- `chisq2d`, chisq.c:251-269; the number of degrees of freedom is an unsigned product (`rows`, `columns` below `2^32`). -/
noncomputable def chisq2d (gammaQ : ℝ → ℝ → ℝ) (obs : List UInt) (rows columns N : Nat) : Res ℝ := do
  let ndof : UInt := (BitVec.ofNat 32 rows - 1) * (BitVec.ofNat 32 columns - 1)
  let c ← chisq2dI obs rows columns N rows 0 0
  .ok (gammaQ ((ndof.toNat : ℝ) / 2) (c / 2))

end Dh
