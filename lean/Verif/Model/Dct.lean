import Verif.Model.UintRand
import Verif.Model.Tally
import Mathlib.Analysis.Real.Sqrt
import Mathlib.Analysis.SpecialFunctions.Trigonometric.Basic
/-
Model of dab_dct.c, of `Xtest_eval` (Xtest.c) and of `chisq_pearson` (chisq.c).  Doubles are real numbers; `M_PI` is π.  Sizes are taken
to be small enough that `5 * len`, `4 * len` and `j * len` do not wrap.
-/
namespace Dh

/-! ### The transforms -/

/-- The loop over `j` of `fDCT2`, dab_dct.c:248-250. -/
noncomputable def dctInner (input : List UInt) (len i : Nat) : (todo j : Nat) → (output : List ℝ) → Res (List ℝ)
  | 0, _, output => .ok output
  | todo + 1, j, output => do
    let o ← rd output i
    let x ← rd input j
    let output ← wr output i (o + (x.toNat : ℝ) * Real.cos ((Real.pi / len) * (0.5 + j) * i))
    dctInner input len i todo (j + 1) output

/-- The loop over `i` of `fDCT2`, dab_dct.c:247-251. -/
noncomputable def dctOuter (input : List UInt) (len : Nat) : (todo i : Nat) → (output : List ℝ) → Res (List ℝ)
  | 0, _, output => .ok output
  | todo + 1, i, output => do
    let output ← dctInner input len i len 0 output
    dctOuter input len todo (i + 1) output

/-- `fDCT2`, dab_dct.c:243-252; `output` has room for `len` values (245). -/
noncomputable def fDCT2 (input : List UInt) (len : Nat) : Res (List ℝ) := dctOuter input len len 0 (List.replicate len 0)

/-- `for (i = 0; i < len; i++) fft_data[2*i + 1] = input[i];`, dab_dct.c:225. -/
noncomputable def fftFill (input : List UInt) : (todo i : Nat) → (fft : List ℝ) → Res (List ℝ)
  | 0, _, fft => .ok fft
  | todo + 1, i, fft => do
    let x ← rd input i
    let fft ← wr fft (2 * i + 1) (x.toNat : ℝ)
    fftFill input todo (i + 1) fft

/-- `for (i = 1; i < 2*len; i++) fft_data[4*len - i] = fft_data[i];`, dab_dct.c:226. -/
noncomputable def fftMirror (len : Nat) : (todo i : Nat) → (fft : List ℝ) → Res (List ℝ)
  | 0, _, fft => .ok fft
  | todo + 1, i, fft => do
    let y ← rd fft i
    let fft ← wr fft (4 * len - i) y
    fftMirror len todo (i + 1) fft

/-- `gsl_fft_real_radix2_transform(data, 1, n)` by its documentation: the discrete Fourier transform
`z_k = Σ_j data_j exp(-2πi jk/n)` in half-complex order, the real parts of `z_k` at `k ≤ n/2` and the imaginary parts of `z_k`
at `n - k` for `0 < k < n/2`.  A length that is not a power of two calls the GSL error handler; dieharder installs none, and the
default handler aborts the program. -/
noncomputable def gslRealFft (data : List ℝ) : Res (List ℝ) :=
  let n := data.length
  if 2 ^ Nat.log2 n = n then
    .ok ((List.range n).map fun k =>
      if k ≤ n / 2 then ∑ j ∈ Finset.range n, data.getD j 0 * Real.cos (2 * Real.pi * j * k / n)
      else -∑ j ∈ Finset.range n, data.getD j 0 * Real.sin (2 * Real.pi * j * (n - k : ℕ) / n))
  else .exit

/-- `for (i = 0; i < len; i++) output[i] = fft_data[i] / 2;`, dab_dct.c:229. -/
noncomputable def fftOut (fft : List ℝ) : (todo i : Nat) → (output : List ℝ) → Res (List ℝ)
  | 0, _, output => .ok output
  | todo + 1, i, output => do
    let y ← rd fft i
    let output ← wr output i (y / 2)
    fftOut fft todo (i + 1) output

/-- `fDCT2_fft`, dab_dct.c:205-233; `output` is the caller's array. -/
noncomputable def fDCT2fft (input : List UInt) (output : List ℝ) (len : Nat) : Res (List ℝ) :=
  if len ≤ 4 then fDCT2 input len else do
  let fft ← fftFill input len 0 (List.replicate (4 * len) 0)
  let fft ← fftMirror len (2 * len - 1) 1 fft
  let fft ← gslRealFft fft
  fftOut fft len 0 output

/-- The inner loop of `iDCT2`, dab_dct.c:270-272. -/
noncomputable def idctSum (input : List ℝ) (len i : Nat) : (todo j : Nat) → (sum : ℝ) → Res ℝ
  | 0, _, sum => .ok sum
  | todo + 1, j, sum => do
    let x ← rd input j
    idctSum input len i todo (j + 1) (sum + x * Real.cos (((Real.pi * j) / len) * (0.5 + i)))

/-- The outer loop of `iDCT2`, dab_dct.c:268-274.  `len / 2` is the integer quotient. -/
noncomputable def idctOuter (input : List ℝ) (len : Nat) : (todo i : Nat) → (output : List ℝ) → Res (List ℝ)
  | 0, _, output => .ok output
  | todo + 1, i, output => do
    let sum ← idctSum input len i len 0 0
    let x0 ← rd input 0
    let output ← wr output i ((sum - (x0 / 2)) / (len / 2 : ℕ))
    idctOuter input len todo (i + 1) output

/-- `iDCT2`, dab_dct.c:265-275. -/
noncomputable def iDCT2 (input output : List ℝ) (len : Nat) : Res (List ℝ) := idctOuter input len len 0 output

/-! ### The test -/

/-- `x << n` on `unsigned int`.  For `n ≥ 32` the language leaves the result undefined; with `masked` the machine uses the count
modulo 32, as x86 does. -/
def shlM (masked : Bool) (x : UInt) (n : Nat) : Res UInt := if masked then .ok (x <<< (n % 32)) else shl x n

/-- `x >> n`, as above. -/
def shrM (masked : Bool) (x : UInt) (n : Nat) : Res UInt := if masked then .ok (x >>> (n % 32)) else shr x n

/-- `RotL(x,N)`, dab_dct.c:39; `rmax_bits-(N)` is computed in `unsigned int`. -/
def rotL (masked : Bool) (rmaxBits : Nat) (rmaxMask : UInt) (x : UInt) (N : Nat) : Res UInt := do
  let a ← shlM masked x N
  let b ← shrM masked x ((rmaxBits + 2 ^ 32 - N) % 2 ^ 32)
  .ok (rmaxMask &&& (a ||| b))

/-- The loop that reads a block, dab_dct.c:142-145. -/
def dctRead (masked : Bool) (rmaxBits : Nat) (rmaxMask : UInt) (src : Src) (rotAmount : Nat) :
    (todo i pos : Nat) → (input : List UInt) → Res (List UInt)
  | 0, _, _, input => .ok input
  | todo + 1, i, pos, input => do
    let input ← wr input i (src pos)
    let x ← rd input i
    let y ← rotL masked rmaxBits rmaxMask x rotAmount
    let input ← wr input i y
    dctRead masked rmaxBits rmaxMask src rotAmount todo (i + 1) (pos + 1) input

open Classical in
/-- The search for the largest value, dab_dct.c:156-161. -/
noncomputable def dctPos (dct : List ℝ) : (todo i pos : Nat) → (max : ℝ) → Res Nat
  | 0, _, pos, _ => .ok pos
  | todo + 1, i, pos, max => do
    let d ← rd dct i
    if max < |d| then dctPos dct todo (i + 1) i |d| else dctPos dct todo (i + 1) pos max

/-- `Xtest_eval`, Xtest.c:19-44; `cdf x sigma` is `gsl_cdf_gaussian_P`. -/
noncomputable def xtestEval (cdf : ℝ → ℝ → ℝ) (x y sigma : ℝ) : ℝ := cdf (y - x) sigma

/-- The loop of the fallback method, dab_dct.c:166-170. -/
noncomputable def dctPvalues (cdf : ℝ → ℝ → ℝ) (dct : List ℝ) (sd : ℝ) (len j : Nat) :
    (todo i : Nat) → (pvalues : List ℝ) → Res (List ℝ)
  | 0, _, pvalues => .ok pvalues
  | todo + 1, i, pvalues => do
    let d ← rd dct i
    let pvalues ← wr pvalues (j * len + i) (xtestEval cdf (d / sd) 0 1)
    dctPvalues cdf dct sd len j todo (i + 1) pvalues

/-- The main loop, dab_dct.c:130-172. -/
noncomputable def dctLoop (cdf : ℝ → ℝ → ℝ) (masked : Bool) (rmaxBits : Nat) (rmaxMask : UInt) (src : Src) (fallback : Bool)
    (len tsamples : Nat) (mean sd : ℝ) : (todo j rotAmount : Nat) → (input : List UInt) → (dct : List ℝ) →
    (counts : List Nat) → (pvalues : List ℝ) → Res (List Nat × List ℝ)
  | 0, _, _, _, _, counts, pvalues => .ok (counts, pvalues)
  | todo + 1, j, rotAmount, input, dct, counts, pvalues => do
    let rotAmount ← (if j ≠ 0 then
      (if tsamples / 4 = 0 then .ub else if j % (tsamples / 4) = 0 then .ok (rotAmount + rmaxBits / 4) else .ok rotAmount)
      else .ok rotAmount : Res Nat)
    let input ← dctRead masked rmaxBits rmaxMask src rotAmount len 0 (j * len) input
    let dct ← fDCT2fft input dct len
    let d0 ← rd dct 0
    let dct ← wr dct 0 ((d0 - mean) / Real.sqrt 2)
    if fallback then do
      let pvalues ← dctPvalues cdf dct sd len j len 0 pvalues
      dctLoop cdf masked rmaxBits rmaxMask src fallback len tsamples mean sd todo (j + 1) rotAmount input dct counts pvalues
    else do
      let pos ← dctPos dct len 0 0 0
      let counts ← bump counts pos
      dctLoop cdf masked rmaxBits rmaxMask src fallback len tsamples mean sd todo (j + 1) rotAmount input dct counts pvalues

/-- The loop of `chisq_pearson`, chisq.c:113-122 (output omitted). -/
noncomputable def pearsonLoop (observed expected : List ℝ) : (todo k : Nat) → (chisq : ℝ) → Res ℝ
  | 0, _, chisq => .ok chisq
  | todo + 1, k, chisq => do
    let o ← rd observed k
    let e ← rd expected k
    pearsonLoop observed expected todo (k + 1) (chisq + (o - e) * (o - e) / e)

/-- `chisq_pearson`, chisq.c:102-140; `gammaQ` is `gsl_sf_gamma_inc_Q`. -/
noncomputable def chisqPearson (gammaQ : ℝ → ℝ → ℝ) (observed expected : List ℝ) (kmax : Nat) : Res ℝ := do
  let chisq ← pearsonLoop observed expected kmax 0 0
  .ok (gammaQ ((kmax - 1 : ℝ) / 2) (chisq / 2))

/-- `dab_dct`, dab_dct.c:81-197: the p-value.  `v = 1<<(rmax_bits-1)` (89) is `2 ^ (rmax_bits - 1)` (for 32 bits by conversion of
`INT_MIN`).  `input0`, `dct0`, `pvalues0` are the contents of the malloced arrays, `kstest` is the function of that name. -/
noncomputable def dabDct (cdf gammaQ : ℝ → ℝ → ℝ) (kstest : List ℝ → ℝ) (masked : Bool) (rmaxBits : Nat) (rmaxMask : UInt)
    (src : Src) (ntuple tsamples : Nat) (input0 : List UInt) (dct0 pvalues0 : List ℝ) : Res ℝ := do
  let len := if ntuple = 0 then 256 else ntuple
  let v : ℝ := 2 ^ (rmaxBits - 1)
  let mean : ℝ := len * (v - 0.5)
  let fallback := if 5 * len < tsamples then false else true
  let sd := Real.sqrt ((1 / 6) * len) * v
  let (counts, pvalues) ← dctLoop cdf masked rmaxBits rmaxMask src fallback len tsamples mean sd tsamples 0 0 input0 dct0
    (List.replicate len 0) pvalues0
  if fallback then .ok (kstest pvalues)
  else chisqPearson gammaQ (counts.map Nat.cast) (List.replicate len ((tsamples : ℝ) / len)) len

end Dh
