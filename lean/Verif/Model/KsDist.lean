import Mathlib.Algebra.Order.Field.Rat
import Verif.Model.MPower
import Mathlib.Analysis.SpecialFunctions.Exp
import Mathlib.Algebra.Order.Floor.Ring
import Mathlib.Analysis.SpecialFunctions.Sqrt
/-
Model of `p_ks_new` and `q_ks`, libdieharder/kstest.c.  Doubles are elements of an ordered field (`p_ks_new`) or reals
(`q_ks`).
-/
namespace Dh

variable {F : Type*} [Field F] [LinearOrder F] [IsStrictOrderedRing F]

/-- The `j` loop of the initialisation, kstest.c:291-297 (the test is on `int`s: `i-j+1<0`). -/
def ksInitJ (m i : Nat) : (todo j : Nat) → List F → Res (List F)
  | 0, _, H => .ok H
  | todo + 1, j, H => do
    let H ← wr H (i * m + j) (if (i : ℤ) - j + 1 < 0 then 0 else 1)
    ksInitJ m i todo (j + 1) H

/-- The initialisation, kstest.c:290-298. -/
def ksInitI (m : Nat) : (todo i : Nat) → List F → Res (List F)
  | 0, _, H => .ok H
  | todo + 1, i, H => do
    let H ← ksInitJ m i m 0 H
    ksInitI m todo (i + 1) H

/-- The border, kstest.c:300-303. -/
def ksBorder (m : Nat) (h : F) : (todo i : Nat) → List F → Res (List F)
  | 0, _, H => .ok H
  | todo + 1, i, H => do
    let a ← rd H (i * m)
    let H ← wr H (i * m) (a - h ^ (i + 1))
    let b ← rd H ((m - 1) * m + i)
    let H ← wr H ((m - 1) * m + i) (b - h ^ (m - i))
    ksBorder m h todo (i + 1) H

/-- `for(g=1;g<=i-j+1;g++) H[i*m+j]/=g;`, kstest.c:309-311; `todo` of the `i-j+1` divisions are left. -/
def ksDivG (p : Nat) : (todo g : Nat) → List F → Res (List F)
  | 0, _, H => .ok H
  | todo + 1, g, H => do
    let a ← rd H p
    let H ← wr H p (a / g)
    ksDivG p todo (g + 1) H

/-- The `j` loop of the divisions, kstest.c:307-313. -/
def ksDivJ (m i : Nat) : (todo j : Nat) → List F → Res (List F)
  | 0, _, H => .ok H
  | todo + 1, j, H => do
    let H ← (if (i : ℤ) - j + 1 > 0 then ksDivG (i * m + j) ((i : ℤ) - j + 1).toNat 1 H else .ok H : Res (List F))
    ksDivJ m i todo (j + 1) H

/-- The divisions, kstest.c:306-314. -/
def ksDivI (m : Nat) : (todo i : Nat) → List F → Res (List F)
  | 0, _, H => .ok H
  | todo + 1, i, H => do
    let H ← ksDivJ m i m 0 H
    ksDivI m todo (i + 1) H

/-- The factor `n!/n^n`, kstest.c:321-329: `s=s*i/n`, rescaled when it gets small. -/
def ksTail (n : Nat) : (todo i : Nat) → (s : F) → (eQ : ℤ) → F × ℤ
  | 0, _, s, eQ => (s, eQ)
  | todo + 1, i, s, eQ =>
    let s := s * i / n
    if s < 1 / 10 ^ 140 then ksTail n todo (i + 1) (s * 10 ^ 140) (eQ - 140) else ksTail n todo (i + 1) s eQ

/-- `p_ks_new`, kstest.c:258-338, for `n ≥ 0`, `d ≥ 0`.  `easy n s` is the approximation returned in line 277.  The message of
line 276 is left out. -/
def pKsNew [FloorRing F] (easy : Nat → F → F) (ksTest : Nat) (n : Nat) (d : F) : Res F :=
  let s := d * d * n
  if ksTest ≠ 2 ∧ (s > 7.24 ∨ (s > 3.76 ∧ n > 99)) then .ok (easy n s) else do
  let k := (⌊n * d⌋).toNat + 1
  let m := 2 * k - 1
  let h := k - n * d
  let H ← ksInitI m m 0 (List.replicate (m * m) 0)
  let H ← ksBorder m h m 0 H
  let a ← rd H ((m - 1) * m)
  let H ← wr H ((m - 1) * m) (a + (if 2 * h - 1 > 0 then (2 * h - 1) ^ m else 0))
  let H ← ksDivI m m 0 H
  let (Q, eQ) ← mPower H 0 m (n + 1) n (List.replicate (m * m) 0) 0
  let s ← rd Q ((k - 1) * m + k - 1)
  let (s, eQ) := ksTail n n 1 s eQ
  .ok (1 - s * 10 ^ eQ)

/-- The loop of `q_ks`, kstest.c:151-157. -/
noncomputable def qKsLoop (kappa : ℝ) : (todo i : Nat) → (sign : ℤ) → (qsum : ℝ) → ℝ
  | 0, _, _, qsum => qsum
  | todo + 1, i, sign, qsum =>
    let sign := sign * -1
    qKsLoop kappa todo (i + 1) sign (qsum + sign * Real.exp (kappa * i * i))

/-- `q_ks`, kstest.c:141-164. -/
noncomputable def qKs (x : ℝ) : ℝ := 2 * qKsLoop (-2 * x * x) 99 1 (-1) 0

/-- The asymptotic branch of `kstest`, kstest.c:111-119 (taken when `ks_test == 0 && count > KCOUNTMAX`). -/
noncomputable def ksAsymptotic (count : Nat) (dmax : ℝ) : ℝ :=
  let csqrt := Real.sqrt count
  qKs ((csqrt + 0.12 + 0.11 / csqrt) * dmax)

end Dh
