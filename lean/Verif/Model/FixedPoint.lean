import Verif.Model.Report
import Mathlib.Algebra.Order.Floor.Ring
import Mathlib.Data.Rat.Floor
/-
How the p-values are printed: `%10.8f`, output.c:456 and 538.
-/
namespace Dh

/-- The nearest integer, and the even one of two (C's `printf` rounds the exact value of its argument like this). -/
def roundHalfEven (q : ℚ) : ℤ :=
  let f := ⌊q⌋
  if q - f < 1 / 2 then f else if 1 / 2 < q - f then f + 1 else if f % 2 = 0 then f else f + 1

/-- The last `k` decimal digits of a number, with leading zeros. -/
def decDigits : (k n : Nat) → List Char
  | 0, _ => []
  | k + 1, n => decDigits k (n / 10) ++ [Nat.digitChar (n % 10)]

/-- `printf("%.*f",prec,p)` for a rational number. -/
def fmtFixed (prec : Nat) (p : ℚ) : List Char :=
  let n := (roundHalfEven (|p| * 10 ^ prec)).toNat
  (if p < 0 then ['-'] else []) ++ Nat.toDigits 10 (n / 10 ^ prec) ++ '.' :: decDigits prec n

/-- `fprintf(stdout,"%10.8f",test[i]->ks_pvalue)`, output.c:456. -/
def printP (p : ℚ) : List Char := fmtRight 10 (fmtFixed 8 p)

end Dh
