import Verif.Basic
import Mathlib.Algebra.Order.Field.Basic
import Mathlib.Data.List.Sort
/-
Model of `kstest` and `kstest_kuiper`, libdieharder/kstest.c.  Doubles are elements of
an ordered field: no rounding, no NaN.
-/
namespace Dh

variable {F : Type*} [Field F] [LinearOrder F] [IsStrictOrderedRing F]

/-- `gsl_sort(data,1,n)`: ascending sort of the vector (library routine, taken to sort). -/
def gslSort (xs : List F) : List F := xs.insertionSort (· ≤ ·)

/-- The loop `for(i=1;i<=count;i++)` of `kstest`, kstest.c:50-78: `i` counts from 1,
`d1 = fabs(pvalue[i-1] - i/(count+1))`, `if(d1 > dmax) dmax = d1`.  (`d2`, `d` are computed
and not used.) -/
def ksLoop (count : Nat) : (i : Nat) → (dmax : F) → List F → F
  | _, dmax, [] => dmax
  | i, dmax, p :: ps =>
    let y : F := (i : F) / ((count : F) + 1)
    let d1 := |p - y|
    ksLoop count (i + 1) (if d1 > dmax then d1 else dmax) ps

/-- `kstest`, kstest.c:23-138.  `K count dmax` stands for lines 111-136 (the choice between
`q_ks` and `p_ks_new`), which see the samples only through `count` and `dmax`.  The first
`count` samples are sorted in place; the function returns the summary p-value and the new
contents of the array. -/
def kstest (K : Nat → F → F) (pvalue : List F) (count : Nat) : Res (F × List F) :=
  if count < 1 then .ok (-1, pvalue)
  else if count = 1 then do
    let x ← rd pvalue 0
    .ok (x, pvalue)
  else if pvalue.length < count then .ub
  else
    let s := gslSort (pvalue.take count)
    .ok (K count (ksLoop count 1 0 s), s ++ pvalue.drop count)

/-- The loop of `kstest_kuiper`, kstest.c:388-400. -/
def kuiperLoop (count : Nat) : (i : Nat) → (vmin vmax : F) → List F → F × F
  | _, vmin, vmax, [] => (vmin, vmax)
  | i, vmin, vmax, p :: ps =>
    let v := p - (i : F) / (count : F)
    if v > vmax then kuiperLoop count (i + 1) vmin v ps
    else if v < vmin then kuiperLoop count (i + 1) v vmax ps
    else kuiperLoop count (i + 1) vmin vmax ps

/-- `kstest_kuiper`, kstest.c:350-420; `Q count v` stands for lines 402-407. -/
def kstestKuiper (Q : Nat → F → F) (pvalue : List F) (count : Nat) : Res (F × List F) :=
  if count = 1 then do
    let x ← rd pvalue 0
    .ok (x, pvalue)
  else if pvalue.length < count then .ub
  else
    let s := gslSort (pvalue.take count)
    let (vmin, vmax) := kuiperLoop count 0 0 0 s
    .ok (Q count (|vmax| + |vmin|), s ++ pvalue.drop count)

end Dh
