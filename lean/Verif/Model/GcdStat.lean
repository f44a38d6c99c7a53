import Verif.Model.SmallTests
import Verif.Model.Vtest
/-
The chi-square test of the greatest common divisors in libdieharder/marsaglia_tsang_gcd.c.  Doubles are rationals; `sqrt` is exact before it
is cut to an integer.
-/
namespace Dh

/-- `PI`, libdieharder.h:74. -/
def gcdPi : ℚ := 3141592653589793238462643 / 1000000000000000000000000

/-- `gnorm`, marsaglia_tsang_gcd.c:154. -/
def gnorm : ℚ := 6 / (gcdPi * gcdPi)

/-- `(uint) sqrt((double)tsamples*gnorm/100.0)`, marsaglia_tsang_gcd.c:187. -/
def gcdSize (tsamples : Nat) : Nat := Nat.sqrt (Nat.floor ((tsamples : ℚ) * gnorm / 100))

/-- The loop over `j`, marsaglia_tsang_gcd.c:287-289. -/
def gcdTail (tsamples : Nat) : (todo j : Nat) → ℚ → ℚ
  | 0, _, y => y
  | todo + 1, j, y => gcdTail tsamples todo (j + 1) (y + (tsamples : ℚ) * gnorm / (j * j))

/-- The loop over `i`, marsaglia_tsang_gcd.c:277-301 (the cutoff is the one of `Vtest_create`).  `i*i` is an `unsigned int`. -/
def gcdCells (tsamples g : Nat) (gcd : List Nat) : (todo i : Nat) → (x y : List ℚ) → Res (List ℚ × List ℚ)
  | 0, _, x, y => .ok (x, y)
  | todo + 1, i, x, y => do
    if i > 1 then
      let c ← rd gcd i
      let x ← wr x i (c : ℚ)
      if i = g - 1 then
        let yi ← rd y i
        let y ← wr y i (gcdTail tsamples (100000 - i) i yi)
        gcdCells tsamples g gcd todo (i + 1) x y
      else
        let y ← wr y i ((tsamples : ℚ) * gnorm / ((i * i % 2 ^ 32 : Nat) : ℚ))
        gcdCells tsamples g gcd todo (i + 1) x y
    else
      let x ← wr x i 0
      let y ← wr y i 0
      gcdCells tsamples g gcd todo (i + 1) x y

/-- `vtest_u`, marsaglia_tsang_gcd.c:197, 277-308. -/
def gcdVtest (tsamples g : Nat) (gcd : List Nat) : Res Vtest := do
  let (x, y) ← gcdCells tsamples g gcd g 0 (vtestCreate g).x (vtestCreate g).y
  vtestEval { vtestCreate g with
    x := x
    y := y }

/-- `marsaglia_tsang_gcd` in a fresh program, marsaglia_tsang_gcd.c:148-312, up to the second p-value. -/
def gcdRun (fuel : Nat) (w : Src) (tsamples : Nat) : Res Vtest := do
  let (st, gcd, _, _) ← gcdTest gcdSize false fuel w ⟨none, 0⟩ tsamples
  gcdVtest tsamples st.gtblsize gcd

end Dh
