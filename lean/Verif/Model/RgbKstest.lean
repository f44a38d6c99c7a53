import Verif.Model.Kstest
/-
Model of rgb_kstest_test.c.  Doubles are elements of an ordered field; `u i` is the result of the `i`-th call of
`gsl_rng_uniform_pos`.
-/
namespace Dh

variable {F : Type*} [Field F] [LinearOrder F] [IsStrictOrderedRing F]

/-- The loop `for(t=0;t<tsamples;t++)`, rgb_kstest_test.c:50-59: `testvec[t] = gsl_rng_uniform_pos(rng)`. -/
def rgbKstestFill (u : Nat → F) : (todo t : Nat) → List F → Res (List F)
  | 0, _, v => .ok v
  | todo + 1, t, v => do
    let v ← wr v t (u t)
    rgbKstestFill u todo (t + 1) v

/-- `rgb_kstest_test`, rgb_kstest_test.c:38-86: the p-value.  `garbage` is the contents of the vector after `malloc`; `K` and `Q` are the
distribution functions at the end of `kstest` and `kstest_kuiper`. -/
def rgbKstest (K Q : Nat → F → F) (ksTest : Nat) (garbage : List F) (u : Nat → F) (tsamples : Nat) : Res F := do
  let testvec ← rgbKstestFill u tsamples 0 garbage
  let (p, _) ← (if ksTest ≥ 3 then kstestKuiper Q testvec tsamples else kstest K testvec tsamples : Res (F × List F))
  .ok p

end Dh
