import Verif.Model.XtestStats
import Verif.Model.StdTest
/-
Models of dieharder/user_template.c, libdieharder/marsaglia_tsang_gorilla.c and libdieharder/rng_jenkins.c.
-/
namespace Dh

/-- `for(i=0;i<lag;i++) gsl_rng_uniform(rng);`, user_template.c:109, and marsaglia_tsang_gorilla.c:53 with `lag-1`: `pos` is the number of
values drawn. -/
def templateSkip : (todo pos : Nat) → Nat
  | 0, pos => pos
  | todo + 1, pos => templateSkip todo (pos + 1)

/-- The loop over `t`, user_template.c:101-114 and marsaglia_tsang_gorilla.c:46-58; the sum is taken as exact. -/
def templateLoop (u : Nat → ℚ) (skip : Nat) : (todo pos : Nat) → (x : ℚ) → ℚ × Nat
  | 0, pos, x => (x, pos)
  | todo + 1, pos, x =>
    let pos := templateSkip skip pos
    templateLoop u skip todo (pos + 1) (x + u pos)

/-- `user_template`, user_template.c:75-124; `_xUser` is the value of -x, which the function does not read.  The p-value, and the number
of values drawn. -/
noncomputable def userTemplate (cdf : ℝ → ℝ → ℝ) (u : Nat → ℚ) (ntuple : UInt) (_xUser : ℚ) (tsamples : Nat) : ℝ × Nat :=
  let r := templateLoop u ntuple.toNat tsamples 0 0
  (xtestEval cdf (r.1 : ℚ) (tsamples * 0.5) (Real.sqrt (tsamples / 12)), r.2)

/-- `if(x_user) lag = x_user; else lag = 2;`, marsaglia_tsang_gorilla.c:36-40. -/
def gorillaLag (xUser : ℚ) : Res UInt :=
  if xUser ≠ 0 then do
    let k ← toUint xUser
    .ok (BitVec.ofNat 32 k)
  else .ok 2

/-- `marsaglia_tsang_gorilla`, marsaglia_tsang_gorilla.c:15-67 (`lag-1` is an `unsigned int`). -/
noncomputable def gorilla (cdf : ℝ → ℝ → ℝ) (u : Nat → ℚ) (xUser : ℚ) (tsamples : Nat) : Res (ℝ × Nat) := do
  let lag ← gorillaLag xUser
  let r := templateLoop u (lag - 1).toNat tsamples 0 0
  .ok (xtestEval cdf (r.1 : ℚ) (tsamples * 0.5) (Real.sqrt (tsamples / 12)), r.2)

/-- The change of the state, rng_jenkins.c:29-31. -/
def jenkinsStep (a : UInt) : UInt :=
  let a := a + 0
  let a := a + (a <<< 10)
  a ^^^ (a >>> 6)

/-- The word written, rng_jenkins.c:34-36. -/
def jenkinsPost (a : UInt) : UInt :=
  let b := a + (a <<< 3)
  let b := b ^^^ (b >>> 11)
  b + (b <<< 15)

/-- The words written by the loop, rng_jenkins.c:26-48, as long as writing succeeds. -/
def jenkinsLoop : (todo : Nat) → (a : UInt) → List UInt
  | 0, _ => []
  | todo + 1, a =>
    let a := jenkinsStep a
    jenkinsPost a :: jenkinsLoop todo a

/-- The first `n` words of the program rng_jenkins.c. -/
def jenkins (n : Nat) : List UInt := jenkinsLoop n 0xbb48e941

end Dh
