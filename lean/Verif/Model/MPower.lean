import Verif.Basic
import Mathlib.Algebra.Order.Field.Basic
/-
Model of `mMultiply` and `mPower`, libdieharder/kstest.c.  Doubles are elements of an ordered
field; an `m x m` matrix is a vector of length `m*m` in row order.  The int arithmetic on the exponents is on
unbounded integers.
-/
namespace Dh

variable {F : Type*} [Field F] [LinearOrder F] [IsStrictOrderedRing F]

/-- The `k` loop, kstest.c:190-193: `s+=A[i*m+k]*B[k*m+j]; C[i*m+j]=s;`. -/
def mmK (A B : List F) (m i j : Nat) : (todo k : Nat) → (s : F) → List F → Res (List F)
  | 0, _, _, C => .ok C
  | todo + 1, k, s, C => do
    let a ← rd A (i * m + k)
    let b ← rd B (k * m + j)
    let C ← wr C (i * m + j) (s + a * b)
    mmK A B m i j todo (k + 1) (s + a * b) C

/-- The `j` loop, kstest.c:188-194. -/
def mmJ (A B : List F) (m i : Nat) : (todo j : Nat) → List F → Res (List F)
  | 0, _, C => .ok C
  | todo + 1, j, C => do
    let C ← mmK A B m i j m 0 0 C
    mmJ A B m i todo (j + 1) C

/-- The `i` loop, kstest.c:187-195. -/
def mmI (A B : List F) (m : Nat) : (todo i : Nat) → List F → Res (List F)
  | 0, _, C => .ok C
  | todo + 1, i, C => do
    let C ← mmJ A B m i m 0 C
    mmI A B m todo (i + 1) C

/-- `mMultiply`, kstest.c:183-196 (`C` is never one of the factors in the calls below). -/
def mMultiply (A B C : List F) (m : Nat) : Res (List F) := mmI A B m m 0 C

/-- `for(i=0;i<m*m;i++) V[i]=A[i];` -/
def mCopy (A : List F) : (todo i : Nat) → List F → Res (List F)
  | 0, _, V => .ok V
  | todo + 1, i, V => do
    let a ← rd A i
    let V ← wr V i a
    mCopy A todo (i + 1) V

/-- `for(j=0;j<m*m;j++) V[j]=V[j]*1.0e-140;` (kstest.c:242-244) -/
def mScale : (todo j : Nat) → List F → Res (List F)
  | 0, _, V => .ok V
  | todo + 1, j, V => do
    let a ← rd V j
    let V ← wr V j (a * (1 / 10 ^ 140))
    mScale todo (j + 1) V

/-- The rescaling loop, kstest.c:240-248. -/
def mRescale (mm : Nat) : (todo i : Nat) → List F → ℤ → Res (List F × ℤ)
  | 0, _, V, e => .ok (V, e)
  | todo + 1, i, V, e => do
    let a ← rd V i
    if a > 10 ^ 140 then do
      let V ← mScale mm 0 V
      mRescale mm todo (i + 1) V (e + 140)
    else mRescale mm todo (i + 1) V e

/-- `mPower`, kstest.c:198-252.  Recursion is bounded by `fuel`; running out means the recursion
does not end.  `eV` is `*eV`; the contents of the freshly allocated `B` are irrelevant (zeros
here).  Result: contents of `V` and `*eV`. -/
def mPower (A : List F) (eA : ℤ) (m : Nat) : (fuel : Nat) → (n : Nat) → List F → ℤ → Res (List F × ℤ)
  | 0, _, _, _ => .loop
  | fuel + 1, n, V, eV =>
    if n = 1 then do
      let V ← mCopy A (m * m) 0 V
      .ok (V, if m = 0 then eV else eA)
    else do
      let (V, eV) ← mPower A eA m fuel (n / 2) V eV
      let B ← mMultiply V V (List.replicate (m * m) 0) m
      let eB := 2 * eV
      let (V, eV) ← (if n % 2 = 0 then do
          let V ← mCopy B (m * m) 0 V
          .ok (V, eB)
        else do
          let V ← mMultiply A B V m
          .ok (V, eA + eB) : Res (List F × ℤ))
      mRescale (m * m) (m * m) 0 V eV

end Dh
