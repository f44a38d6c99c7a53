import Mathlib.Analysis.SpecialFunctions.Exp
import Mathlib.Analysis.Real.Sqrt
/-
The tail function of the Kuiper test, `q_ks_kuiper`, kstest.c:422-467, in real arithmetic.
-/
namespace Dh
noncomputable section

/-- The variable `q` after `M` iterations of the first loop, kstest.c:440-446.  The multiplication `m*m` is that of integers (in C, modulo 2^32:
the loop would have to reach m = 65536, while the terms underflow for m > 20 / x). -/
def kuiperQ (x : ℝ) : Nat → ℝ
  | 0 => 0
  | M + 1 =>
    let msq : ℝ := ((M + 1) * (M + 1) : Nat)
    let xsq := x * x
    kuiperQ x M + (4 * msq * xsq - 1) * Real.exp (-2 * msq * xsq)

/-- The variable `p` after `M` iterations of the second loop, kstest.c:452-458. -/
def kuiperP (x : ℝ) : Nat → ℝ
  | 0 => 0
  | M + 1 =>
    let msq : ℝ := ((M + 1) * (M + 1) : Nat)
    let xsq := x * x
    kuiperP x M + msq * (4 * msq * xsq - 3) * Real.exp (-2 * msq * xsq)

/-- The value that `q_ks_kuiper` returns (447, 459-461) if the loops are left after `M` and `M'` iterations.  The code leaves each loop when an
addition does not change the sum any more; in real arithmetic this stands for the limit. -/
def qKsKuiper (x : ℝ) (count M M' : Nat) : ℝ := 2 * kuiperQ x M - 8 * x * kuiperP x M' / (3 * Real.sqrt count)

/-- The argument, kstest.c:402-403. -/
def kuiperX (count : Nat) (v : ℝ) : ℝ := (Real.sqrt count + 0.155 + 0.24 / Real.sqrt count) * v

end
end Dh
