import Verif.Basic
/-
Counting in an array cell, `a[i]++`.
-/
namespace Dh

/-- `a[i]++` on an array of counters that do not overflow. -/
def bump (a : List Nat) (i : Nat) : Res (List Nat) := do
  let x ← rd a i
  wr a i (x + 1)

end Dh
