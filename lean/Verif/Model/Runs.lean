import Verif.Model.UintRand
import Verif.Model.Tally
/-
diehard_runs.c: runs up and down.
-/
namespace Dh

/-- The variables of `diehard_runs`, diehard_runs.c:80-84. -/
structure RunsSt where
  ucount : Nat
  dcount : Nat
  upruns : List Nat
  downruns : List Nat

/-- `RUN_MAX`, diehard_runs.c:52 (see C36: the arrays have that size). -/
def runMax : Nat := 6

/-- One step, diehard_runs.c:119-129 and (with other values) 132-142; `up` is the result of the comparison. -/
def runsStep (s : RunsSt) (up : Bool) : Res RunsSt :=
  if up then do
    let ucount := s.ucount + 1
    let ucount := if ucount > runMax then runMax else ucount
    let downruns ← bump s.downruns (s.dcount - 1)
    .ok ⟨ucount, 1, s.upruns, downruns⟩
  else do
    let dcount := s.dcount + 1
    let dcount := if dcount > runMax then runMax else dcount
    let upruns ← bump s.upruns (s.ucount - 1)
    .ok ⟨1, dcount, upruns, s.downruns⟩

/-- The loop over `t`, diehard_runs.c:110-131; the result contains the last value of `next`. -/
def dhRunsLoop (src : Src) : (todo t : Nat) → (last next : UInt) → RunsSt → Res (UInt × RunsSt)
  | 0, _, _, next, s => .ok (next, s)
  | todo + 1, t, last, _, s => do
    let next := src t
    let s ← runsStep s (decide (next > last))
    dhRunsLoop src todo (t + 1) next next s

/-- The counting part of `diehard_runs`, diehard_runs.c:95-142.  The counts are natural numbers; in C they are `int`s,
and `t` is an `int`, so `tsamples` is at most `2^31`. -/
def runs (src : Src) (tsamples : Nat) : Res (List Nat × List Nat) := do
  let first := src 0
  let (next, s) ← dhRunsLoop src (tsamples - 1) 1 first 0 ⟨1, 1, List.replicate runMax 0, List.replicate runMax 0⟩
  let s ← runsStep s (decide (next > first))
  .ok (s.upruns, s.downruns)

end Dh
