import Verif.Basic
/-
The command line options -D (parsecl.c, output.h), the table of tests (dieharder_test_types.c) and the run over all tests
(run_all_tests.c).
-/
namespace Dh

/-! ### Output fields -/

/-- `table_fields`, output.h:37-57. -/
def tableFields : List (List Char) :=
  ["default", "header", "show_rng", "line_header", "test_name", "ntuple", "tsamples", "psamples", "pvalues", "assessment",
    "prefix", "description", "histogram", "seed", "rate", "show_num", "no_whitespace", "psample_values",
    "file_rng_stat"].map String.toList

/-- `TCNT`, output.h:29. -/
def TCNT : Nat := 18

/-- `TLENGTH`, output.h:36. -/
def TLENGTH : Nat := 16

/-- `strncmp(a,b,n) == 0` for strings without null characters. -/
def strncmpEq (a b : List Char) (n : Nat) : Bool := a.take n == b.take n

/-- The argument of -D: a text that `strtol` reads completely (the number it returns), or any other text.  The number read from
the beginning of such a text is of no effect, since no field name begins with a number. -/
inductive DArg where
  | num (n : Int)
  | text (s : List Char)

/-- The search loop, parsecl.c:83-97: the index `i` at its end (`TCNT` if nothing was found). -/
def fieldSearch (s : List Char) : (todo i : Nat) → Res Nat
  | 0, i => .ok i
  | todo + 1, i => do
    let f ← rd tableFields i
    if strncmpEq s f TLENGTH then .ok i else fieldSearch s todo (i + 1)

/-- `tflag_default`, set_globals.c:44-46. -/
def tflagDefault : UInt := 1 + 2 + 4 + 8 + 16 + 64 + 32 + 128 + 256 + 8192 + 4096

/-- One option -D, parsecl.c:69-118: new `tflag` and `tflag_tmp`. -/
def optD (tflag : UInt) (arg : DArg) : Res (UInt × UInt) := do
  let tmp ← match arg with
    | .num n => .ok (BitVec.ofInt 32 n)
    | .text s => do
      let i ← fieldSearch s TCNT 0
      if i = TCNT then .exit
      else if i = 0 then .ok 0
      else .ok (BitVec.twoPow 32 (i - 1))
  if tmp = 0 then .ok (tflagDefault, tmp) else .ok (tflag + tmp, tmp)

/-- All options -D, parsecl.c:56-118. -/
def optsD : List DArg → (tflag tmp : UInt) → Res (UInt × UInt)
  | [], tflag, tmp => .ok (tflag, tmp)
  | arg :: args, tflag, _ => do
    let (tflag, tmp) ← optD tflag arg
    optsD args tflag tmp

/-- `tflag` after the command line has been read: parsecl.c:41, set_globals.c:47, parsecl.c:334-336. -/
def tableFlags (args : List DArg) : Res UInt := do
  let (tflag, tmp) ← optsD args 0 0
  if tmp = 0 then .ok tflagDefault else .ok tflag

/-! ### Running all tests -/

/-- The table `dh_test_types` (which entries are not 0) and the three counters, as far as run_all_tests.c uses them. -/
structure TestTable where
  present : Nat → Bool
  diehard : Nat
  sts : Nat
  other : Nat

/-- `n` times `ADD_TEST` and `++` from place `i` on, dieharder_test_types.h:41. -/
def addTests (present : Nat → Bool) (i n : Nat) : Nat → Bool := fun t => present t || (decide (i ≤ t) && decide (t < i + n))

/-- `dieharder_test_types`, dieharder_test_types.c:30-157 (18 diehard tests, 3 STS tests, 12 others).  `add_ui_tests`
(add_ui_tests.c:30-33, one test at 600) is not called anywhere. -/
def testTypes : TestTable where
  present := addTests (addTests (addTests (fun _ => false) 0 18) 100 3) 200 12
  diehard := 18
  sts := 3
  other := 12

/-- The global `ntuple` and the calls of `execute_test` so far, with the value of `ntuple`, latest first. -/
structure RunState where
  ntuple : Nat
  log : List (Nat × Nat)

/-- `execute_test(dtest_num)`: no test assigns to `ntuple`. -/
def RunState.execute (t : Nat) (s : RunState) : RunState := { s with log := (t, s.ntuple) :: s.log }

/-- `for(ntuple = ntmin;ntuple <= ntmax;ntuple++) execute_test(dtest_num);`, e.g. run_all_tests.c:86-88; `todo = ntmax + 1 - ntmin`
passes. -/
def RunState.ntLoop (t : Nat) : (todo : Nat) → RunState → RunState
  | 0, s => s
  | todo + 1, s =>
    let s := s.execute t
    RunState.ntLoop t todo { s with ntuple := s.ntuple + 1 }

/-- `ntuple = ntmin; ...; ntuple = 0;`, e.g. run_all_tests.c:82-93. -/
def RunState.range (t ntmin ntmax : Nat) (s : RunState) : RunState :=
  { RunState.ntLoop t (ntmax + 1 - ntmin) { s with ntuple := ntmin } with ntuple := 0 }

/-- One test of the loops run_all_tests.c:36-40 and 45-49. -/
def runPlain (tab : TestTable) (t : Nat) (s : RunState) : RunState := if tab.present t then s.execute t else s

/-- One pass of the loop over the other tests, run_all_tests.c:60-253. -/
def runOther (tab : TestTable) (t : Nat) (s : RunState) : RunState :=
  if t = 200 then
    if tab.present t then
      if s.ntuple ≠ 0 then s.execute t else s.range t 1 12
    else s
  else if t = 201 then
    if tab.present t then
      if s.ntuple ≠ 0 then
        if s.ntuple < 2 ∨ s.ntuple > 5 then
          let ntsave := s.ntuple
          let s := RunState.execute t { s with ntuple := 5 }
          { s with ntuple := ntsave }
        else s.execute t
      else s.range t 2 5
    else s
  else if t = 202 then
    if tab.present t then
      if s.ntuple ≠ 0 then
        if s.ntuple < 2 then
          let ntsave := s.ntuple
          let s := RunState.execute t { s with ntuple := 5 }
          { s with ntuple := ntsave }
        else s.execute t
      else s.range t 2 5
    else s
  else if t = 203 then
    if tab.present t then
      if s.ntuple ≠ 0 then s.execute t else s.range t 0 32
    else s
  else runPlain tab t s

/-- A loop `for(dtest_num=t; ...; dtest_num++)` of `todo` passes. -/
def runRange (f : Nat → RunState → RunState) : (todo t : Nat) → RunState → RunState
  | 0, _, s => s
  | todo + 1, t, s => runRange f todo (t + 1) (f t s)

/-- `run_all_tests`, run_all_tests.c:19-266: the executions in order, test number and `ntuple`. -/
def runAllTests (tab : TestTable) (ntuple : Nat) : List (Nat × Nat) :=
  let s := runRange (runPlain tab) tab.diehard 0 ⟨ntuple, []⟩
  let s := runRange (runPlain tab) tab.sts 100 s
  let s := runRange (runOther tab) tab.other 200 s
  s.log.reverse

end Dh
