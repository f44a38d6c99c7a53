import Verif.Model.Select
import Verif.Model.TestListing
/-
The command line as a whole: parsecl.c and help.c.  What `getopt` yields is the input: the options in their order, with their
arguments, and the number of arguments that are left over.  The verbose messages are left out.
-/
namespace Dh

/-- What `getopt` returns, with the option string of parsecl.c:56; `bad` is '?'. -/
inductive CliOpt where
  | a | B | F | h | l | o | V | bad
  | c (arg : List Char) | D (arg : List Char) | d (arg : List Char) | f (arg : List Char) | g (arg : List Char)
  | i (arg : List Char) | k (arg : List Char) | L (arg : List Char) | m (arg : List Char) | n (arg : List Char)
  | O (arg : List Char) | p (arg : List Char) | P (arg : List Char) | S (arg : List Char) | s (arg : List Char)
  | t (arg : List Char) | v (arg : List Char) | W (arg : List Char) | X (arg : List Char) | x (arg : List Char)
  | Y (arg : List Char) | y (arg : List Char) | Z (arg : List Char) | z (arg : List Char)

/-- The global variables that the options set; `ρ` stands for `double`.  `separator` is `none` for the null character; `sel` are
the variables of -d, -f, -g and -S. -/
structure CliS (ρ : Type) where
  all : Bool
  list : Bool
  help : Bool
  showFlags : Bool
  outputFile : Bool
  outputFormat : UInt
  separator : Option Char
  iterations : UInt
  ksTest : UInt
  overlap : UInt
  multiplyP : ρ
  ntuple : UInt
  xoff : UInt
  psamples : UInt
  strategy : Int
  tsamples : Int
  verbose : UInt
  xweak : ρ
  xfail : ρ
  xtrategy : UInt
  xUser : ρ
  yUser : ρ
  zUser : ρ
  filename : List Char
  tflag : UInt
  tflagTmp : UInt
  sel : SelS
  errflg : Nat

/-- The values before the options are read, set_globals.c:12-74, parsecl.c:25 and 39-41; `one`, `weak`, `fail`, `zero` are the
doubles 1, 0.005, 0.000001 and 0. -/
def cliInit {ρ : Type} (one weak fail zero : ρ) : CliS ρ where
  all := false
  list := false
  help := false
  showFlags := false
  outputFile := false
  outputFormat := 1
  separator := some '|'
  iterations := -1
  ksTest := 0
  overlap := 1
  multiplyP := one
  ntuple := 0
  xoff := 100000
  psamples := 0
  strategy := 0
  tsamples := 0
  verbose := 0
  xweak := weak
  xfail := fail
  xtrategy := 0
  xUser := zero
  yUser := zero
  zUser := zero
  filename := []
  tflag := 0
  tflagTmp := 0
  sel := selInit
  errflg := 0

/-- What becomes of the command line: the program goes on with the settings, or it ends after printing something. -/
inductive CliOut (ρ : Type) where
  | run (s : CliS ρ)
  | usage (code : Nat)
  | version
  | listTests
  | showFlags
  | describeAll
  | describe (i : Nat)

/-- `strtol(arg,NULL,10)` assigned to an `int` or an `unsigned int`. -/
def argInt (arg : List Char) : UInt := BitVec.ofInt 32 (strtol arg).1

/-- The argument of -D as `optD` takes it: parsecl.c:74-75. -/
def argD (arg : List Char) : DArg := if (strtol arg).2 = [] then .num (strtol arg).1 else .text arg

/-- One option, parsecl.c:58-255, except -V.  There is no case for -Z.  `strtod` is a parameter. -/
def cliOpt {ρ : Type} (strtod : List Char → ρ) (s : CliS ρ) : CliOpt → Res (CliS ρ)
  | .a => .ok { s with all := true }
  | .B => .ok { s with outputFormat := 0 }
  | .c arg => .ok { s with separator := arg.head? }
  | .D arg => do
    let (tflag, tmp) ← optD s.tflag (argD arg)
    .ok { s with
      tflag := tflag
      tflagTmp := tmp }
  | .d arg => do
    let sel ← selOpt s.sel (.d arg)
    .ok { s with sel := sel }
  | .F => .ok { s with showFlags := true }
  | .f arg => do
    let sel ← selOpt s.sel (.f arg)
    .ok { s with
      sel := sel
      filename := arg.take 128 }
  | .g arg => do
    let sel ← selOpt s.sel (.g arg)
    .ok { s with sel := sel }
  | .h => .ok { s with help := true }
  | .i arg => .ok { s with iterations := argInt arg }
  | .k arg => .ok { s with ksTest := argInt arg }
  | .l => .ok { s with list := true }
  | .L arg => .ok { s with overlap := argInt arg }
  | .m arg => .ok { s with multiplyP := strtod arg }
  | .n arg => .ok { s with ntuple := argInt arg }
  | .o => .ok { s with outputFile := true }
  | .O arg => .ok { s with outputFormat := argInt arg }
  | .P arg => .ok { s with xoff := argInt arg }
  | .p arg => .ok { s with psamples := argInt arg }
  | .S arg => do
    let sel ← selOpt s.sel (.S arg)
    .ok { s with sel := sel }
  | .s arg => .ok { s with strategy := (strtol arg).1 }
  | .t arg =>
    let itmp := (argInt arg).toInt
    if itmp ≥ 0 then .ok { s with tsamples := itmp } else .ok s
  | .V => .ok s
  | .v arg => .ok { s with verbose := argInt arg }
  | .W arg => .ok { s with xweak := strtod arg }
  | .X arg => .ok { s with xfail := strtod arg }
  | .x arg => .ok { s with xUser := strtod arg }
  | .Y arg => .ok { s with xtrategy := argInt arg }
  | .y arg => .ok { s with yUser := strtod arg }
  | .Z _ => .ok s
  | .z arg => .ok { s with zUser := strtod arg }
  | .bad => .ok { s with errflg := s.errflg + 1 }

/-- The loop, parsecl.c:56-257: `none` if -V ends the program (lines 228-231). -/
def cliOpts {ρ : Type} (strtod : List Char → ρ) : List CliOpt → CliS ρ → Res (Option (CliS ρ))
  | [], s => .ok (some s)
  | .V :: _, _ => .ok none
  | q :: qs, s => do
    let s ← cliOpt strtod s q
    cliOpts strtod qs s

/-- `help`, help.c:11-46: `dh_test_types` is the table of `dieharder_test_types`. -/
def cliHelp {ρ : Type} (s : CliS ρ) : Res (CliOut ρ) := do
  let t ← testRecs
  if s.all then .ok .describeAll
  else if s.sel.dtestNum.toInt ≥ 0 ∧ s.sel.dtestNum.toInt < 1000 then do
    let e ← rd t s.sel.dtestNum.toNat
    match e with
    | some _ => .ok (.describe s.sel.dtestNum.toNat)
    | none => .ok (.usage 0)
  else .ok (.usage 0)

/-- `parsecl`, parsecl.c:27-353, after the `set_globals` of dieharder.c:30; `rest` is `argc-optind`.  `generator` (line 299) is 0:
the program does not assign to it.  `Usage` ends with `exit(0)`, help.c:210 (so that the `exit(1)` of line 53 is not reached). -/
def parsecl {ρ : Type} (strtod : List Char → ρ) (one weak fail zero : ρ) (argc : Nat) (opts : List CliOpt) (rest : Nat) :
    Res (CliOut ρ) :=
  if argc = 1 then .ok (.usage 0) else do
  let r ← cliOpts strtod opts (cliInit one weak fail zero)
  match r with
  | none => .ok .version
  | some s =>
    if s.errflg ≠ 0 then .ok (.usage 0)
    else if rest = 0 then
      if s.list then .ok .listTests
      else if s.showFlags then .ok .showFlags
      else if s.help then cliHelp s
      else if s.tflagTmp = 0 then .ok (.run { s with tflag := tflagDefault })
      else .ok (.run s)
    else .ok (.usage 0)

/-- The listing of -F, parsecl.c:305-314: the line of a flag. -/
def flagLine (v : Nat) (name : List Char) : List Char := fmtRight 5 (Nat.toDigits 10 v) ++ '\t' :: (fmtRight 15 name ++ ['\n'])

/-- The loop of -F, parsecl.c:312-314: `todo = TCNT - i`. -/
def flagLoop : (todo i : Nat) → Res (List Char)
  | 0, _ => .ok []
  | todo + 1, i => do
    let nm ← rd tableFields (i + 1)
    let r ← flagLoop todo (i + 1)
    .ok (flagLine (2 ^ i) nm ++ r)

/-- What -F prints, parsecl.c:305-314. -/
def flagText (version : List Char) : Res (List Char) := do
  let nm ← rd tableFields 0
  let r ← flagLoop TCNT 0
  .ok (dhHeader version ++ (" Dieharder output control flags.  Set with -D flagname or -D flag\n".toList ++
    (" Multiple flags may be given:\t\tdieharder -a -D test_name -D pvalues.\n".toList ++
    (" Flags names and numbers may be mixed:\tdieharder -a -D 8 -D pvalues.\n".toList ++
    (" Flag\t    Flag Name\n".toList ++ ("=======================\n".toList ++ (flagLine 0 nm ++ r)))))))

end Dh
