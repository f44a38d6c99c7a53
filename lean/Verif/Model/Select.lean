import Verif.Model.Cli
/-
Selection of the generator and of the test on the command line: the options -d, -f, -g and -S of parsecl.c, select_rng of
choose_rng.c and run_test of run_test.c.  Options without an influence on the selection are left out; texts have no null
characters.
-/
namespace Dh

/-- `isspace` in the C locale. -/
def cSpace (c : Char) : Bool := c = ' ' || (decide (9 ≤ c.toNat) && decide (c.toNat ≤ 13))

/-- An optional sign: is it a minus, and what follows. -/
def cSign : List Char → Bool × List Char
  | '-' :: u => (true, u)
  | '+' :: u => (false, u)
  | u => (false, u)

/-- The value of a sequence of decimal digits. -/
def decimalOf (ds : List Char) : Nat := ds.foldl (fun a c => 10 * a + (c.toNat - 48)) 0

/-- `strtol(s,&endptr,10)` (C standard): the value, limited to the range of `long`, and the text at `endptr`. -/
def strtol (s : List Char) : Int × List Char :=
  let (neg, u) := cSign (s.dropWhile cSpace)
  let ds := u.takeWhile Char.isDigit
  if ds = [] then (0, s) else
  let v : Int := decimalOf ds
  (max (-9223372036854775808) (min 9223372036854775807 (if neg then -v else v)), u.dropWhile Char.isDigit)

/-- The options of the selection, with their arguments. -/
inductive SelOpt where
  | d (arg : List Char)
  | f (arg : List Char)
  | g (arg : List Char)
  | S (arg : List Char)

/-- The variables of the selection: `gnames`, `gnumbs`, `gseeds`, `gvcount`, `gscount` (libdieharder.h:185-190), `gen_tmp` of
`parsecl`, `dtest_num`, `dtest_name`, `fromfile` and `Seed`. -/
structure SelS where
  gnames : List (List Char)
  gnumbs : List UInt
  gseeds : List UInt
  gvcount : Nat
  gscount : Nat
  genTmp : UInt
  dtestNum : UInt
  dtestName : List Char
  fromfile : Bool
  seed : UInt

/-- The values before the options are read: set_globals.c:15-27 and 33-41, parsecl.c:41, zero for the static vectors
(`GVECMAX` is 100, libdieharder.h:184). -/
def selInit : SelS :=
  ⟨List.replicate 100 [], (List.replicate 100 0).set 0 13, List.replicate 100 0, 0, 0, 17, -1, [], false, 0⟩

/-- One option, parsecl.c:119-135 (-d), 139-142 (-f), 153-162 (-g), 204-208 (-S). -/
def selOpt (s : SelS) : SelOpt → Res SelS
  | .d arg =>
    let (v, endptr) := strtol arg
    if strncmpEq arg endptr 1 then .ok { s with dtestName := arg.take 127 }
    else .ok { s with dtestNum := BitVec.ofInt 32 v }
  | .f _ => .ok { s with fromfile := true }
  | .g arg => do
    let (v, endptr) := strtol arg
    let tmp : UInt := BitVec.ofInt 32 v
    if strncmpEq arg endptr 1 then do
      let names ← wr s.gnames s.gvcount (arg.take 128)
      .ok { s with
        gnames := names
        genTmp := tmp
        gvcount := s.gvcount + 1 }
    else do
      let numbs ← wr s.gnumbs s.gvcount tmp
      .ok { s with
        gnumbs := numbs
        genTmp := tmp
        gvcount := s.gvcount + 1 }
  | .S arg => do
    let seeds ← wr s.gseeds s.gscount s.genTmp
    .ok { s with
      seed := BitVec.ofInt 32 (strtol arg).1
      gseeds := seeds
      gscount := s.gscount + 1 }

/-- All options in their order, parsecl.c:57-256. -/
def selOpts : List SelOpt → SelS → Res SelS
  | [], s => .ok s
  | o :: os, s => do
    let s ← selOpt s o
    selOpts os s

/-- The search by name, choose_rng.c:121-128 (`n` = 20) and run_test.c:21-29 (`n` = 128): the first entry with the name. -/
def nameSearch (types : List (Option (List Char))) (name : List Char) (n : Nat) : (todo i : Nat) → Res (Option Nat)
  | 0, _ => .ok none
  | todo + 1, i => do
    let t ← rd types i
    match t with
    | some nm => if strncmpEq nm name n then .ok (some i) else nameSearch types name n todo (i + 1)
    | none => nameSearch types name n todo (i + 1)

/-- The choice by number, choose_rng.c:130-141. -/
def rngByNumber (types : List (Option (List Char))) (g : Nat) : Res (Option Nat) := do
  let t ← rd types g
  match t with
  | some nm => if nm = [] then .ok none else .ok (some g)
  | none => .ok none

/-- `select_rng`, choose_rng.c:99-171: the number of the generator that is allocated, `none` for the return value -1.  `types`
holds the names of `dh_rng_types` (`none` for a null pointer). -/
def selectRng (types : List (Option (List Char))) (s : SelS) : Res (Option Nat) := do
  let g0 ← rd s.gnumbs 0
  if g0.toInt < 0 ∨ g0.toInt ≥ 1000 then .ok none else do
  let n0 ← rd s.gnames 0
  let found ← (if n0 ≠ [] then nameSearch types n0 20 1000 0 else rngByNumber types g0.toNat : Res (Option Nat))
  match found with
  | none => .ok none
  | some i => do
    let t ← rd types i
    match t with
    | some nm => if strncmpEq "file_input".toList nm 10 ∧ s.fromfile = false then .ok none else .ok (some i)
    | none => .ub

/-- `choose_rng`, choose_rng.c:60-63. -/
def chooseRng (types : List (Option (List Char))) (s : SelS) : Res Nat := do
  let r ← selectRng types s
  match r with
  | none => .exit
  | some i => .ok i

/-- The execution of a test by number, run_test.c:31-37. -/
def runNumber (types : List (Option (List Char))) (num : UInt) : Res Nat :=
  if num.toInt ≥ 0 ∧ num.toInt < 1000 then do
    let t ← rd types num.toNat
    match t with
    | some _ => .ok num.toNat
    | none => .exit
  else .exit

/-- `run_test`, run_test.c:9-38: the number of the test that is executed.  `types` holds the short names of `dh_test_types`. -/
def runTest (types : List (Option (List Char))) (s : SelS) : Res Nat := do
  let num ← (if s.dtestNum.toInt < 0 then do
      let r ← nameSearch types s.dtestName 128 1000 0
      match r with
      | some i => .ok (BitVec.ofNat 32 i)
      | none => .ok s.dtestNum
    else .ok s.dtestNum : Res UInt)
  runNumber types num

/-- A run of the program with one test, dieharder.c:50-90: the generator and the test. -/
def selectRun (rngs tests : List (Option (List Char))) (opts : List SelOpt) : Res (Nat × Nat) := do
  let s ← selOpts opts selInit
  let g ← chooseRng rngs s
  let t ← runTest tests s
  .ok (g, t)

end Dh
