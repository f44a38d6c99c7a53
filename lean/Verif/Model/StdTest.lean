import Mathlib.Algebra.Order.Field.Rat
import Verif.Model.Kstest
/-
Model of the test driver: libdieharder/std_test.c, `execute_test` of dieharder/run_test.c and
the assessment of dieharder/output.c.
-/
namespace Dh

/-- The globals the driver reads (dieharder/globals.c; libdieharder.h:196-214). -/
structure Cfg where
  all : Bool
  tsamples : Nat
  psamples : Nat
  multiplyP : ℚ
  Xtrategy : Nat
  Xoff : Nat
  Xstep : Nat
  Xweak : ℚ
  Xfail : ℚ
  ksTest : Nat

/-- The fields of `Dtest` the driver reads. -/
structure Dtest where
  psamplesStd : Nat
  tsamplesStd : Nat
  nkps : Nat

/-- One `Test` struct (`x`, `y`, `pvlabel`, `ntuple` are not read by the driver). -/
structure TestS where
  tsamples : Nat
  psamples : Nat
  pvalues : List ℚ
  ks : ℚ
  deriving DecidableEq

/-- The vector `Test **` together with the number of calls of the test function so far. -/
structure TS where
  tests : List TestS
  calls : Nat
  deriving DecidableEq

/-- Conversion of a double to `unsigned int`: truncation towards zero, undefined outside
`(-1, 2^32)`. -/
def toUint (x : ℚ) : Res Nat := if -1 < x ∧ x < 2 ^ 32 then .ok x.floor.toNat else .ub

/-- `create_test`, std_test.c:46-132, called as in run_test.c:78 with the globals `tsamples`,
`psamples`. -/
def createTest (c : Cfg) (d : Dtest) : Res TS := do
  let ts := if c.all ∨ c.tsamples = 0 then d.tsamplesStd else c.tsamples
  let ps ← (if c.all ∨ c.psamples = 0 then do
      let p ← toUint (d.psamplesStd * c.multiplyP)
      pure (if p < 1 then 1 else p)
    else pure c.psamples : Res Nat)
  let pcutoff := if c.Xtrategy ≠ 0 ∧ c.Xoff > ps then c.Xoff else ps
  .ok ⟨List.replicate d.nkps ⟨ts, ps, List.replicate pcutoff 0, 0⟩, 0⟩

/-- `clear_test`, std_test.c:174-196. -/
def clearTest (c : Cfg) (d : Dtest) (s : TS) : Res TS := do
  let ps ← (if c.all ∨ c.psamples = 0 then toUint (d.psamplesStd * c.multiplyP)
    else pure c.psamples : Res Nat)
  .ok { s with tests := s.tests.map fun t => { t with psamples := ps, ks := 0 } }

/-- One call `dtest->test(test,irun)`: the test function stores one p-value per `Test` at
index `irun`.  What it computes is given by the oracle `tf call j`; an index outside the
allocated vector is undefined behaviour. -/
def storeRun (tf : Nat → Nat → ℚ) (call irun : Nat) : (j : Nat) → List TestS → Res (List TestS)
  | _, [] => .ok []
  | j, t :: ts => do
    let pv ← wr t.pvalues irun (tf call j)
    let ts ← storeRun tf call irun (j + 1) ts
    .ok ({ t with pvalues := pv } :: ts)

/-- `for(i = test[0]->psamples; i < imax; i++) dtest->test(test,i);` (std_test.c:229-231);
`todo` is `imax - i`. -/
def runLoop (tf : Nat → Nat → ℚ) : (todo i : Nat) → TS → Res TS
  | 0, _, s => .ok s
  | todo + 1, i, s => do
    let ts ← storeRun tf s.calls i 0 s.tests
    runLoop tf todo (i + 1) ⟨ts, s.calls + 1⟩

/-- The summary p-value (std_test.c:240-250). -/
def summary {F : Type*} [Field F] [LinearOrder F] [IsStrictOrderedRing F] (c : Cfg)
    (K Q : Nat → F → F) (pv : List F) (n : Nat) : Res (F × List F) :=
  if c.ksTest ≥ 3 then kstestKuiper Q pv n else kstest K pv n

/-- The loop over `j`, std_test.c:233-252; `delta` is `(uint) count`. -/
def summaryLoop (c : Cfg) (K Q : Nat → ℚ → ℚ) (delta : Nat) : List TestS → Res (List TestS)
  | [] => .ok []
  | t :: ts => do
    let ps := (t.psamples + delta) % 2 ^ 32
    let (p, pv) ← summary c K Q t.pvalues ps
    let ts ← summaryLoop c K Q delta ts
    .ok ({ t with psamples := ps, ks := p, pvalues := pv } :: ts)

/-- `test[0]->psamples`; a test with no `Test` struct has none. -/
def ps0 (s : TS) : Res Nat :=
  match s.tests with
  | [] => .ub
  | t :: _ => .ok t.psamples

/-- `add_2_test`, std_test.c:215-255.  `imax` and the sample counts are `unsigned int`;
`count` is converted to unsigned when added. -/
def add2Test (c : Cfg) (K Q : Nat → ℚ → ℚ) (tf : Nat → Nat → ℚ) (count : Nat) (s : TS) : Res TS := do
  let p0 ← ps0 s
  let imax := (p0 + count) % 2 ^ 32
  let imax := if imax > c.Xoff then c.Xoff else imax
  let delta := (2 ^ 32 + imax - p0) % 2 ^ 32
  let s ← runLoop tf (imax - p0) p0 s
  let ts ← summaryLoop c K Q delta s.tests
  .ok { s with tests := ts }

/-- `std_test`, std_test.c:266-295.  `pmax` is the largest `ks_pvalue`, or 0 if none is
positive. -/
def stdTest (c : Cfg) (K Q : Nat → ℚ → ℚ) (tf : Nat → Nat → ℚ) (s : TS) : Res TS := do
  let pmax := s.tests.foldl (fun m t => if t.ks > m then t.ks else m) 0
  if pmax = 0 then do
    let count ← ps0 s
    add2Test c K Q tf count { s with tests := s.tests.map fun t => { t with psamples := 0 } }
  else add2Test c K Q tf c.Xstep s

/-- A call of the driver interface. -/
inductive Op where
  | std
  | clear
  deriving DecidableEq, Repr

/-- A history of calls. -/
def runOps (c : Cfg) (d : Dtest) (K Q : Nat → ℚ → ℚ) (tf : Nat → Nat → ℚ) : List Op → TS → Res TS
  | [], s => .ok s
  | .std :: os, s => do
    let s ← stdTest c K Q tf s
    runOps c d K Q tf os s
  | .clear :: os, s => do
    let s ← clearTest c d s
    runOps c d K Q tf os s

/-- `smallest_p`, run_test.c:94-99. -/
def smallestP (ts : List TestS) : ℚ :=
  ts.foldl (fun m t => if 1/2 - |t.ks - 1/2| < m then 1/2 - |t.ks - 1/2| else m) (1/2)

/-- The `switch(Xtrategy)`, run_test.c:100-133: the new value of `need_more_p`. -/
def needMore (c : Cfg) (s : TS) : Res Bool := do
  let sp := smallestP s.tests
  let p ← ps0 s
  if c.Xtrategy = 1 then .ok (!(decide (sp < c.Xfail) || decide (sp ≥ c.Xweak) || decide (p ≥ c.Xoff)))
  else if c.Xtrategy = 2 then .ok (!(decide (sp < c.Xfail) || decide (p ≥ c.Xoff)))
  else .ok false

/-- The `while(need_more_p)` loop, run_test.c:90-134.  The result lists the states shown to
`output()`, in order. -/
def execLoop (c : Cfg) (K Q : Nat → ℚ → ℚ) (tf : Nat → Nat → ℚ) : (fuel : Nat) → TS → Res (List TS)
  | 0, _ => .loop
  | fuel + 1, s => do
    let s ← stdTest c K Q tf s
    let more ← needMore c s
    if more then do
      let l ← execLoop c K Q tf fuel s
      .ok (s :: l)
    else .ok [s]

/-- `execute_test`, run_test.c:41-140 (reseeding, 56-70, is not part of this model). -/
def executeTest (c : Cfg) (d : Dtest) (K Q : Nat → ℚ → ℚ) (tf : Nat → Nat → ℚ) (fuel : Nat) : Res (List TS) := do
  let s ← createTest c d
  execLoop c K Q tf fuel s

/-- The three assessments. -/
inductive Grade where
  | failed
  | weak
  | passed
  deriving DecidableEq, Repr

/-- The assessment of a summary p-value, output.c:498-516. -/
def assess (Xfail Xweak p : ℚ) : Grade :=
  if p < Xfail ∨ p > 1 - Xfail then .failed
  else if p < Xweak ∨ p > 1 - Xweak then .weak
  else .passed

end Dh
