import Verif.Model.TestListing
import Verif.Model.Listing
import Verif.Model.StdTest
import Mathlib.Data.Rat.Floor
/-
The report, dieharder/output.c: the text written to the standard output.
-/
namespace Dh

/-- The globals that do not change after the command line has been read.  `rate` and `rateWide` are the texts of `%.2e` and `%10.2e` for
`rng_rands_per_second`; `fmtP p` is the text of `%10.8f`. -/
structure RepCfg where
  version : List Char
  tflag : UInt
  sep : Char
  strategy : Bool
  fromfile : Bool
  rngName : List Char
  filename : List Char
  generator : Int
  rate : List Char
  rateWide : List Char
  fmtP : ℚ → List Char
  Xfail : ℚ
  Xweak : ℚ
  psamples : Nat

/-- One p-value of a test, `test[i]`. -/
structure RepRow where
  ntuple : UInt
  ks : ℚ
  pvalues : List ℚ

/-- What `output` sees of a test: its number, name and description; the seed; `test[0]->tsamples` and `test[0]->psamples`; the counters of
the file generators; the p-values. -/
structure RepTest where
  num : Int
  sname : List Char
  descr : List Char
  seed : Nat
  tsamples : Nat
  psamples : Nat
  rtot : Nat
  rewinds : Nat
  rows : List RepRow

/-- `tflag & m`. -/
def RepCfg.on (c : RepCfg) (m : UInt) : Bool := (c.tflag &&& m) ≠ 0

/-- `%d`. -/
def fmtInt (i : Int) : List Char := if i < 0 then '-' :: Nat.toDigits 10 i.natAbs else Nat.toDigits 10 i.natAbs

/-- One field of a table line: `if(tflag & ...) { if(field) print separator; print text; field++; }`. -/
def putField (sep : Char) (on : Bool) (txt : List Char) (s : List Char × Nat) : List Char × Nat :=
  if on then ((if s.2 ≠ 0 then s.1 ++ [sep] else s.1) ++ txt, s.2 + 1) else s

/-- output.c:224 and so on. -/
def repRule : List Char := '#' :: (List.replicate 77 '=' ++ ['#', '\n'])

/-- `output_rng_info`, output.c:147-226. -/
def rngInfo (c : RepCfg) (seed : Nat) : List Char :=
  let nw := c.on 32768
  let put (on : Bool) (txt : List Char) : List Char := if on then txt ++ [c.sep] else []
  let seedOn := c.on 4096 && !c.strategy && !c.fromfile
  (if c.on 4 then
    put (c.on 512) ['0'] ++
    put true (if nw then "rng_name".toList else fmtRight 15 "rng_name    ".toList) ++
    put (c.on 16384) "num".toList ++
    put c.fromfile (if nw then "filename".toList else fmtRight 32 "filename             ".toList) ++
    put (c.on 8192) "rands/second".toList ++
    put seedOn (if nw then "Seed".toList else fmtRight 10 "Seed   ".toList) ++ ['\n'] else []) ++
  put (c.on 512) ['1'] ++
  put true (if nw then c.rngName else fmtRight 15 c.rngName) ++
  put (c.on 16384) (if nw then fmtInt c.generator else fmtRight 3 (fmtInt c.generator)) ++
  put c.fromfile (if nw then c.filename else fmtRight 32 c.filename) ++
  put (c.on 8192) (if nw then c.rate else c.rateWide ++ "  ".toList) ++
  put seedOn (if nw then Nat.toDigits 10 seed else fmtRight 10 (Nat.toDigits 10 seed)) ++ ['\n']

/-- The fields of `output_table_line_header`, output.c:228-340. -/
def headFields (c : RepCfg) : List Char × Nat :=
  let nw := c.on 32768
  let s : List Char × Nat := if c.on 512 then (['0'], 1) else ([], 0)
  let s := putField c.sep (c.on 8) (if nw then "test_name".toList else fmtRight 20 "test_name   ".toList) s
  let s := putField c.sep (c.on 16384) "num".toList s
  let s := putField c.sep (c.on 16) "ntup".toList s
  let s := putField c.sep (c.on 32) (if nw then "tsamples".toList else fmtRight 10 " tsamples ".toList) s
  let s := putField c.sep (c.on 64) "psamples".toList s
  let s := putField c.sep (c.on 128) (if nw then "p-value".toList else fmtRight 10 "p-value ".toList) s
  let s := putField c.sep (c.on 256) "Assessment".toList s
  putField c.sep (c.on 4096 && c.strategy) (if nw then "Seed".toList else fmtRight 10 "Seed  ".toList) s

/-- `output_table_line_header`. -/
def tableHeader (c : RepCfg) : List Char :=
  (if c.on 1 then repRule else []) ++ ((headFields c).1 ++ ('\n' :: if c.on 1 then repRule else []))

/-- The text of the assessment, output.c:498-516. -/
def gradeText (nw : Bool) : Grade → List Char
  | .failed => if nw then "FAILED".toList else fmtRight 10 "FAILED  ".toList
  | .weak => if nw then "WEAK".toList else fmtRight 10 "WEAK   ".toList
  | .passed => if nw then "PASSED".toList else fmtRight 10 "PASSED  ".toList

/-- The fields of one line, output.c:384-529.  `%d` of the unsigned `ntuple` shows it as a signed number. -/
def rowFields (c : RepCfg) (t : RepTest) (r : RepRow) : List Char × Nat :=
  let nw := c.on 32768
  let pad (w : Nat) (s : List Char) : List Char := if nw then s else fmtRight w s
  let s : List Char × Nat := if c.on 512 then (['2'], 1) else ([], 0)
  let s := putField c.sep (c.on 8) (if nw then t.sname else fmtRight 20 (t.sname.take 20)) s
  let s := putField c.sep (c.on 16384) (pad 3 (fmtInt t.num)) s
  let s := putField c.sep (c.on 16) (pad 4 (fmtInt r.ntuple.toInt)) s
  let s := putField c.sep (c.on 32) (pad 10 (Nat.toDigits 10 t.tsamples)) s
  let s := putField c.sep (c.on 64) (pad 8 (Nat.toDigits 10 t.psamples)) s
  let s := putField c.sep (c.on 128) (c.fmtP r.ks) s
  let s := putField c.sep (c.on 256) (gradeText nw (assess c.Xfail c.Xweak r.ks)) s
  putField c.sep (c.on 4096 && c.strategy) (pad 10 (Nat.toDigits 10 t.seed)) s

/-- The listing of the p-values, output.c:531-540. -/
def psampleVals (c : RepCfg) (r : RepRow) : List Char :=
  '\n' :: (repRule ++ ("#                          Values of test p-values                            #\n".toList ++ (repRule ++
    ((r.pvalues.flatMap fun p => c.sep :: (c.fmtP p ++ [c.sep, '\n'])) ++ repRule))))

/-- `(int)` of a double: truncation toward zero, undefined outside the range of `int`. -/
def truncInt (x : ℚ) : Res Int :=
  let i : Int := if 0 ≤ x then ⌊x⌋ else ⌈x⌉
  if -2147483648 ≤ i ∧ i ≤ 2147483647 then .ok i else .ub

/-- The loop that fills the bins, output.c:594-602; the bin size is `(1.0 - 0.0)/10`. -/
def histBins : List ℚ → List Nat → Nat → Res (List Nat × Nat)
  | [], bin, binmax => .ok (bin, binmax)
  | x :: xs, bin, binmax => do
    let h ← truncInt (x / (1 / 10))
    let h : Int := if h < 0 then 0 else h
    let h : Int := if h ≥ 10 then 9 else h
    let b ← rd bin h.toNat
    let bin ← wr bin h.toNat (b + 1)
    histBins xs bin (if b + 1 > binmax then b + 1 else binmax)

/-- The loop that finds the scale, output.c:614-617. -/
def histScale (binmax : Nat) : (fuel vscale : Nat) → Res Nat
  | 0, _ => .loop
  | fuel + 1, vscale => if binmax ≥ 20 * vscale then histScale binmax fuel (vscale + 1) else .ok vscale

/-- One line of the picture, output.c:624-639. -/
def histLine (bin : List Nat) (vscale i : Nat) : List Char :=
  (if i % 2 = 0 then "#  ".toList ++ fmtRight 5 (Nat.toDigits 10 (i * vscale)) ++ ['|'] else "#       |".toList) ++
  (bin.flatMap fun b => if b ≥ i * vscale then "****|".toList else "    |".toList) ++ ['\n']

/-- `output_histogram`, output.c:557-650, as it is called (0.0, 1.0, 10): `psamples` is the global one. -/
def outputHistogram (psamples : Nat) (input : List ℚ) : Res (List Char) := do
  let (bin, binmax) ← histBins input (List.replicate 10 0) 0
  let vscale ← histScale binmax (binmax + 2) ((psamples + 99) / 100)
  .ok (repRule ++ ("#                         Histogram of test p-values                          #\n".toList ++ (repRule ++
    ("# Bin scale = 0.100000\n".toList ++ (((List.range 20).flatMap fun k => histLine bin vscale (20 - k)) ++
    ("#       |--------------------------------------------------\n".toList ++
    ("#       | 0.1| 0.2| 0.3| 0.4| 0.5| 0.6| 0.7| 0.8| 0.9| 1.0|\n".toList ++ repRule)))))))

/-- The loop over the p-values of a test, output.c:366-549. -/
def tableRows (c : RepCfg) (t : RepTest) : List RepRow → Res (List Char)
  | [] => .ok []
  | r :: rs => do
    let hist ← (if c.on 2048 then do
        let h ← outputHistogram c.psamples r.pvalues
        .ok (h ++ if c.on 4 then tableHeader c else [])
      else .ok [] : Res (List Char))
    let rest ← tableRows c t rs
    .ok (hist ++ ((rowFields c t r).1 ++ ((if c.on 65536 then psampleVals c r else []) ++ '\n' :: rest)))

/-- `output_table_line`, output.c:349-551. -/
def tableLines (c : RepCfg) (t : RepTest) : Res (List Char) := do
  let rows ← tableRows c t t.rows
  .ok ((if c.on 1024 then t.descr else []) ++ rows)

/-- The note on the file generators, output.c:85-103. -/
def fileNote (c : RepCfg) (t : RepTest) : List Char :=
  if "file_input".toList.isPrefixOf c.rngName && c.on 131072 then
    (if "file_input_raw".toList.isPrefixOf c.rngName then
      "# The ".toList ++ c.filename ++ [' '] ++ c.rngName ++ [' '] ++ Nat.toDigits 10 t.rtot ++ " rands (".toList ++ Nat.toDigits 10 (t.rtot * 4) ++
        " bytes) were used\n".toList
    else "# The file ".toList ++ c.filename ++ [' '] ++ c.rngName ++ [' '] ++ Nat.toDigits 10 t.rtot ++ " rands were used\n".toList) ++
    (if t.rewinds = 0 then "# The file ".toList ++ c.rngName ++ " was rewound 0 times\n".toList else [])
  else []

/-- What is printed in the first call only, output.c:41-74. -/
def repPreamble (c : RepCfg) (t : RepTest) : List Char :=
  (if c.on 1 then dhHeader c.version else []) ++ ((if c.on 2 then rngInfo c t.seed else []) ++
    if c.on 4 && !c.on 2048 then tableHeader c else [])

/-- `output`, output.c:19-116, called for each test in turn; `first` is `firstcall`. -/
def reportCalls (c : RepCfg) : (first : Bool) → List RepTest → Res (List Char)
  | _, [] => .ok []
  | first, t :: ts => do
    let lines ← tableLines c t
    let rest ← reportCalls c false ts
    .ok ((if first then repPreamble c t else []) ++ (fileNote c t ++ (lines ++ rest)))

end Dh
