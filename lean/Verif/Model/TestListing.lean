import Verif.Model.Listing
/-
Model of the table of tests (dieharder_test_types.c) and of its listing (list_tests.c).
-/
namespace Dh

/-- `ADD_TEST(t)`, dieharder_test_types.h:41, for a sequence of tests.  The table holds `name` and `sname`. -/
def addTestRecs : List (List Char × List Char) → List (Option (List Char × List Char)) → Nat →
    Res (List (Option (List Char × List Char)) × Nat)
  | [], t, i => .ok (t, i)
  | r :: rs, t, i => if i = 1000 then .ub else do
    let t ← wr t i (some r)
    addTestRecs rs t (i + 1)

/-- The diehard tests, dieharder_test_types.c:43-98; the two names: lines 11-12 of the header of each test. -/
def diehardRecs : List (List Char × List Char) := [
  ("Diehard Birthdays Test".toList, "diehard_birthdays".toList),
  ("Diehard OPERM5 Test".toList, "diehard_operm5".toList),
  ("Diehard 32x32 Binary Rank Test".toList, "diehard_rank_32x32".toList),
  ("Diehard 6x8 Binary Rank Test".toList, "diehard_rank_6x8".toList),
  ("Diehard Bitstream Test".toList, "diehard_bitstream".toList),
  ("Diehard OPSO".toList, "diehard_opso".toList),
  ("Diehard OQSO Test".toList, "diehard_oqso".toList),
  ("Diehard DNA Test".toList, "diehard_dna".toList),
  ("Diehard Count the 1s (stream) Test".toList, "diehard_count_1s_stream".toList),
  ("Diehard Count the 1s Test (byte)".toList, "diehard_count_1s_byte".toList),
  ("Diehard Parking Lot Test".toList, "diehard_parking_lot".toList),
  ("Diehard Minimum Distance (2d Circle) Test".toList, "diehard_2dsphere".toList),
  ("Diehard 3d Sphere (Minimum Distance) Test".toList, "diehard_3dsphere".toList),
  ("Diehard Squeeze Test".toList, "diehard_squeeze".toList),
  ("Diehard Sums Test".toList, "diehard_sums".toList),
  ("Diehard Runs Test".toList, "diehard_runs".toList),
  ("Diehard Craps Test".toList, "diehard_craps".toList),
  ("Marsaglia and Tsang GCD Test".toList, "marsaglia_tsang_gcd".toList)]

/-- The STS tests, dieharder_test_types.c:106-115; the names as above. -/
def stsRecs : List (List Char × List Char) := [
  ("STS Monobit Test".toList, "sts_monobit".toList),
  ("STS Runs Test".toList, "sts_runs".toList),
  ("STS Serial Test (Generalized)".toList, "sts_serial".toList)]

/-- The other tests, dieharder_test_types.c:121-157; the names as above (rgb_lagged_sums.h:26-27). -/
def otherRecs : List (List Char × List Char) := [
  ("RGB Bit Distribution Test".toList, "rgb_bitdist".toList),
  ("RGB Generalized Minimum Distance Test".toList, "rgb_minimum_distance".toList),
  ("RGB Permutations Test".toList, "rgb_permutations".toList),
  ("RGB Lagged Sum Test".toList, "rgb_lagged_sum".toList),
  ("RGB Kolmogorov-Smirnov Test Test".toList, "rgb_kstest_test".toList),
  ("Byte Distribution".toList, "dab_bytedistrib".toList),
  ("DAB DCT".toList, "dab_dct".toList),
  ("DAB Fill Tree Test".toList, "dab_filltree".toList),
  ("DAB Fill Tree 2 Test".toList, "dab_filltree2".toList),
  ("DAB Monobit 2 Test".toList, "dab_monobit2".toList),
  ("DAB Diehard Birthdays Test".toList, "dab_birthdays1".toList),
  ("DAB OPSO2".toList, "dab_opso2".toList)]

/-- `dieharder_test_types`, dieharder_test_types.c:30-175: the table.  `add_ui_tests` is not called by the program. -/
def testRecs : Res (List (Option (List Char × List Char))) := do
  let (t, _) ← addTestRecs diehardRecs (List.replicate 1000 none) 0
  let (t, _) ← addTestRecs stsRecs t 100
  let (t, _) ← addTestRecs otherRecs t 200
  .ok t

/-- `%12s`, `%30s`, `%40s`, `%10s`. -/
def fmtRight (w : Nat) (s : List Char) : List Char := List.replicate (w - s.length) ' ' ++ s

/-- One entry, list_tests.c:30-37. -/
def listTest (i : Nat) (name : List Char) : List Char :=
  "  -d ".toList ++ (Nat.toDigits 10 i ++ (' ' :: ' ' :: '\t' :: (fmtRight 40 name ++
    (if i = 5 ∨ i = 6 ∨ i = 7 then '\t' :: (fmtRight 10 "Suspect".toList ++ ['\n'])
     else if i = 14 then '\t' :: (fmtRight 10 "Do Not Use".toList ++ ['\n'])
     else '\t' :: (fmtRight 10 "Good".toList ++ ['\n'])))))

/-- The loop, list_tests.c:28-40: `todo = 900 - i`. -/
def listTestLoop (t : List (Option (List Char × List Char))) : (todo i : Nat) → Res (List Char)
  | 0, _ => .ok []
  | todo + 1, i => do
    let e ← rd t i
    let r ← listTestLoop t todo (i + 1)
    match e with
    | some (name, _) => .ok (listTest i name ++ r)
    | none => .ok r

/-- `list_tests`, list_tests.c:17-42: what is printed. -/
def listTests (version : List Char) : Res (List Char) := do
  let t ← testRecs
  let b ← listTestLoop t 900 0
  .ok (dhHeader version ++ ("Installed dieharder tests:\n".toList ++
    (fmtRight 12 "Test Number".toList ++ '\t' :: (fmtRight 30 "Test Name".toList ++ '\t' :: (fmtRight 30 "Test Reliability".toList ++ '\n' ::
      (List.replicate 79 '=' ++ '\n' :: b))))))

end Dh
