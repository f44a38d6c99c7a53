import Verif.Model.TestListing
import Verif.Props.Listing
import Verif.Props.Cli
/-
Property C113: the listing of the tests, what -d accepts, and what -a runs.
-/
namespace Dh

namespace Spec

/-- The tests: number, name in the listing, name for -d. -/
def catalogue : List (Nat × List Char × List Char) := [
  (0, "Diehard Birthdays Test".toList, "diehard_birthdays".toList),
  (1, "Diehard OPERM5 Test".toList, "diehard_operm5".toList),
  (2, "Diehard 32x32 Binary Rank Test".toList, "diehard_rank_32x32".toList),
  (3, "Diehard 6x8 Binary Rank Test".toList, "diehard_rank_6x8".toList),
  (4, "Diehard Bitstream Test".toList, "diehard_bitstream".toList),
  (5, "Diehard OPSO".toList, "diehard_opso".toList),
  (6, "Diehard OQSO Test".toList, "diehard_oqso".toList),
  (7, "Diehard DNA Test".toList, "diehard_dna".toList),
  (8, "Diehard Count the 1s (stream) Test".toList, "diehard_count_1s_stream".toList),
  (9, "Diehard Count the 1s Test (byte)".toList, "diehard_count_1s_byte".toList),
  (10, "Diehard Parking Lot Test".toList, "diehard_parking_lot".toList),
  (11, "Diehard Minimum Distance (2d Circle) Test".toList, "diehard_2dsphere".toList),
  (12, "Diehard 3d Sphere (Minimum Distance) Test".toList, "diehard_3dsphere".toList),
  (13, "Diehard Squeeze Test".toList, "diehard_squeeze".toList),
  (14, "Diehard Sums Test".toList, "diehard_sums".toList),
  (15, "Diehard Runs Test".toList, "diehard_runs".toList),
  (16, "Diehard Craps Test".toList, "diehard_craps".toList),
  (17, "Marsaglia and Tsang GCD Test".toList, "marsaglia_tsang_gcd".toList),
  (100, "STS Monobit Test".toList, "sts_monobit".toList),
  (101, "STS Runs Test".toList, "sts_runs".toList),
  (102, "STS Serial Test (Generalized)".toList, "sts_serial".toList),
  (200, "RGB Bit Distribution Test".toList, "rgb_bitdist".toList),
  (201, "RGB Generalized Minimum Distance Test".toList, "rgb_minimum_distance".toList),
  (202, "RGB Permutations Test".toList, "rgb_permutations".toList),
  (203, "RGB Lagged Sum Test".toList, "rgb_lagged_sum".toList),
  (204, "RGB Kolmogorov-Smirnov Test Test".toList, "rgb_kstest_test".toList),
  (205, "Byte Distribution".toList, "dab_bytedistrib".toList),
  (206, "DAB DCT".toList, "dab_dct".toList),
  (207, "DAB Fill Tree Test".toList, "dab_filltree".toList),
  (208, "DAB Fill Tree 2 Test".toList, "dab_filltree2".toList),
  (209, "DAB Monobit 2 Test".toList, "dab_monobit2".toList),
  (210, "DAB Diehard Birthdays Test".toList, "dab_birthdays1".toList),
  (211, "DAB OPSO2".toList, "dab_opso2".toList)]

/-- The reliability printed in the listing. -/
def reliability (i : Nat) : String := if i ∈ [5, 6, 7] then "Suspect" else if i = 14 then "Do Not Use" else "Good"

/-- A text at the right of a column of `w` characters. -/
def atRight (w : Nat) (s : List Char) : List Char := List.replicate (w - s.length) ' ' ++ s

/-- The line of a test. -/
def testLine (e : Nat × List Char × List Char) : List Char :=
  "  -d ".toList ++ (toString e.1).toList ++ "  \t".toList ++ atRight 40 e.2.1 ++ "\t".toList ++ atRight 10 (reliability e.1).toList

/-- The lines of the listing. -/
def testLines (version : List Char) : List (List Char) :=
  [ruleLine,
   '#' :: (List.replicate ((30 - version.length) / 2) ' ' ++ ("dieharder version ".toList ++ (version ++
     (" Copyright 2003 Robert G. Brown".toList ++ (List.replicate (28 - version.length - (30 - version.length) / 2) ' ' ++ ['#']))))),
   ruleLine,
   "Installed dieharder tests:".toList,
   " Test Number\t                     Test Name\t              Test Reliability".toList,
   List.replicate 79 '='] ++ catalogue.map testLine

end Spec
open Spec

/-- Consecutive numbers from `i` on. -/
def numberedFrom {α : Type} (i : Nat) : List α → List (Nat × α)
  | [] => []
  | r :: rs => (i, r) :: numberedFrom (i + 1) rs

set_option maxRecDepth 100000 in
theorem catalogue_eq : catalogue = numberedFrom 0 diehardRecs ++ (numberedFrom 100 stsRecs ++ numberedFrom 200 otherRecs) := by decide +kernel

/-- The table as it is after `dieharder_test_types`. -/
def testTable : List (Option (List Char × List Char)) :=
  (List.range 1000).map fun i => (catalogue.find? fun e => e.1 = i).map Prod.snd

theorem addTestRecs_eq : ∀ (l : List (List Char × List Char)) (t : List (Option (List Char × List Char))) (i : Nat),
    t.length = 1000 → i + l.length < 1000 → ∃ t', addTestRecs l t i = .ok (t', i + l.length) ∧ t'.length = 1000 ∧
      ∀ k, t'[k]? = if i ≤ k ∧ k < i + l.length then some l[k - i]? else t[k]?
  | [], t, i, ht, _ => ⟨t, rfl, ht, fun k => by rw [if_neg]; simp only [List.length_nil]; omega⟩
  | r :: rs, t, i, ht, h => by
    rw [List.length_cons] at h
    obtain ⟨t', h1, h2, h3⟩ := addTestRecs_eq rs (t.set i (some r)) (i + 1) (by rw [List.length_set, ht]) (by omega)
    refine ⟨t', ?_, h2, fun k => ?_⟩
    · rw [addTestRecs, if_neg (by omega), wr_at _ _ _ (by omega), Res.bind_ok, h1, List.length_cons, Nat.add_assoc, Nat.add_comm 1]
    · rw [h3, List.length_cons]
      by_cases hk : k = i
      · subst hk
        rw [if_neg (by omega), if_pos (by omega), List.getElem?_set_self (by omega), Nat.sub_self]
        rfl
      · by_cases hk2 : i + 1 ≤ k ∧ k < i + 1 + rs.length
        · rw [if_pos hk2, if_pos (by omega), show k - i = (k - (i + 1)) + 1 by omega, List.getElem?_cons_succ]
        · rw [if_neg hk2, if_neg (by omega), List.getElem?_set_ne (by omega)]

theorem find_numbered {α : Type} (k : Nat) : ∀ (l : List α) (i : Nat),
    ((numberedFrom i l).find? fun e => e.1 = k).map Prod.snd = if i ≤ k then l[k - i]? else none
  | [], i => by simp [numberedFrom]
  | r :: rs, i => by
    rw [numberedFrom, List.find?_cons]
    by_cases hk : i = k
    · subst hk
      simp
    · rw [decide_eq_false (by exact hk)]
      simp only
      rw [find_numbered k rs (i + 1)]
      by_cases h : i ≤ k
      · rw [if_pos (by omega), if_pos h, show k - i = (k - (i + 1)) + 1 by omega, List.getElem?_cons_succ]
      · rw [if_neg (by omega), if_neg h]

theorem testTable_at {i : Nat} (hi : i < 1000) : testTable[i]? = some ((catalogue.find? fun e => e.1 = i).map Prod.snd) := by
  rw [testTable, List.getElem?_map, List.getElem?_range hi]
  rfl

theorem recs_length : diehardRecs.length = 18 ∧ stsRecs.length = 3 ∧ otherRecs.length = 12 := ⟨rfl, rfl, rfl⟩

theorem testRecs_eq : testRecs = .ok testTable := by
  obtain ⟨l1, l2, l3⟩ := recs_length
  obtain ⟨t1, h1, g1, e1⟩ := addTestRecs_eq diehardRecs (List.replicate 1000 none) 0 (by rw [List.length_replicate]) (by omega)
  obtain ⟨t2, h2, g2, e2⟩ := addTestRecs_eq stsRecs t1 100 g1 (by omega)
  obtain ⟨t3, h3, g3, e3⟩ := addTestRecs_eq otherRecs t2 200 g2 (by omega)
  rw [testRecs, h1, Res.bind_ok]
  simp only
  rw [h2, Res.bind_ok]
  simp only
  rw [h3, Res.bind_ok]
  refine congrArg Res.ok ?_
  have hl : testTable.length = 1000 := by rw [testTable, List.length_map, List.length_range]
  refine List.ext_getElem? fun k => ?_
  by_cases hk : k < 1000
  · rw [testTable_at hk, catalogue_eq, List.find?_append, List.find?_append, Option.map_or, Option.map_or, find_numbered, find_numbered,
      find_numbered, e3, e2, e1, l1, l2, l3, List.getElem?_replicate, if_pos hk]
    by_cases k1 : k < 18
    · rw [if_neg (by omega), if_neg (by omega), if_pos (by omega), if_pos (by omega), List.getElem?_eq_getElem (by omega)]
      rfl
    · rw [if_pos (Nat.zero_le k), List.getElem?_eq_none (by omega : diehardRecs.length ≤ k - 0), Option.none_or]
      by_cases k2 : 100 ≤ k ∧ k < 103
      · rw [if_neg (by omega), if_pos (by omega), if_pos (by omega), List.getElem?_eq_getElem (by omega)]
        rfl
      · by_cases k3 : 200 ≤ k ∧ k < 212
        · rw [if_pos (by omega), if_pos (by omega), if_pos (by omega), List.getElem?_eq_none (by omega : stsRecs.length ≤ k - 100), Option.none_or]
        · rw [if_neg (by omega), if_neg (by omega), if_neg (by omega)]
          refine congrArg some ?_
          split
          · rw [List.getElem?_eq_none (by omega), Option.none_or]
            split
            · rw [List.getElem?_eq_none (by omega)]
            · rfl
          · rw [if_neg (by omega)]
            rfl
  · rw [List.getElem?_eq_none (by show t3.length ≤ k; omega), List.getElem?_eq_none (by omega)]

theorem listTestLoop_gen (t : List (Option (List Char × List Char))) : ∀ (todo i : Nat), i + todo ≤ t.length →
    listTestLoop t todo i = .ok ((List.range' i todo).flatMap fun j => (t[j]?.join).elim [] fun e => listTest j e.1)
  | 0, i, _ => rfl
  | todo + 1, i, h => by
    rw [listTestLoop, rd_ok (by omega : i < t.length), Res.bind_ok, listTestLoop_gen t todo (i + 1) (by omega), Res.bind_ok,
      List.range'_succ, List.flatMap_cons, List.getElem?_eq_getElem (by omega : i < t.length)]
    cases t[i] with
    | none => rfl
    | some e => rfl

set_option maxRecDepth 100000 in
theorem listTestLoop_eq : listTestLoop testTable 900 0 = .ok (linesText (catalogue.map testLine)) := by
  rw [listTestLoop_gen _ _ _ (by rw [testTable, List.length_map, List.length_range]; omega)]
  refine congrArg Res.ok ?_
  have h : ∀ l : List Nat, (∀ j ∈ l, j < 1000) → (l.flatMap fun j => (testTable[j]?.join).elim [] fun e => listTest j e.1) =
      l.flatMap fun j => ((catalogue.find? fun e => e.1 = j).map Prod.snd).elim [] fun e => listTest j e.1 := by
    intro l hl
    rw [List.flatMap_def, List.flatMap_def]
    refine congrArg List.flatten (List.map_congr_left fun j hj => ?_)
    rw [testTable_at (hl j hj)]
    rfl
  rw [h _ (by intro j hj; have := (List.mem_range'_1.1 hj).2; omega)]
  decide +kernel

/-- **C113.** The listing of the tests. -/
theorem C113_listing (version : List Char) (hv : version.length ≤ 27) : listTests version = .ok (linesText (testLines version)) := by
  have h : "Installed dieharder tests:\n".toList ++ (fmtRight 12 "Test Number".toList ++ '\t' :: (fmtRight 30 "Test Name".toList ++
      '\t' :: (fmtRight 30 "Test Reliability".toList ++ '\n' :: (List.replicate 79 '=' ++ ['\n'])))) =
      linesText ["Installed dieharder tests:".toList, " Test Number\t                     Test Name\t              Test Reliability".toList,
        List.replicate 79 '='] := by decide +kernel
  rw [listTests, testRecs_eq, Res.bind_ok, listTestLoop_eq, Res.bind_ok, testLines, linesText_append, header_eq version hv]
  congr 1
  have : ∀ b : List Char, "Installed dieharder tests:\n".toList ++ (fmtRight 12 "Test Number".toList ++ '\t' :: (fmtRight 30 "Test Name".toList ++
      '\t' :: (fmtRight 30 "Test Reliability".toList ++ '\n' :: (List.replicate 79 '=' ++ '\n' :: b)))) =
      linesText ["Installed dieharder tests:".toList, " Test Number\t                     Test Name\t              Test Reliability".toList,
        List.replicate 79 '='] ++ b := by
    intro b
    rw [← h]
    simp only [List.append_assoc, List.cons_append, List.nil_append]
  rw [this, ← List.append_assoc, ← linesText_append]
  rfl

/-- The short names, by number: what `run_test` looks at. -/
def testNames : List (Option (List Char)) := testTable.map fun e => e.map Prod.snd

set_option maxRecDepth 100000 in
theorem testNames_length : testNames.length = 1000 := by decide +kernel

set_option maxRecDepth 100000 in
theorem testNames_at : ∀ i < 1000, testNames[i]? = some ((catalogue.find? fun e => e.1 = i).map fun e => e.2.2) := by
  intro i hi
  rw [testNames, testTable, List.map_map, List.getElem?_map, List.getElem?_range hi]
  simp [Function.comp_def]

set_option maxRecDepth 100000 in
theorem catalogue_lt : ∀ e ∈ catalogue, e.1 < 212 ∧ testNames[e.1]? = some (some e.2.2) := by decide +kernel

theorem testNames_some {i : Nat} {nm : List Char} (h : testNames[i]? = some (some nm)) : ∃ l, (i, l, nm) ∈ catalogue := by
  have hi : i < 1000 := by rw [← testNames_length]; exact (List.getElem?_eq_some_iff.1 h).1
  rw [testNames_at i hi, Option.some.injEq, Option.map_eq_some_iff] at h
  obtain ⟨⟨j, l, s⟩, h1, rfl⟩ := h
  have h2 := List.mem_of_find?_eq_some h1
  have h3 := List.find?_some h1
  simp only [decide_eq_true_eq] at h3
  exact ⟨l, h3 ▸ h2⟩

set_option maxRecDepth 100000 in
/-- The short names are different, and none is the long name of a test. -/
theorem catalogue_names : (∀ e ∈ catalogue, ∀ f ∈ catalogue, e.2.2 = f.2.2 → e.1 = f.1) ∧
    ∀ e ∈ catalogue, (∀ f ∈ catalogue, e.2.2 ≠ f.2.1) ∧ e.2.1.length < 127 ∧ e.2.2.length < 127 := by decide +kernel

theorem catalogue_isName : ∀ e ∈ catalogue, IsName e.2.1 ∧ IsName e.2.2 := by
  have hall : ∀ e ∈ catalogue, ∀ nm ∈ [e.2.1, e.2.2], (match nm with
      | [] => false
      | c :: _ => decide (cSpace c = false ∧ c ≠ '-' ∧ c ≠ '+' ∧ c.isDigit = false)) = true := by
    set_option maxRecDepth 100000 in decide +kernel
  have key : ∀ e ∈ catalogue, ∀ nm ∈ [e.2.1, e.2.2], IsName nm := by
    intro e he nm hnm
    have h1 := hall e he nm hnm
    cases nm with
    | nil => simp at h1
    | cons c l =>
      simp only [decide_eq_true_eq] at h1
      exact name_of_head h1
  exact fun e he => ⟨key e he _ (by simp), key e he _ (by simp)⟩

theorem gArgs_snoc (x : List Char) (opts : List SelOpt) : gArgs (opts ++ [.d x]) = gArgs opts := by simp [gArgs]
theorem sArgs_snoc (x : List Char) (opts : List SelOpt) : sArgs (opts ++ [.d x]) = sArgs opts := by simp [sArgs]
theorem dArgs_snoc (x : List Char) (opts : List SelOpt) : dArgs (opts ++ [.d x]) = dArgs opts ++ [x] := by simp [dArgs]

theorem rngChoice_snoc (rngs : List (Option (List Char))) (x : List Char) (opts : List SelOpt) (g : Nat) :
    RngChoice rngs (opts ++ [.d x]) g ↔ RngChoice rngs opts g := by
  have hf : HasFile (opts ++ [.d x]) ↔ HasFile opts := by
    simp [HasFile]
  simp only [RngChoice, RngNumber, gArgs_snoc, hf]

/-- The test chosen by a final `-d` with a number. -/
theorem testChoice_number (tests : List (Option (List Char))) (opts : List SelOpt) (i : Nat) (hi : i < 2147483648) {arg : List Char}
    (h3 : IsNumber arg (BitVec.ofNat 32 i)) (t : Nat) :
    TestChoice tests (opts ++ [.d arg]) t ↔ t = i ∧ ∃ nm, tests[i]? = some (some nm) := by
  rw [TestChoice, dArgs_snoc]
  have hl : ∀ x, LastNumber (dArgs opts ++ [arg]) x ↔ x = BitVec.ofNat 32 i := by
    intro x
    rw [lastNumber_iff, List.filterMap_append, List.filterMap_cons, kind_number h3]
    simp
  obtain ⟨a, ha⟩ : ∃ a, LastName (dArgs opts ++ [arg]) a := ⟨_, (lastName_iff _ _).2 rfl⟩
  have hx : (BitVec.ofNat 32 i).toNat = i := by rw [BitVec.toNat_ofNat, Nat.mod_eq_of_lt (by omega)]
  constructor
  · rintro ⟨x, a', h1, -, h2⟩
    rw [hl] at h1
    rw [h1, hx, if_pos (by omega)] at h2
    obtain ⟨rfl, h4⟩ := h2
    exact ⟨rfl, h4⟩
  · rintro ⟨rfl, h4⟩
    exact ⟨_, a, (hl _).2 rfl, ha, by rw [hx, if_pos (by omega)]; exact ⟨rfl, h4⟩⟩

/-- The number as the listing writes it. -/
theorem listed_number : ∀ e ∈ catalogue, IsNumber (toString e.1).toList (BitVec.ofNat 32 e.1) := by
  intro e he
  have hd : ∀ e ∈ catalogue, (∀ c ∈ (toString e.1).toList, c.isDigit = true) ∧ (toString e.1).toList ≠ [] ∧
      Nat.ofDigits 10 ((toString e.1).toList.map fun c => c.toNat - 48).reverse = e.1 ∧ e.1 < 1000 := by
    set_option maxRecDepth 100000 in decide +kernel
  obtain ⟨h1, h2, h3, h4⟩ := hd e he
  obtain ⟨s, hs⟩ : ∃ s, s = (toString e.1).toList := ⟨_, rfl⟩
  rw [← hs] at h1 h2 h3 ⊢
  refine ⟨e.1, [], ⟨[], [], s, by simp, by simp, h2, h1, by simp, Or.inl ⟨Or.inl rfl, by rw [h3]⟩⟩,
    by simpa [List.head?_eq_none_iff] using h2, ?_⟩
  rw [if_neg (by omega), if_neg (by omega)]
  rfl

/-- The test chosen by a final `-d` with a name, if no number was given. -/
theorem testChoice_name (tests : List (Option (List Char))) (opts : List SelOpt) (nm : List Char) (hn : IsName nm)
    (ho : ∀ b ∈ dArgs opts, IsName b) (t : Nat) :
    TestChoice tests (opts ++ [.d nm]) t ↔ FirstNamed tests 128 (nm.take 127) t := by
  rw [TestChoice, dArgs_snoc]
  have hl : ∀ x, LastNumber (dArgs opts ++ [nm]) x ↔ x = -1 := by
    intro x
    rw [lastNumber_iff, List.filterMap_eq_nil_iff.2]
    · rfl
    · intro b hb
      rcases List.mem_append.1 hb with hb | hb
      · exact kind_name (ho b hb)
      · rw [List.mem_singleton.1 hb]; exact kind_name hn
  have ha : ∀ a, LastName (dArgs opts ++ [nm]) a ↔ a = nm := by
    intro a
    rw [lastName_iff, List.filter_append, List.filter_cons, if_pos (by rw [kind_name hn]; rfl)]
    simp
  constructor
  · rintro ⟨x, a, h1, h2, h3⟩
    rw [hl] at h1
    rw [ha] at h2
    rw [h1, if_neg (by decide), h2] at h3
    exact h3
  · intro h
    exact ⟨-1, nm, (hl _).2 rfl, (ha _).2 rfl, by rw [if_neg (by decide)]; exact h⟩

/-- **C113.** The number of every test listed, as the listing writes it or in any other way, given as the last -d, selects this
test; so does its short name, if no number is given. -/
theorem C113_accepted (rngs : List (Option (List Char))) (hr : rngs.length = 1000) (opts : List SelOpt) (hg : (gArgs opts).length ≤ 100)
    (hs : (sArgs opts).length ≤ 100) : ∃ tab, testRecs = .ok tab ∧ ∀ i nm sn, (i, nm, sn) ∈ catalogue →
    ∀ arg, (arg = (toString i).toList ∨ IsNumber arg (BitVec.ofNat 32 i)) ∨ (arg = sn ∧ ∀ b ∈ dArgs opts, IsName b) →
      ∀ g t, selectRun rngs (tab.map fun e => e.map Prod.snd) (opts ++ [.d arg]) = .ok (g, t) ↔ RngChoice rngs opts g ∧ t = i := by
  refine ⟨testTable, testRecs_eq, fun i nm sn hm arg harg g t => ?_⟩
  obtain ⟨hi, hat⟩ := catalogue_lt _ hm
  simp only at hi hat
  show selectRun rngs testNames _ = _ ↔ _
  rw [C91_selected rngs testNames hr testNames_length _ (by rw [gArgs_snoc]; exact hg) (by rw [sArgs_snoc]; exact hs), rngChoice_snoc]
  refine and_congr_right fun _ => ?_
  rcases harg with harg | ⟨rfl, ho⟩
  · have hnum : IsNumber arg (BitVec.ofNat 32 i) := by
      rcases harg with h | h
      · have := listed_number _ hm
        rw [h]
        exact this
      · exact h
    rw [testChoice_number _ _ _ (by omega) hnum]
    exact ⟨fun h => h.1, fun h => ⟨h, sn, hat⟩⟩
  · rw [testChoice_name _ _ _ (catalogue_isName _ hm).2 ho]
    have hlen := (catalogue_names.2 _ hm).2.2
    simp only at hlen
    have htk : arg.take 127 = arg := List.take_of_length_le (by omega)
    have same : ∀ {j x}, testNames[j]? = some (some x) → x.take 128 = (arg.take 127).take 128 → j = i := by
      intro j x hx he
      obtain ⟨l, hl⟩ := testNames_some hx
      have h2 := (catalogue_names.2 _ hl).2.2
      simp only at h2
      rw [htk, List.take_of_length_le (by omega), List.take_of_length_le (by omega)] at he
      exact catalogue_names.1 _ hl _ hm he
    constructor
    · rintro ⟨⟨x, hx, he⟩, -⟩
      exact same hx he
    · rintro rfl
      refine ⟨⟨arg, hat, by rw [htk]⟩, fun j hj x hx he => ?_⟩
      have := same hx he
      omega

/-- **C113.** A number below 2^31 that is not listed is refused.  The names that the listing shows are not those that -d
accepts: each of them is refused, as is every other text that is not a number and not a short name. -/
theorem C113_refused (rngs : List (Option (List Char))) (hr : rngs.length = 1000) (opts : List SelOpt) (hg : (gArgs opts).length ≤ 100)
    (hs : (sArgs opts).length ≤ 100) : ∃ tab, testRecs = .ok tab ∧
    (∀ i < 2147483648, (∀ e ∈ catalogue, e.1 ≠ i) → ∀ arg, IsNumber arg (BitVec.ofNat 32 i) →
      selectRun rngs (tab.map fun e => e.map Prod.snd) (opts ++ [.d arg]) = .exit) ∧
    ((∀ b ∈ dArgs opts, IsName b) → ∀ e ∈ catalogue,
      selectRun rngs (tab.map fun e => e.map Prod.snd) (opts ++ [.d e.2.1]) = .exit) ∧
    ((∀ b ∈ dArgs opts, IsName b) → ∀ nm, IsName nm → (∀ e ∈ catalogue, e.2.2 ≠ nm.take 127) →
      selectRun rngs (tab.map fun e => e.map Prod.snd) (opts ++ [.d nm]) = .exit) := by
  have hname : (∀ b ∈ dArgs opts, IsName b) → ∀ nm, IsName nm → (∀ e ∈ catalogue, e.2.2 ≠ nm.take 127) →
      selectRun rngs testNames (opts ++ [.d nm]) = .exit := by
    intro ho nm hn hno
    refine C91_refused rngs testNames hr testNames_length _ (by rw [gArgs_snoc]; exact hg) (by rw [sArgs_snoc]; exact hs) ?_
    rintro g t ⟨-, h⟩
    rw [testChoice_name _ _ _ hn ho] at h
    obtain ⟨⟨x, hx, he⟩, -⟩ := h
    obtain ⟨l, hl⟩ := testNames_some hx
    have h2 := (catalogue_names.2 _ hl).2.2
    simp only at h2
    rw [List.take_of_length_le (by omega), List.take_take, Nat.min_eq_right (by omega)] at he
    exact hno _ hl he
  refine ⟨testTable, testRecs_eq, fun i hi hno arg harg => ?_, fun ho e he => ?_, hname⟩
  · refine C91_refused rngs testNames hr testNames_length _ (by rw [gArgs_snoc]; exact hg) (by rw [sArgs_snoc]; exact hs) ?_
    rintro g t ⟨-, h⟩
    rw [testChoice_number _ _ _ hi harg] at h
    obtain ⟨rfl, nm, hnm⟩ := h
    obtain ⟨l, hl⟩ := testNames_some hnm
    exact hno _ hl rfl
  · refine hname ho e.2.1 (catalogue_isName e he).1 fun f hf hc => ?_
    rw [List.take_of_length_le (by have := (catalogue_names.2 e he).2.1; omega)] at hc
    exact (catalogue_names.2 f hf).1 e he hc

set_option maxRecDepth 100000 in
/-- **C113.** -a runs exactly the tests listed, whatever -n is: the three marked "Suspect" and the one marked "Do Not Use" as well. -/
theorem C113_all (ntuple : Nat) : (∀ t, (∃ p, (t, p) ∈ runAllTests testTypes ntuple) ↔ ∃ e ∈ catalogue, e.1 = t) ∧
    ∀ i ∈ [5, 6, 7, 14], reliability i ≠ "Good" ∧ ∃ p, (i, p) ∈ runAllTests testTypes ntuple := by
  have key : ∀ t, (∃ p, (t, p) ∈ runAllTests testTypes ntuple) ↔ ∃ e ∈ catalogue, e.1 = t := by
    intro t
    rw [C51_run_all testTypes ntuple (by decide) (by decide), C51_dieharder.1]
    have hc : (∃ e ∈ catalogue, e.1 = t) ↔ t ∈ catalogue.map Prod.fst := by simp [List.mem_map]
    rw [hc, show catalogue.map Prod.fst = [0, 1, 2, 3, 4, 5, 6, 7, 8, 9, 10, 11, 12, 13, 14, 15, 16, 17, 100, 101, 102, 200, 201, 202, 203, 204, 205,
      206, 207, 208, 209, 210, 211] by decide +kernel]
    have hp : ∀ t, Spec.params ntuple t ≠ [] := by
      intro t
      cases ntuple with
      | zero =>
        simp only [Spec.params]
        split_ifs <;> simp
      | succ n =>
        simp only [Spec.params]
        split_ifs <;> simp
    simp only [List.mem_flatMap, List.mem_map, Prod.mk.injEq]
    constructor
    · rintro ⟨p, u, hu, q, hq, rfl, rfl⟩
      exact hu
    · intro h
      obtain ⟨q, hq⟩ := List.exists_mem_of_ne_nil _ (hp t)
      exact ⟨q, t, h, q, hq, rfl, rfl⟩
  refine ⟨key, fun i hi => ⟨?_, (key i).2 ?_⟩⟩
  · revert i; decide +kernel
  · revert i; decide +kernel

set_option maxRecDepth 100000 in
/-- The line of test 14, and two generators of `dieharder -d`. -/
example : testLine (14, "Diehard Sums Test".toList, "diehard_sums".toList) = "  -d 14  \t                       Diehard Sums Test\tDo Not Use".toList ∧
    (14, "Diehard Sums Test".toList, "diehard_sums".toList) ∈ catalogue := by decide +kernel

/-- -d 600 (a "user" test of the documentation) and -d 18 are refused. -/
example : ∀ i ∈ [18, 103, 212, 600, 899], ∀ e ∈ catalogue, e.1 ≠ i := by decide +kernel

end Dh
