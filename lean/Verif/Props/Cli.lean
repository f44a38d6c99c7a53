import Verif.Model.Cli
/-
C49, C51: output fields, running all tests.
-/
set_option linter.unusedSimpArgs false
namespace Dh
namespace Spec

/-- The report fields and their flags, output.h:7-27. -/
def fieldFlags : List (String × Nat) :=
  [("header", 1), ("show_rng", 2), ("line_header", 4), ("test_name", 8), ("ntuple", 16), ("tsamples", 32), ("psamples", 64),
    ("pvalues", 128), ("assessment", 256), ("prefix", 512), ("description", 1024), ("histogram", 2048), ("seed", 4096),
    ("rate", 8192), ("show_num", 16384), ("no_whitespace", 32768), ("psample_values", 65536), ("file_rng_stat", 131072)]

/-- The field with flag `2 ^ j` is switched on. -/
def On (tflag : UInt) (j : Nat) : Prop := tflag.toNat.testBit j = true

end Spec

/-! ### C49 -/

/-- Every field name is found at its place, except for the last one. -/
theorem fieldSearch_names : ∀ j, j < 17 → fieldSearch ((Spec.fieldFlags.getD j ("", 0)).1.toList) TCNT 0 = .ok (j + 1) := by
  decide +kernel

theorem fieldFlags_pow : ∀ j, j < 18 → (Spec.fieldFlags.getD j ("", 0)).2 = 2 ^ j := by decide +kernel

theorem optD_name (tflag : UInt) (j : Nat) (hj : j < 17) :
    optD tflag (.text (Spec.fieldFlags.getD j ("", 0)).1.toList) = .ok (tflag + BitVec.twoPow 32 j, BitVec.twoPow 32 j) := by
  have h0 : BitVec.twoPow 32 j ≠ 0 := by
    intro h
    have := congrArg (fun v => BitVec.getLsbD v j) h
    simp [show j < 32 by omega] at this
  rw [optD]
  simp only [fieldSearch_names j hj, Res.bind_ok]
  rw [if_neg (by show ¬ j + 1 = 18; omega), if_neg (by omega), Nat.add_sub_cancel]
  show (if BitVec.twoPow 32 j = 0 then _ else _) = _
  rw [if_neg h0]

theorem add_twoPow_off (F : UInt) (j : Nat) (hj : j < 32) (hoff : ¬ Spec.On F j) (k : Nat) :
    Spec.On (F + BitVec.twoPow 32 j) k ↔ Spec.On F k ∨ k = j := by
  have hand : F &&& BitVec.twoPow 32 j = 0 := by
    apply BitVec.eq_of_getLsbD_eq
    intro i hi
    rw [BitVec.getLsbD_and, BitVec.getLsbD_twoPow]
    by_cases hij : j = i
    · subst hij
      have : F.getLsbD j = false := by
        rw [← Bool.not_eq_true]; exact hoff
      rw [this]; simp
    · simp [hij]
  rw [BitVec.add_eq_or_of_and_eq_zero _ _ hand]
  show (F ||| BitVec.twoPow 32 j).getLsbD k = true ↔ F.getLsbD k = true ∨ k = j
  rw [BitVec.getLsbD_or, BitVec.getLsbD_twoPow, Bool.or_eq_true, Bool.and_eq_true]
  constructor
  · rintro (h | ⟨_, h⟩)
    · exact .inl h
    · simp at h; exact .inr h.symm
  · rintro (h | h)
    · exact .inl h
    · subst h; exact .inr ⟨by simpa using hj, by simp⟩

/-- **C49**, one option: naming a field that is off switches on exactly this field.  (`j` is the place of the field, its flag is
`2 ^ j`; the last of the 18 fields is missing.) -/
theorem C49_name_off (tflag : UInt) (j : Nat) (hj : j < 17) (hoff : ¬ Spec.On tflag j) :
    ∃ F tmp, optD tflag (.text (Spec.fieldFlags.getD j ("", 0)).1.toList) = .ok (F, tmp) ∧
      ∀ k, Spec.On F k ↔ Spec.On tflag k ∨ k = j :=
  ⟨_, _, optD_name tflag j hj, add_twoPow_off tflag j (by omega) hoff⟩

/-- **C49** fails for repeated options: naming a field that is already on switches it off. -/
theorem C49_name_on_fails (tflag : UInt) (j : Nat) (hj : j < 17) (hon : Spec.On tflag j) :
    ∃ F tmp, optD tflag (.text (Spec.fieldFlags.getD j ("", 0)).1.toList) = .ok (F, tmp) ∧ ¬ Spec.On F j := by
  refine ⟨_, _, optD_name tflag j hj, ?_⟩
  rw [Spec.On, BitVec.toNat_add, Nat.testBit_mod_two_pow, BitVec.toNat_twoPow_of_lt (by omega), Nat.add_comm,
    Nat.testBit_two_pow_add_eq]
  rw [Spec.On] at hon
  simp [hon]

/-- **C49**, the number of a field has the same effect as its name. -/
theorem C49_number (tflag : UInt) (j : Nat) (hj : j < 17) :
    optD tflag (.num ((Spec.fieldFlags.getD j ("", 0)).2 : Nat)) =
      optD tflag (.text (Spec.fieldFlags.getD j ("", 0)).1.toList) := by
  have h1 : BitVec.ofInt 32 ((Spec.fieldFlags.getD j ("", 0)).2 : Nat) = BitVec.twoPow 32 j := by
    rw [fieldFlags_pow j (by omega)]
    apply BitVec.eq_of_toNat_eq
    rw [BitVec.toNat_twoPow]
    rw [BitVec.toNat_ofInt]
    omega
  have h0 : BitVec.twoPow 32 j ≠ 0 := by
    intro h
    have := congrArg (fun v => BitVec.getLsbD v j) h
    simp [show j < 32 by omega] at this
  rw [optD_name tflag j hj, optD]
  simp only [h1, Res.bind_ok]
  rw [if_neg h0]

theorem optsD_names : ∀ (l : List Nat) (tflag tmp : UInt), l.Nodup → (∀ j ∈ l, j < 17 ∧ ¬ Spec.On tflag j) →
    ∃ F tmp', optsD (l.map fun j => .text (Spec.fieldFlags.getD j ("", 0)).1.toList) tflag tmp = .ok (F, tmp') ∧
      (l ≠ [] → tmp' ≠ 0) ∧ ∀ k, Spec.On F k ↔ Spec.On tflag k ∨ k ∈ l := by
  intro l
  induction l with
  | nil => intro tflag tmp _ _; exact ⟨tflag, tmp, rfl, by simp, by simp⟩
  | cons j l ih =>
    intro tflag tmp hn h
    obtain ⟨hj, hoff⟩ := h j (by simp)
    have hnj := List.nodup_cons.1 hn
    have hon := add_twoPow_off tflag j (by omega) hoff
    obtain ⟨F, tmp', h1, h2, h3⟩ := ih (tflag + BitVec.twoPow 32 j) (BitVec.twoPow 32 j) hnj.2 (fun i hi => by
      obtain ⟨h4, h5⟩ := h i (by simp [hi])
      refine ⟨h4, fun h6 => ?_⟩
      rcases (hon i).1 h6 with h7 | h7
      · exact h5 h7
      · subst h7; exact hnj.1 hi)
    refine ⟨F, tmp', ?_, fun _ => ?_, fun k => ?_⟩
    · rw [List.map_cons, optsD, optD_name tflag j hj, Res.bind_ok]
      exact h1
    · by_cases hl : l = []
      · subst hl
        simp only [List.map_nil, optsD, Res.ok.injEq, Prod.mk.injEq] at h1
        rw [← h1.2]
        intro h0
        have := congrArg (fun v => BitVec.getLsbD v j) h0
        simp [show j < 32 by omega] at this
      · exact h2 hl
    · rw [h3, hon, List.mem_cons]
      constructor
      · rintro ((h4 | h4) | h4)
        · exact .inl h4
        · exact .inr (.inl h4)
        · exact .inr (.inr h4)
      · rintro (h4 | h4 | h4)
        · exact .inl (.inl h4)
        · exact .inl (.inr h4)
        · exact .inr h4

/-- **C49**.  If the -D options name different fields, exactly these fields are on; without -D options it is the default. -/
theorem C49_names (l : List Nat) (hn : l.Nodup) (hl : ∀ j ∈ l, j < 17) (hne : l ≠ []) :
    ∃ F, tableFlags (l.map fun j => .text (Spec.fieldFlags.getD j ("", 0)).1.toList) = .ok F ∧ ∀ k, Spec.On F k ↔ k ∈ l := by
  have h0 : ∀ k, ¬ Spec.On 0 k := by intro k; simp [Spec.On]
  obtain ⟨F, tmp, h1, h2, h3⟩ := optsD_names l 0 0 hn (fun j hj => ⟨hl j hj, h0 j⟩)
  refine ⟨F, ?_, fun k => ?_⟩
  · rw [tableFlags, h1, Res.bind_ok]
    exact if_neg (h2 hne)
  · rw [h3]; exact ⟨fun h => h.resolve_left (h0 k), .inr⟩

/-- The fields of the default report: all up to the assessment, the seed and the rate. -/
def defaultFields : List Nat := [0, 1, 2, 3, 4, 5, 6, 7, 8, 12, 13]

theorem default_on (k : Nat) : Spec.On tflagDefault k ↔ k ∈ defaultFields := by
  by_cases hk : k < 32
  · have : ∀ k, k < 32 → ((tflagDefault.toNat.testBit k = true) ↔ k ∈ defaultFields) := by decide +kernel
    exact this k hk
  · rw [Spec.On]
    constructor
    · intro h
      have : tflagDefault.toNat < 2 ^ k := Nat.lt_of_lt_of_le tflagDefault.isLt (Nat.pow_le_pow_right (by omega) (by omega))
      rw [Nat.testBit_lt_two_pow this] at h
      cases h
    · intro h
      simp [defaultFields] at h
      omega

/-- **C49**.  `-D default` followed by different fields which do not belong to the default adds exactly these fields. -/
theorem C49_default_names (l : List Nat) (hn : l.Nodup) (hl : ∀ j ∈ l, j < 17 ∧ j ∉ defaultFields) :
    ∃ F, tableFlags (.text "default".toList :: l.map fun j => .text (Spec.fieldFlags.getD j ("", 0)).1.toList) = .ok F ∧
      ∀ k, Spec.On F k ↔ k ∈ defaultFields ∨ k ∈ l := by
  have hd : ∀ t, optD t (.text "default".toList) = .ok (tflagDefault, 0) := by
    intro t
    have : fieldSearch "default".toList TCNT 0 = .ok 0 := by decide +kernel
    rw [optD]
    simp only [this, Res.bind_ok]
    rfl
  obtain ⟨F, tmp, h1, h2, h3⟩ := optsD_names l tflagDefault 0 hn (fun j hj => ⟨(hl j hj).1, fun h =>
    (hl j hj).2 ((default_on j).1 h)⟩)
  refine ⟨F, ?_, fun k => by rw [h3, default_on]⟩
  rw [tableFlags, optsD, hd, Res.bind_ok]
  simp only [h1, Res.bind_ok]
  by_cases hne : l = []
  · subst hne
    simp only [List.map_nil, optsD, Res.ok.injEq, Prod.mk.injEq] at h1
    rw [← h1.1]
    split <;> rfl
  · rw [if_neg (h2 hne)]

theorem C49_none : tableFlags [] = .ok tflagDefault := rfl

/-- **C49** fails for the field `file_rng_stat`: its name is refused, since `TCNT` is 18 where the table has 19 entries. -/
theorem C49_last_fails (tflag : UInt) : optD tflag (.text "file_rng_stat".toList) = .exit := by
  have : fieldSearch "file_rng_stat".toList TCNT 0 = .ok 18 := by decide +kernel
  rw [optD]
  simp only [this, Res.bind_ok]
  rfl

/-- **C49**, a text that is not a field name is refused. -/
theorem C49_unknown (tflag : UInt) (s : List Char) (h : ∀ f ∈ tableFields, s.take 16 ≠ f) :
    optD tflag (.text s) = .exit := by
  have hlen : ∀ f ∈ tableFields, f.take 16 = f := by decide +kernel
  have hs : ∀ (todo i : Nat), i + todo ≤ 19 → fieldSearch s todo i = .ok (i + todo) := by
    intro todo
    induction todo with
    | zero => intro i _; rfl
    | succ todo ih =>
      intro i hi
      have hil : i < tableFields.length := by
        have : tableFields.length = 19 := by decide +kernel
        omega
      rw [fieldSearch, rd_ok hil, Res.bind_ok]
      have hm := List.getElem_mem hil
      have : strncmpEq s tableFields[i] TLENGTH = false := by
        rw [strncmpEq, beq_eq_false_iff_ne]
        show s.take 16 ≠ tableFields[i].take 16
        rw [hlen _ hm]
        exact h _ hm
      rw [this]
      show fieldSearch s todo (i + 1) = _
      rw [ih (i + 1) (by omega), show i + 1 + todo = i + (todo + 1) by omega]
  rw [optD]
  simp only [hs TCNT 0 (by decide), Res.bind_ok]
  rfl

/-- Non-vacuity: `-D prefix -D pvalues`, and the repeated option `-D header -D header`, which selects `show_rng` instead. -/
example : tableFlags [.text "prefix".toList, .text "pvalues".toList] = .ok 640 ∧
    tableFlags [.text "header".toList, .text "header".toList] = .ok 2 := by decide +kernel

/-! ### C51 -/

namespace Spec

/-- The parameter values with which test `t` is to run when `-n ntuple` was given (0: not given). -/
def params (ntuple t : Nat) : List Nat :=
  match ntuple with
  | 0 =>
    if t = 200 then [1, 2, 3, 4, 5, 6, 7, 8, 9, 10, 11, 12]
    else if t = 201 then [2, 3, 4, 5]
    else if t = 202 then [2, 3, 4, 5]
    else if t = 203 then List.range 33
    else [0]
  | n + 1 =>
    if t = 201 then (if 2 ≤ n + 1 ∧ n + 1 ≤ 5 then [n + 1] else [5])
    else if t = 202 then (if 2 ≤ n + 1 then [n + 1] else [5])
    else [n + 1]

/-- The numbers of the tests of a table, in ascending order. -/
def testNumbers (tab : TestTable) : List Nat :=
  (List.range tab.diehard ++ (List.range tab.sts).map (100 + ·) ++ (List.range tab.other).map (200 + ·)).filter tab.present

end Spec

/-- What the runs of one test add to the log. -/
theorem ntLoop_spec (t : Nat) : ∀ (todo : Nat) (s : RunState),
    (RunState.ntLoop t todo s).log = ((List.range todo).map fun j => (t, s.ntuple + j)).reverse ++ s.log := by
  intro todo
  induction todo with
  | zero => intro s; rfl
  | succ todo ih =>
    intro s
    rw [RunState.ntLoop, ih, List.range_succ_eq_map]
    simp [RunState.execute, Function.comp_def, Nat.add_comm, Nat.add_left_comm]

theorem runOther_spec (tab : TestTable) (t : Nat) (s : RunState) :
    (runOther tab t s).ntuple = s.ntuple ∧
      (runOther tab t s).log = (if tab.present t then ((Spec.params s.ntuple t).map fun p => (t, p)).reverse else []) ++ s.log := by
  obtain ⟨n, log⟩ := s
  unfold runOther runPlain
  cases n with
  | zero =>
    cases hp : tab.present t <;>
    by_cases h0 : t = 200 <;> by_cases h1 : t = 201 <;> by_cases h2 : t = 202 <;> by_cases h3 : t = 203 <;>
      first
        | omega
        | simp_all [RunState.range, ntLoop_spec, Spec.params, RunState.execute, List.range_succ]
  | succ n =>
    by_cases hp : tab.present t = true
    · simp only [hp, if_true]
      by_cases h1 : t = 201
      · subst h1
        by_cases h4 : n + 1 < 2 ∨ n + 1 > 5
        · have h5 : ¬ (2 ≤ n + 1 ∧ n + 1 ≤ 5) := by omega
          simp [Spec.params, RunState.execute, h4, h5, -Nat.reduceLeDiff, -Nat.succ_le_succ_iff]
        · have h5 : 2 ≤ n + 1 ∧ n + 1 ≤ 5 := by omega
          simp [Spec.params, RunState.execute, h4, h5]
      · by_cases h2 : t = 202
        · subst h2
          by_cases h4 : n + 1 < 2
          · have h5 : ¬ (2 ≤ n + 1) := by omega
            simp [Spec.params, RunState.execute, h4, h5]
          · have h5 : 2 ≤ n + 1 := by omega
            simp [Spec.params, RunState.execute, h4, h5]
        · by_cases h0 : t = 200 <;> by_cases h3 : t = 203 <;> simp [Spec.params, RunState.execute, h0, h1, h2, h3]
    · simp only [hp]
      by_cases h0 : t = 200 <;> by_cases h1 : t = 201 <;> by_cases h2 : t = 202 <;> by_cases h3 : t = 203 <;>
        simp [h0, h1, h2, h3]

theorem runPlain_spec (tab : TestTable) (t : Nat) (s : RunState) (ht : t < 200) :
    (runPlain tab t s).ntuple = s.ntuple ∧
      (runPlain tab t s).log = (if tab.present t then ((Spec.params s.ntuple t).map fun p => (t, p)).reverse else []) ++ s.log := by
  have : Spec.params s.ntuple t = [s.ntuple] := by
    unfold Spec.params
    have h0 : t ≠ 200 := by omega
    have h1 : t ≠ 201 := by omega
    have h2 : t ≠ 202 := by omega
    have h3 : t ≠ 203 := by omega
    split <;> simp_all
  rw [this, runPlain]
  cases tab.present t <;> simp [RunState.execute]

theorem runRange_spec (tab : TestTable) (f : Nat → RunState → RunState) (P : Nat → Prop)
    (hf : ∀ t s, P t → (f t s).ntuple = s.ntuple ∧
      (f t s).log = (if tab.present t then ((Spec.params s.ntuple t).map fun p => (t, p)).reverse else []) ++ s.log) :
    ∀ (todo t : Nat) (s : RunState), (∀ j, j < todo → P (t + j)) →
      (runRange f todo t s).ntuple = s.ntuple ∧
        (runRange f todo t s).log = ((((List.range todo).map (t + ·)).filter tab.present).flatMap fun t =>
          (Spec.params s.ntuple t).map fun p => (t, p)).reverse ++ s.log := by
  intro todo
  induction todo with
  | zero => intro t s _; exact ⟨rfl, rfl⟩
  | succ todo ih =>
    intro t s hP
    obtain ⟨h1, h2⟩ := hf t s (hP 0 (by omega))
    obtain ⟨h3, h4⟩ := ih (t + 1) (f t s) (fun j hj => by
      have := hP (j + 1) (by omega)
      rwa [show t + (j + 1) = t + 1 + j by omega] at this)
    rw [runRange]
    refine ⟨by rw [h3, h1], ?_⟩
    rw [h4, h1, h2, List.range_succ_eq_map, List.map_cons, List.map_map]
    have : ((t + ·) ∘ Nat.succ) = (t + 1 + ·) := by funext j; simp; omega
    rw [this, Nat.add_zero, List.filter_cons]
    cases hp : tab.present t
    · simp
    · simp

/-- **C51**.  `dieharder -a` runs every test of the table (18, 3 and 12 of them; tests 200 and up with their parameter range, or with
the parameter given by -n where it is possible) once for each of its parameter values and no other, in the order of the test
numbers and parameters. -/
theorem C51_run_all (tab : TestTable) (ntuple : Nat) (hd : tab.diehard ≤ 100) (hs : tab.sts ≤ 100) :
    runAllTests tab ntuple = (Spec.testNumbers tab).flatMap fun t => (Spec.params ntuple t).map fun p => (t, p) := by
  obtain ⟨h1, h2⟩ := runRange_spec tab (runPlain tab) (· < 200) (fun t s h => runPlain_spec tab t s h) tab.diehard 0 ⟨ntuple, []⟩
    (fun j hj => by show 0 + j < 200; omega)
  obtain ⟨h3, h4⟩ := runRange_spec tab (runPlain tab) (· < 200) (fun t s h => runPlain_spec tab t s h) tab.sts 100
    (runRange (runPlain tab) tab.diehard 0 ⟨ntuple, []⟩) (fun j hj => by show 100 + j < 200; omega)
  obtain ⟨h5, h6⟩ := runRange_spec tab (runOther tab) (fun _ => True) (fun t s _ => runOther_spec tab t s) tab.other 200
    (runRange (runPlain tab) tab.sts 100 (runRange (runPlain tab) tab.diehard 0 ⟨ntuple, []⟩)) (fun _ _ => trivial)
  rw [runAllTests]
  simp only [h6, h4, h2, h3, h1, Spec.testNumbers]
  have : (List.range tab.diehard).map (0 + ·) = List.range tab.diehard := by simp
  rw [this]
  simp

theorem nodup_flatMap_pairs (f : Nat → List Nat) : ∀ (l : List Nat), l.Nodup → (∀ t ∈ l, (f t).Nodup) →
    (l.flatMap fun t => (f t).map fun p => (t, p)).Nodup := by
  intro l
  induction l with
  | nil => intro _ _; simp
  | cons t l ih =>
    intro hn hf
    have hn' := List.nodup_cons.1 hn
    rw [List.flatMap_cons, List.nodup_append]
    refine ⟨?_, ih hn'.2 (fun u hu => hf u (by simp [hu])), ?_⟩
    · rw [List.Nodup, List.pairwise_map]
      exact (hf t (by simp)).imp fun h h' => h (by simpa using h')
    · intro a ha b hb hab
      subst hab
      simp only [List.mem_map, List.mem_flatMap] at ha hb
      obtain ⟨p, _, rfl⟩ := ha
      obtain ⟨u, hu, q, _, hq⟩ := hb
      simp only [Prod.mk.injEq] at hq
      rw [hq.1] at hu
      exact hn'.1 hu

/-- **C51**.  No test runs twice with the same parameter. -/
theorem C51_once (tab : TestTable) (ntuple : Nat) (hd : tab.diehard ≤ 100) (hs : tab.sts ≤ 100) :
    (runAllTests tab ntuple).Nodup := by
  rw [C51_run_all tab ntuple hd hs]
  apply nodup_flatMap_pairs
  · rw [Spec.testNumbers]
    apply List.Pairwise.filter
    rw [List.pairwise_append, List.pairwise_append]
    refine ⟨⟨List.nodup_range, ?_, ?_⟩, ?_, ?_⟩
    · rw [List.pairwise_map]
      exact List.nodup_range.imp fun h => by omega
    · intro a ha b hb
      simp only [List.mem_range, List.mem_map] at ha hb
      omega
    · rw [List.pairwise_map]
      exact List.nodup_range.imp fun h => by omega
    · intro a ha b hb
      simp only [List.mem_append, List.mem_range, List.mem_map] at ha hb
      omega
  · intro t _
    unfold Spec.params
    split
    · split
      · decide
      · split
        · decide
        · split
          · decide
          · split
            · exact List.nodup_range
            · simp
    · split
      · split <;> simp
      · split
        · split <;> simp
        · simp

/-- **C51**, the tests of dieharder. -/
theorem C51_dieharder : Spec.testNumbers testTypes =
    [0, 1, 2, 3, 4, 5, 6, 7, 8, 9, 10, 11, 12, 13, 14, 15, 16, 17, 100, 101, 102, 200, 201, 202, 203, 204, 205, 206, 207, 208,
      209, 210, 211] ∧
    ∀ t, testTypes.present t = true ↔ t ∈ Spec.testNumbers testTypes := by
  have h : ∀ t < 212, testTypes.present t = true ↔ t ∈ Spec.testNumbers testTypes := by decide +kernel
  refine ⟨by decide +kernel, fun t => ?_⟩
  rcases Nat.lt_or_ge t 212 with ht | ht
  · exact h t ht
  · constructor
    · intro hp
      simp [testTypes, addTests] at hp
      omega
    · intro hp
      have : ∀ u ∈ Spec.testNumbers testTypes, u < 212 := by decide +kernel
      exact absurd (this t hp) (by omega)

/-- Non-vacuity: 82 runs by default; with `-n 7` test 201 runs with 5 and the others with 7. -/
example : (runAllTests testTypes 0).length = 82 ∧ (runAllTests testTypes 7).length = 33 ∧
    (201, 5) ∈ runAllTests testTypes 7 ∧ (202, 7) ∈ runAllTests testTypes 7 := by decide +kernel

end Dh
