import Verif.Model.Report
import Verif.Props.TestListing
/-
Property C117: the report can be read by a program.
-/
namespace Dh
namespace Spec

/-- The columns of the table. -/
inductive Column where
  | lineType
  | testName
  | num
  | ntuple
  | tsamples
  | psamples
  | pvalue
  | assessment
  | seed
  deriving DecidableEq

/-- The bits of `tflag` that select the columns; the seed is shown if the generator is seeded for each test. -/
def Column.shown (tflag : BitVec 32) (strategy : Bool) : Column → Bool
  | .lineType => tflag.getLsbD 9
  | .testName => tflag.getLsbD 3
  | .num => tflag.getLsbD 14
  | .ntuple => tflag.getLsbD 4
  | .tsamples => tflag.getLsbD 5
  | .psamples => tflag.getLsbD 6
  | .pvalue => tflag.getLsbD 7
  | .assessment => tflag.getLsbD 8
  | .seed => tflag.getLsbD 12 && strategy

/-- The columns that are shown, in their order. -/
def columns (tflag : BitVec 32) (strategy : Bool) : List Column :=
  [.lineType, .testName, .num, .ntuple, .tsamples, .psamples, .pvalue, .assessment, .seed].filter (Column.shown tflag strategy)

/-- The titles; the type of the title line is 0. -/
def Column.title : Column → List Char
  | .lineType => ['0']
  | .testName => "test_name".toList
  | .num => "num".toList
  | .ntuple => "ntup".toList
  | .tsamples => "tsamples".toList
  | .psamples => "psamples".toList
  | .pvalue => "p-value".toList
  | .assessment => "Assessment".toList
  | .seed => "Seed".toList

def verdict : Grade → List Char
  | .failed => "FAILED".toList
  | .weak => "WEAK".toList
  | .passed => "PASSED".toList

/-- What a result line shows in a column.  The name is cut after 20 characters, unless blanks are suppressed (bit 15). -/
def Column.content (c : RepCfg) (t : RepTest) (r : RepRow) : Column → List Char
  | .lineType => ['2']
  | .testName => if c.tflag.getLsbD 15 then t.sname else t.sname.take 20
  | .num => (toString t.num).toList
  | .ntuple => (toString r.ntuple.toInt).toList
  | .tsamples => (toString t.tsamples).toList
  | .psamples => (toString t.psamples).toList
  | .pvalue => c.fmtP r.ks
  | .assessment => verdict (assess c.Xfail c.Xweak r.ks)
  | .seed => (toString t.seed).toList

/-- A text without the blanks at both ends. -/
def trim (s : List Char) : List Char := ((s.dropWhile (· = ' ')).reverse.dropWhile (· = ' ')).reverse

/-- The fields of a line: cut at the separator, without blanks. -/
def fieldsOf (sep : Char) (line : List Char) : List (List Char) := (line.splitOn sep).map trim

/-- The lines of a text that begin with a character. -/
def linesWith (ch : Char) (text : List Char) : List (List Char) := (text.splitOn '\n').filter fun l => l.head? = some ch

/-- The lines of a text that begin with a 2. -/
def resultLines (text : List Char) : List (List Char) := linesWith '2' text

/-- What is shown of the generator, after the line type 1: its name, its number (bit 14), the name of the file it reads, the speed (bit 13) and
the seed, if it is the same for all tests (bit 12). -/
def generatorFields (c : RepCfg) (seed : Nat) : List (List Char) :=
  [['1'], c.rngName] ++ (if c.tflag.getLsbD 14 then [(toString c.generator).toList] else []) ++ (if c.fromfile then [c.filename] else []) ++
    (if c.tflag.getLsbD 13 then [if c.tflag.getLsbD 15 then c.rate else c.rateWide] else []) ++
    (if c.tflag.getLsbD 12 && !c.strategy && !c.fromfile then [(toString seed).toList] else [])

end Spec
open Spec

/-- The characters that occur in fields. -/
def cellChar (ch : Char) : Bool := ch.isAlphanum || ch = '_' || ch = '-' || ch = '.'

/-- What is assumed of the separator, the names of tests and the text of p-values. -/
structure Readable (c : RepCfg) : Prop where
  sep : cellChar c.sep = false
  sepBlank : c.sep ≠ ' '
  sepLine : c.sep ≠ '\n'
  pval : ∀ p, ∀ ch ∈ c.fmtP p, cellChar ch = true

theorem on_bit (c : RepCfg) (k : Nat) (h : k < 32) : c.on (BitVec.twoPow 32 k) = c.tflag.getLsbD k := by
  rw [RepCfg.on]
  cases hb : c.tflag.getLsbD k
  · rw [decide_eq_false_iff_not, not_not]
    apply BitVec.eq_of_getLsbD_eq
    intro i hi
    rw [BitVec.getLsbD_and, BitVec.getLsbD_twoPow]
    by_cases hik : k = i
    · subst hik
      simp [hb]
    · simp [hik]
  · rw [decide_eq_true_iff]
    intro hz
    have := congrArg (fun v => v.getLsbD k) hz
    simp only [BitVec.getLsbD_and, BitVec.getLsbD_twoPow, hb] at this
    simp [h] at this

/-- A cell, if it is shown. -/
def opt {α : Type} (on : Bool) (x : α) : List α := if on then [x] else []

theorem intercalate_snoc (sep x : List Char) : ∀ (a : List Char) (l : List (List Char)),
    sep.intercalate (a :: l ++ [x]) = sep.intercalate (a :: l) ++ sep ++ x
  | a, [] => by simp
  | a, b :: l => by
    have := intercalate_snoc sep x b l
    rw [List.cons_append] at this
    rw [List.cons_append, List.cons_append, List.intercalate_cons_cons, this, List.intercalate_cons_cons]
    simp

theorem putField_cells (sep : Char) (on : Bool) (txt : List Char) (ls : List (List Char)) :
    putField sep on txt ([sep].intercalate ls, ls.length) = ([sep].intercalate (ls ++ opt on txt), (ls ++ opt on txt).length) := by
  cases on
  · simp [putField, opt]
  · simp only [putField, opt, if_true, List.length_append, List.length_singleton]
    refine Prod.ext ?_ rfl
    simp only
    cases ls with
    | nil => simp
    | cons a l =>
      rw [if_pos (by simp), intercalate_snoc]

theorem start_cells (sep : Char) (on : Bool) (ch : Char) :
    (if on then ([ch], 1) else ([], 0) : List Char × Nat) = ([sep].intercalate (opt on [ch]), (opt on [ch]).length) := by
  cases on <;> simp [opt]

theorem headFields_cells (c : RepCfg) : (headFields c).1 = [c.sep].intercalate (
    opt (c.on 512) ['0'] ++ opt (c.on 8) (if c.on 32768 then "test_name".toList else fmtRight 20 "test_name   ".toList) ++
    opt (c.on 16384) "num".toList ++ opt (c.on 16) "ntup".toList ++
    opt (c.on 32) (if c.on 32768 then "tsamples".toList else fmtRight 10 " tsamples ".toList) ++ opt (c.on 64) "psamples".toList ++
    opt (c.on 128) (if c.on 32768 then "p-value".toList else fmtRight 10 "p-value ".toList) ++ opt (c.on 256) "Assessment".toList ++
    opt (c.on 4096 && c.strategy) (if c.on 32768 then "Seed".toList else fmtRight 10 "Seed  ".toList)) := by
  simp only [headFields, start_cells c.sep, putField_cells]

theorem rowFields_cells (c : RepCfg) (t : RepTest) (r : RepRow) : (rowFields c t r).1 = [c.sep].intercalate (
    opt (c.on 512) ['2'] ++ opt (c.on 8) (if c.on 32768 then t.sname else fmtRight 20 (t.sname.take 20)) ++
    opt (c.on 16384) (if c.on 32768 then fmtInt t.num else fmtRight 3 (fmtInt t.num)) ++
    opt (c.on 16) (if c.on 32768 then fmtInt r.ntuple.toInt else fmtRight 4 (fmtInt r.ntuple.toInt)) ++
    opt (c.on 32) (if c.on 32768 then Nat.toDigits 10 t.tsamples else fmtRight 10 (Nat.toDigits 10 t.tsamples)) ++
    opt (c.on 64) (if c.on 32768 then Nat.toDigits 10 t.psamples else fmtRight 8 (Nat.toDigits 10 t.psamples)) ++
    opt (c.on 128) (c.fmtP r.ks) ++ opt (c.on 256) (gradeText (c.on 32768) (assess c.Xfail c.Xweak r.ks)) ++
    opt (c.on 4096 && c.strategy) (if c.on 32768 then Nat.toDigits 10 t.seed else fmtRight 10 (Nat.toDigits 10 t.seed))) := by
  simp only [rowFields, start_cells c.sep, putField_cells]

theorem columns_opt {α : Type} (c : RepCfg) (f : Column → α) : (columns c.tflag c.strategy).map f =
    opt (c.on 512) (f .lineType) ++ opt (c.on 8) (f .testName) ++ opt (c.on 16384) (f .num) ++ opt (c.on 16) (f .ntuple) ++
    opt (c.on 32) (f .tsamples) ++ opt (c.on 64) (f .psamples) ++ opt (c.on 128) (f .pvalue) ++ opt (c.on 256) (f .assessment) ++
    opt (c.on 4096 && c.strategy) (f .seed) := by
  have e : ∀ k < 32, ∀ m, m = BitVec.twoPow 32 k → c.on m = c.tflag.getLsbD k := fun k hk m hm => hm ▸ on_bit c k hk
  have fc : ∀ (p : Column → Bool) a l, (List.filter p (a :: l)).map f = opt (p a) (f a) ++ (List.filter p l).map f := by
    intro p a l
    rw [List.filter_cons]
    cases p a <;> simp [opt]
  rw [columns]
  simp only [fc, List.filter_nil, List.map_nil, List.append_nil, Column.shown]
  rw [e 9 (by decide) 512 (by decide), e 3 (by decide) 8 (by decide), e 14 (by decide) 16384 (by decide), e 4 (by decide) 16 (by decide),
    e 5 (by decide) 32 (by decide), e 6 (by decide) 64 (by decide), e 7 (by decide) 128 (by decide), e 8 (by decide) 256 (by decide),
    e 12 (by decide) 4096 (by decide)]
  simp only [List.append_assoc]

theorem opt_map {α β : Type} (f : α → β) (on : Bool) (x : α) : (opt on x).map f = opt on (f x) := by cases on <;> rfl

theorem opt_mem {α : Type} {on : Bool} {x y : α} (h : y ∈ opt on x) : y = x := by
  cases on
  · simp [opt] at h
  · simpa [opt] using h

/-- All characters are those of fields. -/
def Cell (s : List Char) : Prop := ∀ ch ∈ s, cellChar ch = true

theorem cell_blank {s : List Char} (h : Cell s) : ∀ ch ∈ s, ch ≠ ' ' := by
  rintro ch hc rfl
  exact absurd (h _ hc) (by decide)

theorem dropWhile_cell {s : List Char} (h : ∀ ch ∈ s, ch ≠ ' ') : s.dropWhile (· = ' ') = s := by
  cases s with
  | nil => rfl
  | cons a l => rw [List.dropWhile_cons, if_neg (by simpa using h a (by simp))]

theorem dropWhile_blanks (k : Nat) (s : List Char) : (List.replicate k ' ' ++ s).dropWhile (· = ' ') = s.dropWhile (· = ' ') := by
  induction k with
  | zero => rfl
  | succ k ih => rw [List.replicate_succ, List.cons_append, List.dropWhile_cons, if_pos (by decide), ih]

theorem trim_cell {s : List Char} (h : Cell s) : trim s = s := by
  have h1 := cell_blank h
  rw [trim, dropWhile_cell h1, dropWhile_cell fun ch hc => h1 ch (List.mem_reverse.1 hc), List.reverse_reverse]

theorem trim_right {s : List Char} (h : Cell s) (w : Nat) : trim (fmtRight w s) = s := by
  rw [trim, fmtRight, dropWhile_blanks]
  exact trim_cell h

theorem digits_cell (n : Nat) : Cell (Nat.toDigits 10 n) := by
  intro ch hc
  have := Nat.isDigit_of_mem_toDigits (by decide) (by decide) hc
  simp [cellChar, Char.isAlphanum, this]

theorem fmtInt_cell (i : Int) : Cell (fmtInt i) := by
  intro ch hc
  rw [fmtInt] at hc
  split at hc
  · rcases List.mem_cons.1 hc with rfl | h
    · decide
    · exact digits_cell _ ch h
  · exact digits_cell _ ch hc

theorem fmtInt_toString (i : Int) : fmtInt i = (toString i).toList := by
  cases i with
  | ofNat n =>
    rw [fmtInt, if_neg (by simp)]
    simp [toString, Int.repr]
  | negSucc n =>
    rw [fmtInt, if_pos (Int.negSucc_lt_zero n)]
    simp [toString, Int.repr]

theorem nat_toString (n : Nat) : (toString n).toList = Nat.toDigits 10 n := by simp [toString]

theorem verdict_cell (g : Grade) : Cell (verdict g) := by cases g <;> · unfold Cell; decide

theorem take_cell {s : List Char} (h : Cell s) (k : Nat) : Cell (s.take k) := fun ch hc => h ch (List.mem_of_mem_take hc)

theorem content_cell {c : RepCfg} (hc : Readable c) {t : RepTest} (ht : Cell t.sname) (r : RepRow) (col : Column) : Cell (col.content c t r) := by
  cases col with
  | lineType =>
    show Cell ['2']
    unfold Cell
    decide
  | testName =>
    rw [Column.content]
    split
    · exact ht
    · exact take_cell ht 20
  | num => rw [Column.content, ← fmtInt_toString]; exact fmtInt_cell _
  | ntuple => rw [Column.content, ← fmtInt_toString]; exact fmtInt_cell _
  | tsamples => rw [Column.content, nat_toString]; exact digits_cell _
  | psamples => rw [Column.content, nat_toString]; exact digits_cell _
  | pvalue => exact hc.pval r.ks
  | assessment => exact verdict_cell _
  | seed => rw [Column.content, nat_toString]; exact digits_cell _

/-- Padded on both sides. -/
def Padded (raw s : List Char) : Prop := trim raw = s ∧ ∀ ch ∈ raw, ch = ' ' ∨ cellChar ch = true

theorem padded_cell {s : List Char} (h : Cell s) : Padded s s := ⟨trim_cell h, fun ch hc => Or.inr (h ch hc)⟩

theorem padded_right {s : List Char} (h : Cell s) (w : Nat) : Padded (fmtRight w s) s := by
  refine ⟨trim_right h w, fun ch hc => ?_⟩
  rcases List.mem_append.1 hc with h1 | h1
  · exact Or.inl (List.mem_replicate.1 h1).2
  · exact Or.inr (h ch h1)

theorem padded_if {s a b : List Char} (on : Bool) (h1 : Padded a s) (h2 : Padded b s) : Padded (if on then a else b) s := by
  cases on
  · exact h2
  · exact h1

instance (raw s : List Char) : Decidable (Padded raw s) := by unfold Padded; infer_instance

theorem padded_grade (nw : Bool) (g : Grade) : Padded (gradeText nw g) (verdict g) := by cases nw <;> cases g <;> decide

/-- A list of cells and what they say. -/
theorem fields_padded {sep : Char} (h1 : cellChar sep = false) (h2 : sep ≠ ' ') {cells out : List (List Char)}
    (h : List.Forall₂ Padded cells out) (hne : out ≠ []) : fieldsOf sep ([sep].intercalate cells) = out := by
  have hne' : cells ≠ [] := by
    rintro rfl
    cases h
    exact hne rfl
  rw [fieldsOf, List.splitOn_intercalate sep _ hne']
  · induction h with
    | nil => rfl
    | cons a _ ih =>
      rename_i l1 l2 h3
      rw [List.map_cons, a.1]
      congr 1
      by_cases he : l2 = []
      · subst he
        cases h3
        rfl
      · exact ih he (by rintro rfl; cases h3; exact he rfl)
  · intro l hl hs
    obtain ⟨s, -, hp⟩ : ∃ s ∈ out, Padded l s := by
      clear hne hne'
      induction h with
      | nil => simp at hl
      | cons a _ ih =>
        rcases List.mem_cons.1 hl with rfl | h4
        · exact ⟨_, by simp, a⟩
        · obtain ⟨s, h5, h6⟩ := ih h4
          exact ⟨s, List.mem_cons_of_mem _ h5, h6⟩
    rcases hp.2 sep hs with h4 | h4
    · exact h2 h4
    · rw [h1] at h4
      exact absurd h4 (by decide)

theorem forall₂_opt {R : List Char → List Char → Prop} {a b : List Char} (on : Bool) (h : R a b) : List.Forall₂ R (opt on a) (opt on b) := by
  cases on
  · exact .nil
  · exact .cons h .nil

theorem forall₂_app {R : List Char → List Char → Prop} {a b a' b' : List (List Char)} (h : List.Forall₂ R a b) (h' : List.Forall₂ R a' b') :
    List.Forall₂ R (a ++ a') (b ++ b') := by
  induction h with
  | nil => exact h'
  | cons x _ ih => exact .cons x ih

theorem head_padded (c : RepCfg) : ∃ cells, (headFields c).1 = [c.sep].intercalate cells ∧
    List.Forall₂ Padded cells ((columns c.tflag c.strategy).map Column.title) := by
  refine ⟨_, headFields_cells c, ?_⟩
  rw [columns_opt]
  refine forall₂_app (forall₂_app (forall₂_app (forall₂_app (forall₂_app (forall₂_app (forall₂_app (forall₂_app ?_ ?_) ?_) ?_) ?_) ?_) ?_) ?_) ?_ <;>
    refine forall₂_opt _ ?_
  · decide
  · exact padded_if _ (by decide) (by decide)
  · decide
  · decide
  · exact padded_if _ (by decide) (by decide)
  · decide
  · exact padded_if _ (by decide) (by decide)
  · decide
  · exact padded_if _ (by decide) (by decide)

theorem row_padded {c : RepCfg} (hc : Readable c) {t : RepTest} (ht : Cell t.sname) (r : RepRow) :
    ∃ cells, (rowFields c t r).1 = [c.sep].intercalate cells ∧
    List.Forall₂ Padded cells ((columns c.tflag c.strategy).map (Column.content c t r)) := by
  refine ⟨_, rowFields_cells c t r, ?_⟩
  rw [columns_opt]
  have pd : ∀ {s : List Char} (w : Nat), Cell s → Padded (if c.on 32768 then s else fmtRight w s) s :=
    fun w h => padded_if _ (padded_cell h) (padded_right h w)
  have e15 : c.on 32768 = c.tflag.getLsbD 15 := by
    have := on_bit c 15 (by decide)
    rwa [show BitVec.twoPow 32 15 = 32768 by decide] at this
  refine forall₂_app (forall₂_app (forall₂_app (forall₂_app (forall₂_app (forall₂_app (forall₂_app (forall₂_app ?_ ?_) ?_) ?_) ?_) ?_) ?_) ?_) ?_ <;>
    refine forall₂_opt _ ?_
  · show Padded ['2'] ['2']
    decide
  · rw [Column.content, ← e15]
    cases c.on 32768
    · exact padded_right (take_cell ht 20) 20
    · exact padded_cell ht
  · rw [Column.content, ← fmtInt_toString]
    exact pd 3 (fmtInt_cell _)
  · rw [Column.content, ← fmtInt_toString]
    exact pd 4 (fmtInt_cell _)
  · rw [Column.content, nat_toString]
    exact pd 10 (digits_cell _)
  · rw [Column.content, nat_toString]
    exact pd 8 (digits_cell _)
  · exact padded_cell (hc.pval r.ks)
  · exact padded_grade _ _
  · rw [Column.content, nat_toString]
    exact pd 10 (digits_cell _)

/-- **C117.** The title line and every result line, cut at the separator, have the same columns: the selected ones, in a fixed order. -/
theorem C117_columns (c : RepCfg) (hc : Readable c) (h : columns c.tflag c.strategy ≠ []) :
    fieldsOf c.sep (headFields c).1 = (columns c.tflag c.strategy).map Column.title ∧
    ∀ t r, Cell t.sname → fieldsOf c.sep (rowFields c t r).1 = (columns c.tflag c.strategy).map (Column.content c t r) := by
  refine ⟨?_, fun t r ht => ?_⟩
  · obtain ⟨cells, h1, h2⟩ := head_padded c
    rw [h1]
    exact fields_padded hc.sep hc.sepBlank h2 (by simpa using h)
  · obtain ⟨cells, h1, h2⟩ := row_padded hc ht r
    rw [h1]
    exact fields_padded hc.sep hc.sepBlank h2 (by simpa using h)

/-- A part of the text that consists of whole lines, of which `ls` begin with `ch`. -/
def Emits (ch : Char) (a : List Char) (ls : List (List Char)) : Prop := ∀ rest, linesWith ch (a ++ rest) = ls ++ linesWith ch rest

variable {ch : Char}

theorem emits_nil : Emits ch [] [] := fun _ => rfl

theorem emits_append {a b : List Char} {l m : List (List Char)} (h : Emits ch a l) (h' : Emits ch b m) : Emits ch (a ++ b) (l ++ m) := by
  intro rest
  rw [List.append_assoc, h, h', List.append_assoc]

theorem quiet_append {a b : List Char} (h : Emits ch a []) (h' : Emits ch b []) : Emits ch (a ++ b) [] := emits_append h h'

theorem emits_if {a : List Char} {l : List (List Char)} (p : Bool) (h : p = true → Emits ch a l) :
    Emits ch (if p then a else []) (if p then l else []) := by
  cases p
  · exact emits_nil
  · exact h rfl

theorem quiet_if {a : List Char} (p : Bool) (h : p = true → Emits ch a []) : Emits ch (if p then a else []) [] := by
  cases p
  · exact emits_nil
  · exact h rfl

theorem emits_line {l b : List Char} {m : List (List Char)} (hl : '\n' ∉ l) (hb : Emits ch b m) :
    Emits ch (l ++ '\n' :: b) ((if l.head? = some ch then [l] else []) ++ m) := by
  intro rest
  rw [List.append_assoc, List.cons_append, linesWith, List.splitOn_append_cons_self_of_not_mem hl, List.filter_cons]
  have := hb rest
  rw [linesWith] at this
  rw [this]
  by_cases h : l.head? = some ch
  · simp [h]
  · simp [h]

theorem quiet_line {l b : List Char} (hl : '\n' ∉ l) (hh : l.head? ≠ some ch) (hb : Emits ch b []) : Emits ch (l ++ '\n' :: b) [] := by
  have := emits_line hl hb
  rwa [if_neg hh] at this

theorem head_ne {a : Char} {l : List Char} (h : a ≠ ch) (hl : l.head? = some a) : l.head? ≠ some ch := by
  rw [hl]
  exact fun e => h (Option.some.inj e)

theorem quiet_rule (hx : '#' ≠ ch) : Emits ch repRule [] := by
  have h := quiet_line (l := '#' :: (List.replicate 77 '=' ++ ['#'])) (b := []) (by decide) (head_ne hx rfl) emits_nil
  rwa [show '#' :: (List.replicate 77 '=' ++ ['#']) ++ ['\n'] = repRule by rfl] at h

theorem emits_flatMap {α : Type} (f : α → List Char) (g : α → List (List Char)) (h : ∀ x, Emits ch (f x) (g x)) :
    ∀ l : List α, Emits ch (l.flatMap f) (l.flatMap g)
  | [] => emits_nil
  | x :: l => by
    rw [List.flatMap_cons, List.flatMap_cons]
    exact emits_append (h x) (emits_flatMap f g h l)

theorem quiet_flatMap {α : Type} (f : α → List Char) (h : ∀ x, Emits ch (f x) []) : ∀ l : List α, Emits ch (l.flatMap f) []
  | [] => emits_nil
  | x :: l => by
    rw [List.flatMap_cons]
    exact quiet_append (h x) (quiet_flatMap f h l)

theorem digits_line (n : Nat) : '\n' ∉ Nat.toDigits 10 n := fun h => absurd (digits_cell n _ h) (by decide)

theorem cell_line {s : List Char} (h : Cell s) : '\n' ∉ s := fun hm => absurd (h _ hm) (by decide)

theorem fmtRight_line {s : List Char} (w : Nat) (h : '\n' ∉ s) : '\n' ∉ fmtRight w s := by
  rw [fmtRight, List.mem_append]
  rintro (h1 | h1)
  · exact absurd (List.mem_replicate.1 h1).2 (by decide)
  · exact h h1

/-- The texts that are printed as they are stay on their line. -/
structure OneLine (c : RepCfg) : Prop where
  version : '\n' ∉ c.version
  rngName : '\n' ∉ c.rngName
  filename : '\n' ∉ c.filename
  rate : '\n' ∉ c.rate
  rateWide : '\n' ∉ c.rateWide

theorem quiet_header (v : List Char) (hv : '\n' ∉ v) (hx : '#' ≠ ch) : Emits ch (dhHeader v) [] := by
  have hr : listRule = repRule := rfl
  rw [dhHeader, hr]
  refine quiet_append (quiet_rule hx) ?_
  generalize (Int.tdiv (80 - 48 - (v.length : Int) - 2) 2) = a
  have h := quiet_line (l := '#' :: (List.replicate a.toNat ' ' ++ ("dieharder version ".toList ++ (v ++
    (" Copyright 2003 Robert G. Brown".toList ++ (List.replicate (80 - 52 - (v.length : Int) - a).toNat ' ' ++ ['#'])))))) (by
      simp only [List.mem_cons, List.mem_append, List.mem_replicate, not_or, List.not_mem_nil]
      refine ⟨by decide, fun h => absurd h.2 (by decide), by decide, hv, by decide, fun h => absurd h.2 (by decide), by decide, not_false⟩)
    (head_ne hx rfl) (quiet_rule hx)
  simpa using h

theorem padded_lines {c : RepCfg} (hc : Readable c) : ∀ (cells out : List (List Char)), List.Forall₂ Padded cells out →
    '\n' ∉ [c.sep].intercalate cells := by
  intro cells out h
  induction h with
  | nil => simp
  | cons a h' ih =>
    rename_i x y l m
    have hx : '\n' ∉ x := by
      intro hm
      rcases a.2 _ hm with h3 | h3
      · exact absurd h3 (by decide)
      · exact absurd h3 (by decide)
    cases l with
    | nil => simpa using hx
    | cons z l =>
      rw [List.intercalate_cons_cons, List.mem_append, List.mem_append]
      rintro ((h3 | h3) | h3)
      · exact hx h3
      · exact hc.sepLine (List.mem_singleton.1 h3).symm
      · exact ih h3

theorem intercalate_head (sep : List Char) (a : Char) (l : List (List Char)) : (sep.intercalate ([a] :: l)).head? = some a := by
  cases l with
  | nil => simp
  | cons b l => rw [List.intercalate_cons_cons]; simp

theorem quiet_head (c : RepCfg) (hc : Readable c) (hp : c.on 512 = true) (hx : '#' ≠ ch) (h0 : '0' ≠ ch) : Emits ch (tableHeader c) [] := by
  rw [tableHeader]
  refine quiet_append (quiet_if _ fun _ => quiet_rule hx) ?_
  obtain ⟨cells, h1, h2⟩ := head_padded c
  refine quiet_line ?_ ?_ (quiet_if _ fun _ => quiet_rule hx)
  · rw [h1]
    exact padded_lines hc _ _ h2
  · rw [headFields_cells, hp]
    simp only [opt, if_true, List.append_assoc, List.singleton_append]
    rw [List.cons_append]
    exact head_ne h0 (intercalate_head _ _ _)

def infoField (sep : Char) (on : Bool) (txt : List Char) : List Char := if on then txt ++ [sep] else []

theorem put_line {sep : Char} (hs : sep ≠ '\n') {on : Bool} {txt : List Char} (h : '\n' ∉ txt) :
    '\n' ∉ infoField sep on txt := by
  rw [infoField]
  cases on
  · simp
  · simp only [if_true, List.mem_append, List.mem_singleton, not_or]
    exact ⟨h, fun e => hs e.symm⟩

theorem ite_line {p : Bool} {a b : List Char} (ha : '\n' ∉ a) (hb : '\n' ∉ b) : '\n' ∉ (if p then a else b) := by
  cases p
  · exact hb
  · exact ha

theorem app_line {a b : List Char} (ha : '\n' ∉ a) (hb : '\n' ∉ b) : '\n' ∉ a ++ b := by
  rw [List.mem_append, not_or]
  exact ⟨ha, hb⟩

theorem rngInfo_fields (c : RepCfg) (seed : Nat) : rngInfo c seed =
    (if c.on 4 then (infoField c.sep (c.on 512) ['0'] ++
      (infoField c.sep true (if c.on 32768 then "rng_name".toList else fmtRight 15 "rng_name    ".toList) ++
      infoField c.sep (c.on 16384) "num".toList ++
      infoField c.sep c.fromfile (if c.on 32768 then "filename".toList else fmtRight 32 "filename             ".toList) ++
      infoField c.sep (c.on 8192) "rands/second".toList ++
      infoField c.sep (c.on 4096 && !c.strategy && !c.fromfile) (if c.on 32768 then "Seed".toList else fmtRight 10 "Seed   ".toList))) ++ ['\n']
      else []) ++
    ((infoField c.sep (c.on 512) ['1'] ++
      (infoField c.sep true (if c.on 32768 then c.rngName else fmtRight 15 c.rngName) ++
      infoField c.sep (c.on 16384) (if c.on 32768 then fmtInt c.generator else fmtRight 3 (fmtInt c.generator)) ++
      infoField c.sep c.fromfile (if c.on 32768 then c.filename else fmtRight 32 c.filename) ++
      infoField c.sep (c.on 8192) (if c.on 32768 then c.rate else c.rateWide ++ "  ".toList) ++
      infoField c.sep (c.on 4096 && !c.strategy && !c.fromfile) (if c.on 32768 then Nat.toDigits 10 seed else fmtRight 10 (Nat.toDigits 10 seed))))
      ++ ['\n']) := by
  simp only [rngInfo, infoField, List.append_assoc]

theorem info_head (sep a : Char) (l : List Char) : (infoField sep true [a] ++ l).head? = some a := by simp [infoField]

/-- The line on the generator, without its end. -/
def infoLine (c : RepCfg) (seed : Nat) : List Char :=
  infoField c.sep (c.on 512) ['1'] ++
    (infoField c.sep true (if c.on 32768 then c.rngName else fmtRight 15 c.rngName) ++
    infoField c.sep (c.on 16384) (if c.on 32768 then fmtInt c.generator else fmtRight 3 (fmtInt c.generator)) ++
    infoField c.sep c.fromfile (if c.on 32768 then c.filename else fmtRight 32 c.filename) ++
    infoField c.sep (c.on 8192) (if c.on 32768 then c.rate else c.rateWide ++ "  ".toList) ++
    infoField c.sep (c.on 4096 && !c.strategy && !c.fromfile) (if c.on 32768 then Nat.toDigits 10 seed else fmtRight 10 (Nat.toDigits 10 seed)))

theorem emits_info (c : RepCfg) (hc : Readable c) (hl : OneLine c) (hp : c.on 512 = true) (h0 : '0' ≠ ch) (seed : Nat) :
    Emits ch (rngInfo c seed) (if ch = '1' then [infoLine c seed] else []) := by
  have hs := hc.sepLine
  rw [rngInfo_fields]
  rw [← List.nil_append (if ch = '1' then _ else _)]
  refine emits_append (quiet_if _ fun _ => quiet_line ?_ ?_ emits_nil) ?_
  · exact app_line (put_line hs (by decide)) (app_line (app_line (app_line (app_line (put_line hs (ite_line (by decide) (by decide)))
      (put_line hs (by decide))) (put_line hs (ite_line (by decide) (by decide)))) (put_line hs (by decide)))
      (put_line hs (ite_line (by decide) (by decide))))
  · rw [hp]
    exact head_ne h0 (info_head _ _ _)
  · have hline : '\n' ∉ infoLine c seed := app_line (put_line hs (by decide)) (app_line (app_line (app_line (app_line
      (put_line hs (ite_line hl.rngName (fmtRight_line _ hl.rngName)))
      (put_line hs (ite_line (cell_line (fmtInt_cell _)) (fmtRight_line _ (cell_line (fmtInt_cell _))))))
      (put_line hs (ite_line hl.filename (fmtRight_line _ hl.filename))))
      (put_line hs (ite_line hl.rate (app_line hl.rateWide (by decide)))))
      (put_line hs (ite_line (digits_line _) (fmtRight_line _ (digits_line _)))))
    have hh : (infoLine c seed).head? = some '1' := by
      rw [infoLine, hp]
      exact info_head _ _ _
    have := emits_line (ch := ch) hline emits_nil
    rw [hh, List.append_nil] at this
    by_cases e : ch = '1'
    · rw [if_pos e]
      rwa [if_pos (by rw [e])] at this
    · rw [if_neg e]
      rwa [if_neg (fun h => e (Option.some.inj h).symm)] at this

theorem quiet_note (c : RepCfg) (hl : OneLine c) (hx : '#' ≠ ch) (t : RepTest) : Emits ch (fileNote c t) [] := by
  rw [fileNote]
  refine quiet_if _ fun _ => quiet_append ?_ ?_
  · split
    · rw [show " bytes) were used\n".toList = " bytes) were used".toList ++ ['\n'] by decide, ← List.append_assoc]
      refine quiet_line ?_ (head_ne hx rfl) emits_nil
      exact app_line (app_line (app_line (app_line (app_line (app_line (app_line (app_line (by decide) hl.filename) (by decide)) hl.rngName)
        (by decide)) (digits_line _)) (by decide)) (digits_line _)) (by decide)
    · rw [show " rands were used\n".toList = " rands were used".toList ++ ['\n'] by decide, ← List.append_assoc]
      refine quiet_line ?_ (head_ne hx rfl) emits_nil
      exact app_line (app_line (app_line (app_line (app_line (app_line (by decide) hl.filename) (by decide)) hl.rngName)
        (by decide)) (digits_line _)) (by decide)
  · split
    · rw [show " was rewound 0 times\n".toList = " was rewound 0 times".toList ++ ['\n'] by decide, ← List.append_assoc]
      refine quiet_line ?_ (head_ne hx rfl) emits_nil
      exact app_line (app_line (by decide) hl.rngName) (by decide)
    · exact emits_nil

theorem quiet_lit (s : List Char) (h1 : '\n' ∉ s) (h2 : s.head? ≠ some ch) : Emits ch (s ++ ['\n']) [] := quiet_line h1 h2 emits_nil

theorem quiet_histLine (hx : '#' ≠ ch) (bin : List Nat) (v i : Nat) : Emits ch (histLine bin v i) [] := by
  rw [histLine]
  refine quiet_line (app_line ?_ ?_) ?_ emits_nil
  · split
    · exact app_line (app_line (by decide) (fmtRight_line _ (digits_line _))) (by decide)
    · decide
  · induction bin with
    | nil => simp
    | cons b l ih =>
      rw [List.flatMap_cons]
      refine app_line ?_ ih
      split <;> decide
  · split <;> exact head_ne hx rfl

theorem quiet_hist {ps : Nat} {input : List ℚ} {text : List Char} (hx : '#' ≠ ch) (h : outputHistogram ps input = .ok text) : Emits ch text [] := by
  rw [outputHistogram] at h
  obtain ⟨b, -, h⟩ := Res.bind_eq_ok.1 h
  obtain ⟨v, -, h⟩ := Res.bind_eq_ok.1 h
  rw [← Res.ok.inj h]
  refine quiet_append (quiet_rule hx) (quiet_append ?_ (quiet_append (quiet_rule hx) (quiet_append ?_ (quiet_append
    (quiet_flatMap _ (fun k => quiet_histLine hx _ _ _) _) (quiet_append ?_ (quiet_append ?_ (quiet_rule hx)))))))
  · exact quiet_lit "#                         Histogram of test p-values                          #".toList (by decide) (head_ne hx rfl)
  · exact quiet_lit "# Bin scale = 0.100000".toList (by decide) (head_ne hx rfl)
  · exact quiet_lit "#       |--------------------------------------------------".toList (by decide) (head_ne hx rfl)
  · exact quiet_lit "#       | 0.1| 0.2| 0.3| 0.4| 0.5| 0.6| 0.7| 0.8| 0.9| 1.0|".toList (by decide) (head_ne hx rfl)

theorem row_head {c : RepCfg} (hp : c.on 512 = true) (t : RepTest) (r : RepRow) : ((rowFields c t r).1).head? = some '2' := by
  rw [rowFields_cells, hp]
  simp only [opt, if_true, List.append_assoc, List.singleton_append]
  rw [List.cons_append, intercalate_head]

/-- A line with one of the p-values, without its end. -/
def valueLine (c : RepCfg) (p : ℚ) : List Char := c.sep :: (c.fmtP p ++ [c.sep])

/-- The lines of a result that begin with `ch`. -/
def rowOut (ch : Char) (c : RepCfg) (t : RepTest) (r : RepRow) : List (List Char) :=
  (if ch = '2' then [(rowFields c t r).1] else []) ++ (if c.on 65536 && ch = c.sep then r.pvalues.map (valueLine c) else [])

theorem emits_vals (c : RepCfg) (hc : Readable c) : ∀ ps : List ℚ,
    Emits ch (ps.flatMap fun p => c.sep :: (c.fmtP p ++ [c.sep, '\n'])) (if ch = c.sep then ps.map (valueLine c) else [])
  | [] => by
    rw [List.map_nil, ite_self]
    exact emits_nil
  | p :: ps => by
    have h1 : Emits ch (valueLine c p ++ ['\n']) ((if (valueLine c p).head? = some ch then [valueLine c p] else []) ++ []) := emits_line (by
      rw [valueLine]
      simp only [List.mem_cons, List.mem_append, not_or, List.not_mem_nil]
      exact ⟨fun e => hc.sepLine e.symm, cell_line (hc.pval p), fun e => hc.sepLine e.symm, not_false⟩) emits_nil
    have h2 := emits_append h1 (emits_vals c hc ps)
    rw [List.flatMap_cons, show c.sep :: (c.fmtP p ++ [c.sep, '\n']) = valueLine c p ++ ['\n'] by simp [valueLine]]
    have e : (if ch = c.sep then (p :: ps).map (valueLine c) else []) =
        (if (valueLine c p).head? = some ch then [valueLine c p] else []) ++ [] ++ (if ch = c.sep then ps.map (valueLine c) else []) := by
      by_cases hch : ch = c.sep
      · rw [if_pos hch, if_pos hch, if_pos (by rw [hch]; rfl)]
        rfl
      · rw [if_neg hch, if_neg hch, if_neg (show (valueLine c p).head? ≠ some ch from fun h => hch (Option.some.inj h).symm)]
        rfl
    rw [e]
    exact h2

theorem emits_rows (c : RepCfg) (hc : Readable c) (hp : c.on 512 = true) (hx : '#' ≠ ch) (h0 : '0' ≠ ch) (t : RepTest) (ht : Cell t.sname) :
    ∀ (rows : List RepRow) (text : List Char), tableRows c t rows = .ok text → Emits ch text (rows.flatMap (rowOut ch c t))
  | [], text, h => by
    rw [tableRows] at h
    rw [← Res.ok.inj h]
    exact emits_nil
  | r :: rs, text, h => by
    rw [tableRows] at h
    obtain ⟨hist, h1, h⟩ := Res.bind_eq_ok.1 h
    obtain ⟨rest, h2, h⟩ := Res.bind_eq_ok.1 h
    rw [← Res.ok.inj h]
    have ih := emits_rows c hc hp hx h0 t ht rs rest h2
    have q1 : Emits ch hist [] := by
      split at h1
      · obtain ⟨x, h3, h4⟩ := Res.bind_eq_ok.1 h1
        rw [← Res.ok.inj h4]
        exact quiet_append (quiet_hist hx h3) (quiet_if _ fun _ => quiet_head c hc hp hx h0)
      · rw [← Res.ok.inj h1]
        exact emits_nil
    have hl : '\n' ∉ (rowFields c t r).1 := by
      obtain ⟨cells, e1, e2⟩ := row_padded hc ht r
      rw [e1]
      exact padded_lines hc _ _ e2
    have hif : (if (rowFields c t r).1.head? = some ch then [(rowFields c t r).1] else []) = if ch = '2' then [(rowFields c t r).1] else [] := by
      rw [row_head hp t r]
      by_cases e : ch = '2'
      · rw [if_pos e, if_pos (by rw [e])]
      · rw [if_neg e, if_neg (fun h => e (Option.some.inj h).symm)]
    rw [List.flatMap_cons, ← List.nil_append (rowOut ch c t r ++ _)]
    refine emits_append q1 ?_
    by_cases hv : c.on 65536 = true
    · rw [if_pos hv]
      have blank : Emits ch ('\n' :: rest) (rs.flatMap (rowOut ch c t)) := by
        have := emits_line (l := []) (by simp) ih
        simpa using this
      have tail : Emits ch (repRule ++ ("#                          Values of test p-values                            #\n".toList ++ (repRule ++
          ((r.pvalues.flatMap fun p => c.sep :: (c.fmtP p ++ [c.sep, '\n'])) ++ repRule))) ++ ('\n' :: rest))
          ((if ch = c.sep then r.pvalues.map (valueLine c) else []) ++ rs.flatMap (rowOut ch c t)) := by
        refine emits_append ?_ blank
        have h3 := emits_append (quiet_rule hx) (emits_append (quiet_lit "#                          Values of test p-values                            #".toList
          (by decide) (head_ne hx rfl)) (emits_append (quiet_rule hx) (emits_append (emits_vals c hc r.pvalues) (quiet_rule hx))))
        rw [List.nil_append, List.nil_append, List.nil_append, List.append_nil] at h3
        exact h3
      have h4 := emits_line hl tail
      rw [hif] at h4
      rw [psampleVals, List.cons_append, rowOut, hv, Bool.true_and, List.append_assoc]
      simpa using h4
    · rw [if_neg hv, rowOut, Bool.eq_false_iff.2 hv, Bool.false_and, if_neg (by decide : ¬ (false = true)), List.append_nil]
      have h4 := emits_line hl ih
      rw [hif] at h4
      exact h4

theorem emits_calls (c : RepCfg) (hc : Readable c) (hl : OneLine c) (hp : c.on 512 = true) (hd : c.on 1024 = false) (hx : '#' ≠ ch)
    (h0 : '0' ≠ ch) : ∀ (ts : List RepTest) (first : Bool) (text : List Char), (∀ t ∈ ts, Cell t.sname) → reportCalls c first ts = .ok text →
      Emits ch text ((if first && c.on 2 && ch = '1' then (ts.take 1).map fun t => infoLine c t.seed else []) ++
        ts.flatMap fun t => t.rows.flatMap (rowOut ch c t))
  | [], first, text, _, h => by
    rw [reportCalls] at h
    rw [← Res.ok.inj h]
    simpa using emits_nil
  | t :: ts, first, text, ht, h => by
    rw [reportCalls] at h
    obtain ⟨lines, h1, h⟩ := Res.bind_eq_ok.1 h
    obtain ⟨rest, h2, h⟩ := Res.bind_eq_ok.1 h
    rw [← Res.ok.inj h]
    rw [tableLines, hd] at h1
    obtain ⟨rows, h3, h4⟩ := Res.bind_eq_ok.1 h1
    have h5 : rows = lines := by simpa using h4
    subst h5
    rw [List.flatMap_cons]
    have hpre : Emits ch (if first then repPreamble c t else []) (if first && c.on 2 && ch = '1' then [infoLine c t.seed] else []) := by
      have := emits_if first fun _ => emits_append (quiet_if (c.on 1) fun _ => quiet_header _ hl.version hx) (emits_append
        (emits_if (c.on 2) fun _ => emits_info c hc hl hp h0 t.seed) (quiet_if (c.on 4 && !c.on 2048) fun _ => quiet_head c hc hp hx h0))
      rw [repPreamble]
      generalize c.on 2 = b at this ⊢
      cases first <;> cases b <;> simpa using this
    have hrest := emits_calls c hc hl hp hd hx h0 ts false rest (fun u hu => ht u (List.mem_cons_of_mem _ hu)) h2
    have := emits_append hpre (emits_append (l := []) (quiet_note c hl hx t)
      (emits_append (emits_rows c hc hp hx h0 t (ht t (by simp)) t.rows rows h3) hrest))
    simpa using this

theorem on_nine {c : RepCfg} (hp : c.tflag.getLsbD 9 = true) : c.on 512 = true := by
  have := on_bit c 9 (by decide)
  rw [show BitVec.twoPow 32 9 = 512 by decide] at this
  rw [this, hp]

theorem on_ten {c : RepCfg} (hd : c.tflag.getLsbD 10 = false) : c.on 1024 = false := by
  have := on_bit c 10 (by decide)
  rw [show BitVec.twoPow 32 10 = 1024 by decide] at this
  rw [this, hd]

theorem linesWith_nil : linesWith ch [] = [] := rfl

theorem emits_all {a : List Char} {l : List (List Char)} (h : Emits ch a l) : linesWith ch a = l := by
  have := h []
  rwa [List.append_nil, linesWith_nil, List.append_nil] at this

theorem sep_ne {c : RepCfg} (hc : Readable c) {a : Char} (ha : cellChar a = true) : a ≠ c.sep := by
  rintro rfl
  rw [hc.sep] at ha
  exact absurd ha (by decide)

/-- **C117.** A program that takes the lines beginning with 2 and cuts them at the separator gets one record for each p-value of each test, in
the order of the tests, with the selected columns, whatever else is printed (the descriptions of the tests excepted). -/
theorem C117_script (c : RepCfg) (hc : Readable c) (hl : OneLine c) (hp : c.tflag.getLsbD 9 = true) (hd : c.tflag.getLsbD 10 = false)
    (ts : List RepTest) (hts : ∀ t ∈ ts, Cell t.sname) (text : List Char) (h : reportCalls c true ts = .ok text) :
    (resultLines text).map (fieldsOf c.sep) =
      ts.flatMap fun t => t.rows.map fun r => (columns c.tflag c.strategy).map (Column.content c t r) := by
  have e := emits_all (emits_calls (ch := '2') c hc hl (on_nine hp) (on_ten hd) (by decide) (by decide) ts true text hts h)
  have hsep := sep_ne hc (a := '2') (by decide)
  have er : ∀ t r, rowOut '2' c t r = [(rowFields c t r).1] := fun t r => by simp [rowOut, hsep]
  simp only [show ('2' = '1') = False by simp, decide_false, Bool.and_false, Bool.false_eq_true, if_false, List.nil_append] at e
  have hne : columns c.tflag c.strategy ≠ [] := by
    intro hn
    have := congrArg (List.elem .lineType) hn
    simp [columns, List.filter_cons, Column.shown, hp] at this
  rw [resultLines, e, List.map_flatMap]
  rw [List.flatMap_def, List.flatMap_def]
  congr 1
  refine List.map_congr_left fun t ht => ?_
  have e3 : t.rows.flatMap (rowOut '2' c t) = t.rows.map fun r => (rowFields c t r).1 := by
    rw [← List.flatMap_pure_eq_map]
    exact congrArg (fun f => t.rows.flatMap f) (funext (er t))
  rw [e3, List.map_map]
  exact List.map_congr_left fun r _ => (C117_columns c hc hne).2 t r (hts t ht)

/-- **C117.** If all p-values are to be shown (bit 16), the lines that begin with the separator hold them, in the order in which they were found. -/
theorem C117_values (c : RepCfg) (hc : Readable c) (hl : OneLine c) (hp : c.tflag.getLsbD 9 = true) (hd : c.tflag.getLsbD 10 = false)
    (hx : c.sep ≠ '#') (ts : List RepTest) (hts : ∀ t ∈ ts, Cell t.sname) (text : List Char) (h : reportCalls c true ts = .ok text) :
    (linesWith c.sep text).map (fieldsOf c.sep) =
      if c.tflag.getLsbD 16 then ts.flatMap fun t => t.rows.flatMap fun r => r.pvalues.map fun p => [[], c.fmtP p, []] else [] := by
  have e := emits_all (emits_calls (ch := c.sep) c hc hl (on_nine hp) (on_ten hd) (Ne.symm hx) (sep_ne hc (by decide)) ts true text hts h)
  have h1 := Ne.symm (sep_ne hc (a := '1') (by decide))
  have h2 := Ne.symm (sep_ne hc (a := '2') (by decide))
  simp only [h1, decide_false, Bool.and_false, Bool.false_eq_true, if_false, List.nil_append] at e
  have h16 : c.on 65536 = c.tflag.getLsbD 16 := by
    have := on_bit c 16 (by decide)
    rwa [show BitVec.twoPow 32 16 = 65536 by decide] at this
  have er : ∀ t, rowOut c.sep c t = fun r => if c.tflag.getLsbD 16 then r.pvalues.map (valueLine c) else [] := fun t => by
    funext r
    rw [rowOut, h16, if_neg h2, List.nil_append]
    simp
  have hf : ∀ p, fieldsOf c.sep (valueLine c p) = [[], c.fmtP p, []] := by
    intro p
    have hns : c.sep ∉ c.fmtP p := fun hm => sep_ne hc (hc.pval p _ hm) rfl
    have := List.splitOn_append_cons_self_of_not_mem (xs := []) (a := c.sep) (by simp) (c.fmtP p ++ [c.sep])
    rw [List.nil_append] at this
    rw [fieldsOf, valueLine, this, List.splitOn_append_cons_self_of_not_mem hns]
    have ht : trim (c.fmtP p) = c.fmtP p := trim_cell (hc.pval p)
    simp only [List.map_cons, ht]
    rfl
  rw [e]
  simp only [er]
  by_cases hb : c.tflag.getLsbD 16 = true
  · simp only [hb, if_true, List.map_flatMap, List.map_map]
    refine congrArg (fun f => ts.flatMap f) (funext fun t => congrArg (fun f => t.rows.flatMap f) (funext fun r => ?_))
    exact List.map_congr_left fun p _ => hf p
  · simp only [hb, if_false, Bool.false_eq_true]
    have : ∀ l : List RepTest, (l.flatMap fun t => t.rows.flatMap fun _ => ([] : List (List Char))) = [] := by
      intro l
      induction l with
      | nil => rfl
      | cons t l ih =>
        rw [List.flatMap_cons, ih, List.append_nil]
        induction t.rows with
        | nil => rfl
        | cons r l ih => exact ih
    rw [this]
    rfl

theorem splitOn_ended (sep : Char) (rest : List Char) : ∀ ls : List (List Char), (∀ l ∈ ls, sep ∉ l) →
    ((ls.flatMap fun l => l ++ [sep]) ++ rest).splitOn sep = ls ++ rest.splitOn sep
  | [], _ => rfl
  | l :: ls, h => by
    rw [List.flatMap_cons, List.append_assoc, List.append_assoc, List.singleton_append,
      List.splitOn_append_cons_self_of_not_mem (h l (by simp)), splitOn_ended sep rest ls fun m hm => h m (List.mem_cons_of_mem _ hm)]
    rfl

/-- A text that can be found between separators. -/
def Plain (sep : Char) (s : List Char) : Prop := sep ∉ s ∧ trim s = s

theorem plain_cell {c : RepCfg} (hc : Readable c) {s : List Char} (h : Cell s) : Plain c.sep s :=
  ⟨fun hm => sep_ne hc (h _ hm) rfl, trim_cell h⟩

theorem trim_pad (w : Nat) (s : List Char) : trim (fmtRight w s) = trim s := by
  rw [trim, fmtRight, dropWhile_blanks, trim]

theorem trim_end {s : List Char} (h : trim s = s) (k : Nat) : trim (s ++ List.replicate k ' ') = s := by
  cases s with
  | nil => rw [List.nil_append, trim, ← List.append_nil (List.replicate k ' '), dropWhile_blanks]; rfl
  | cons a l =>
    have ha : a ≠ ' ' := by
      rintro rfl
      rw [trim, List.dropWhile_cons, if_pos (by decide)] at h
      have h1 := congrArg List.length h
      rw [List.length_reverse] at h1
      have h2 := (List.dropWhile_sublist (fun x => decide (x = ' ')) (l := (l.dropWhile (fun x => decide (x = ' '))).reverse)).length_le
      have h3 := (List.dropWhile_sublist (fun x => decide (x = ' ')) (l := l)).length_le
      rw [List.length_reverse] at h2
      rw [List.length_cons] at h1
      omega
    rw [trim, List.dropWhile_cons, if_neg (by simpa using ha)] at h
    rw [trim, List.cons_append, List.dropWhile_cons, if_neg (by simpa using ha), ← List.cons_append, List.reverse_append, List.reverse_replicate,
      dropWhile_blanks, h]

theorem infoField_opt (sep : Char) (on : Bool) (txt : List Char) : infoField sep on txt = (opt on txt).flatMap fun l => l ++ [sep] := by
  cases on
  · rfl
  · simp [infoField, opt]

theorem map_opt {α β : Type} (f : α → β) (on : Bool) (x : α) : (opt on x).map f = opt on (f x) := by
  cases on <;> rfl

theorem mem_opt {α : Type} {on : Bool} {x y : α} (h : y ∈ opt on x) : y = x := by
  cases on
  · cases h
  · exact List.mem_singleton.1 h

/-- **C117.** If the generator is to be shown (bit 1), one line begins with 1; it describes the generator. -/
theorem C117_generator (c : RepCfg) (hc : Readable c) (hl : OneLine c) (hp : c.tflag.getLsbD 9 = true) (hd : c.tflag.getLsbD 10 = false)
    (h1 : Plain c.sep c.rngName) (h2 : Plain c.sep c.filename) (h3 : Plain c.sep c.rate) (h4 : Plain c.sep c.rateWide)
    (ts : List RepTest) (hts : ∀ t ∈ ts, Cell t.sname) (text : List Char) (h : reportCalls c true ts = .ok text) :
    (linesWith '1' text).map (fieldsOf c.sep) =
      if c.tflag.getLsbD 1 then (ts.take 1).map fun t => generatorFields c t.seed ++ [[]] else [] := by
  have e := emits_all (emits_calls (ch := '1') c hc hl (on_nine hp) (on_ten hd) (by decide) (by decide) ts true text hts h)
  have hbit : ∀ k < 32, ∀ m, m = BitVec.twoPow 32 k → c.on m = c.tflag.getLsbD k := fun k hk m hm => hm ▸ on_bit c k hk
  have b1 := hbit 1 (by decide) 2 (by decide)
  have b12 := hbit 12 (by decide) 4096 (by decide)
  have b13 := hbit 13 (by decide) 8192 (by decide)
  have b14 := hbit 14 (by decide) 16384 (by decide)
  have b15 := hbit 15 (by decide) 32768 (by decide)
  have hsep1 := sep_ne hc (a := '1') (by decide)
  have er : ∀ t, rowOut '1' c t = fun _ => [] := fun t => by
    funext r
    rw [rowOut, if_neg (by decide)]
    simp [hsep1]
  have hnil : ∀ l : List RepTest, (l.flatMap fun t => t.rows.flatMap (rowOut '1' c t)) = [] := by
    intro l
    induction l with
    | nil => rfl
    | cons t l ih =>
      rw [List.flatMap_cons, ih, List.append_nil, er]
      induction t.rows with
      | nil => rfl
      | cons r l ih => exact ih
  rw [hnil, List.append_nil, b1] at e
  rw [e]
  simp only [Bool.true_and, decide_true, Bool.and_true]
  by_cases hb : c.tflag.getLsbD 1 = true
  swap
  · rw [if_neg hb, if_neg hb]
    rfl
  rw [if_pos hb, if_pos hb, List.map_map]
  refine List.map_congr_left fun t _ => ?_
  have padN : ∀ (w n : Nat) (b : Bool), Plain c.sep (Nat.toDigits 10 n) := fun w n b => plain_cell hc (digits_cell n)
  have hline : infoLine c t.seed = ([['1']] ++
      ([if c.on 32768 then c.rngName else fmtRight 15 c.rngName] ++
      opt (c.on 16384) (if c.on 32768 then fmtInt c.generator else fmtRight 3 (fmtInt c.generator)) ++
      opt c.fromfile (if c.on 32768 then c.filename else fmtRight 32 c.filename) ++
      opt (c.on 8192) (if c.on 32768 then c.rate else c.rateWide ++ "  ".toList) ++
      opt (c.on 4096 && !c.strategy && !c.fromfile)
        (if c.on 32768 then Nat.toDigits 10 t.seed else fmtRight 10 (Nat.toDigits 10 t.seed)))).flatMap fun l => l ++ [c.sep] := by
    rw [infoLine, on_nine hp]
    simp only [infoField_opt, List.flatMap_append]
    rfl
  have pad : ∀ {s : List Char}, Plain c.sep s → ∀ (w : Nat) (b : Bool), c.sep ∉ (if b then s else fmtRight w s) ∧
      trim (if b then s else fmtRight w s) = s := by
    intro s hs w b
    cases b
    · refine ⟨?_, (trim_pad w s).trans hs.2⟩
      simp only [Bool.false_eq_true, if_false, fmtRight, List.mem_append, not_or]
      exact ⟨fun hm => hc.sepBlank (List.mem_replicate.1 hm).2, hs.1⟩
    · exact hs
  have p1 := pad h1 15 (c.on 32768)
  have p2 := pad (plain_cell hc (fmtInt_cell c.generator)) 3 (c.on 32768)
  have p3 := pad h2 32 (c.on 32768)
  have p5 := pad (plain_cell hc (digits_cell t.seed)) 10 (c.on 32768)
  have p4 : c.sep ∉ (if c.on 32768 then c.rate else c.rateWide ++ "  ".toList) ∧
      trim (if c.on 32768 then c.rate else c.rateWide ++ "  ".toList) = if c.on 32768 then c.rate else c.rateWide := by
    by_cases hw : c.on 32768 = true
    · rw [if_pos hw, if_pos hw]
      exact h3
    · rw [if_neg hw, if_neg hw]
      refine ⟨?_, trim_end h4.2 2⟩
      rw [List.mem_append, not_or]
      exact ⟨h4.1, fun hm => hc.sepBlank (by simpa using hm)⟩
  have hsp := splitOn_ended c.sep [] _ (by
    intro l hm
    have hm : l ∈ [['1']] ++ ([if c.on 32768 then c.rngName else fmtRight 15 c.rngName] ++
      opt (c.on 16384) (if c.on 32768 then fmtInt c.generator else fmtRight 3 (fmtInt c.generator)) ++
      opt c.fromfile (if c.on 32768 then c.filename else fmtRight 32 c.filename) ++
      opt (c.on 8192) (if c.on 32768 then c.rate else c.rateWide ++ "  ".toList) ++
      opt (c.on 4096 && !c.strategy && !c.fromfile) (if c.on 32768 then Nat.toDigits 10 t.seed else fmtRight 10 (Nat.toDigits 10 t.seed))) := hm
    simp only [List.mem_append, List.mem_singleton] at hm
    rcases hm with rfl | (((rfl | hm) | hm) | hm) | hm
    · exact fun hm => hsep1 (List.mem_singleton.1 hm).symm
    · exact p1.1
    · rw [mem_opt hm]; exact p2.1
    · rw [mem_opt hm]; exact p3.1
    · rw [mem_opt hm]; exact p4.1
    · rw [mem_opt hm]; exact p5.1)
  rw [List.append_nil] at hsp
  rw [Function.comp_apply, fieldsOf, hline, hsp, generatorFields]
  simp only [List.map_append, map_opt, List.map_cons, List.map_nil, p1.2, p2.2, p3.2, p4.2, p5.2, ← fmtInt_toString, nat_toString]
  rw [b12, b13, b14, b15]
  simp [opt, trim]

/-- **C117.** The names of the tests meet the assumption, and 20 characters are enough to tell them apart. -/
theorem C117_names : (∀ e ∈ catalogue, Cell e.2.2) ∧ (catalogue.map fun e => e.2.2.take 20).Nodup ∧
    ∃ e ∈ catalogue, e.2.2.take 20 ≠ e.2.2 := by
  refine ⟨?_, ?_, ?_⟩
  · unfold Cell
    decide +kernel
  · decide +kernel
  · decide +kernel

/-- A configuration that shows everything but the descriptions. -/
def demoCfg (tflag : UInt) : RepCfg := ⟨"3.31.1".toList, tflag, '|', true, false, "mt19937".toList, [], 13, "2.5e+08".toList, "2.5e+08".toList,
  fun p => Nat.toDigits 10 p.num.natAbs, 1 / 1000000, 1 / 200, 100⟩

theorem demo_readable (tflag : UInt) : Readable (demoCfg tflag) :=
  ⟨show cellChar '|' = false by decide, show '|' ≠ ' ' by decide, show '|' ≠ '\n' by decide, fun p => digits_cell _⟩

theorem demo_oneLine (tflag : UInt) : OneLine (demoCfg tflag) :=
  ⟨show '\n' ∉ "3.31.1".toList by decide, show '\n' ∉ "mt19937".toList by decide, List.not_mem_nil, show '\n' ∉ "2.5e+08".toList by decide,
    show '\n' ∉ "2.5e+08".toList by decide⟩

def demoTests : List RepTest :=
  [⟨203, "rgb_lagged_sum".toList, [], 77, 1000000, 100, 0, 0, [⟨0, 1, [1, 1 / 2]⟩]⟩,
   ⟨209, "dab_monobit2_and_more_letters".toList, [], 78, 65000000, 1, 0, 0, [⟨12, 0, [0]⟩, ⟨13, 1 / 2, [1 / 2]⟩]⟩]

/-- Three records are found in the report on two tests, with histograms, all p-values and all headers around them. -/
example : (match reportCalls (demoCfg 0x37BFF) true demoTests with
    | .ok text => (resultLines text).map fun l => (fieldsOf '|' l).map String.ofList
    | _ => []) =
    [["2", "rgb_lagged_sum", "203", "0", "1000000", "100", "1", "FAILED", "77"],
     ["2", "dab_monobit2_and_mor", "209", "12", "65000000", "1", "0", "FAILED", "78"],
     ["2", "dab_monobit2_and_mor", "209", "13", "65000000", "1", "1", "PASSED", "78"]] := by
  decide +kernel

/-- The hypotheses hold in this example. -/
example (text : List Char) (h : reportCalls (demoCfg 0x37BFF) true demoTests = .ok text) :
    (resultLines text).map (fieldsOf '|') = demoTests.flatMap fun t => t.rows.map fun r =>
      (columns 0x37BFF true).map (Column.content (demoCfg 0x37BFF) t r) :=
  C117_script (demoCfg 0x37BFF) (demo_readable _) (demo_oneLine _) (by decide) (by decide) demoTests (by
    unfold Cell
    decide +kernel) text h

/-- The line on the generator and the lines with single p-values (of which `fmtP` shows the numerators here). -/
example : (match reportCalls (demoCfg 0x37BFF) true demoTests with
    | .ok text => ((linesWith '1' text).map (fun l => (fieldsOf '|' l).map String.ofList),
        (linesWith '|' text).map fun l => (fieldsOf '|' l).map String.ofList)
    | _ => ([], [])) =
    ([["1", "mt19937", "13", "2.5e+08", ""]], [["", "1", ""], ["", "1", ""], ["", "0", ""], ["", "1", ""]]) := by
  decide +kernel

end Dh
