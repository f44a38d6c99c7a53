import Verif.Model.Select
import Verif.Proof.Tally
import Mathlib.Data.Nat.Digits.Defs
import Mathlib.Data.List.Induction
import Mathlib.Data.List.TakeWhile
import Mathlib.Tactic.Ring
import Mathlib.Tactic.Linarith
/-
C91: which generator and which test the command line selects.
-/
namespace Dh
namespace Spec

/-- The text begins with a decimal number `v` (after white space and a sign), and `rest` follows its last digit. -/
def ReadsNumber (s : List Char) (v : Int) (rest : List Char) : Prop := ∃ ws sg ds : List Char, s = ws ++ (sg ++ (ds ++ rest)) ∧
  (∀ c ∈ ws, c = ' ' ∨ c = '\t' ∨ c = '\n' ∨ c.toNat = 11 ∨ c.toNat = 12 ∨ c = '\r') ∧ ds ≠ [] ∧ (∀ c ∈ ds, c.isDigit = true) ∧
  (∀ c ∈ rest.head?, c.isDigit = false) ∧
  (((sg = [] ∨ sg = ['+']) ∧ v = (Nat.ofDigits 10 (ds.map fun c => c.toNat - 48).reverse : Nat)) ∨
    (sg = ['-'] ∧ v = -((Nat.ofDigits 10 (ds.map fun c => c.toNat - 48).reverse : Nat) : Int)))

/-- The argument counts as a number: it begins with a number, and its first character is not repeated after the number.  The number
is used modulo 2^32 (beyond the range of `long`, as -1 or 0). -/
def IsNumber (s : List Char) (x : UInt) : Prop := ∃ v rest, ReadsNumber s v rest ∧ s.head? ≠ rest.head? ∧
  x = if v > 9223372036854775807 then -1 else if v < -9223372036854775808 then 0 else BitVec.ofInt 32 v

/-- The argument counts as a name. -/
def IsName (s : List Char) : Prop := ∀ v rest, ReadsNumber s v rest → s.head? = rest.head?

/-- The first entry of a table whose name agrees in the first `n` characters. -/
def FirstNamed (types : List (Option (List Char))) (n : Nat) (name : List Char) (i : Nat) : Prop :=
  (∃ nm, types[i]? = some (some nm) ∧ nm.take n = name.take n) ∧ ∀ j < i, ∀ nm, types[j]? = some (some nm) → nm.take n ≠ name.take n

/-- The arguments of the options -g, -d, -S. -/
def gArgs (opts : List SelOpt) : List (List Char) := opts.filterMap fun | .g a => some a | _ => none
def dArgs (opts : List SelOpt) : List (List Char) := opts.filterMap fun | .d a => some a | _ => none
def sArgs (opts : List SelOpt) : List (List Char) := opts.filterMap fun | .S a => some a | _ => none

/-- There is an option -f. -/
def HasFile (opts : List SelOpt) : Prop := ∃ a, SelOpt.f a ∈ opts

/-- The generator number given by the first -g (13 without -g or for the empty name). -/
def RngNumber (opts : List SelOpt) (x : UInt) : Prop :=
  (∃ a, (gArgs opts).head? = some a ∧ IsNumber a x) ∨ ((gArgs opts = [] ∨ (gArgs opts).head? = some []) ∧ x = 13)

/-- The choice of generator `i`: only the first -g counts, by number or by the first twenty characters of the name; a generator
`file_input...` needs a file. -/
def RngChoice (rngs : List (Option (List Char))) (opts : List SelOpt) (i : Nat) : Prop :=
  ((∃ a, (gArgs opts).head? = some a ∧ a ≠ [] ∧ IsName a ∧ FirstNamed rngs 20 a i) ∨
    (∃ x, RngNumber opts x ∧ i = x.toNat ∧ ∃ nm, nm ≠ [] ∧ rngs[i]? = some (some nm))) ∧
  ((∃ nm, rngs[i]? = some (some nm) ∧ "file_input".toList <+: nm) → HasFile opts)

/-- `x` is the last number among the arguments of -d (-1 if there is none). -/
def LastNumber (l : List (List Char)) (x : UInt) : Prop :=
  (∃ pre a post, l = pre ++ a :: post ∧ IsNumber a x ∧ ∀ b ∈ post, IsName b) ∨ ((∀ b ∈ l, IsName b) ∧ x = -1)

/-- `a` is the last name among the arguments of -d (empty if there is none). -/
def LastName (l : List (List Char)) (a : List Char) : Prop :=
  (∃ pre post, l = pre ++ a :: post ∧ IsName a ∧ ∀ b ∈ post, ¬ IsName b) ∨ ((∀ b ∈ l, ¬ IsName b) ∧ a = [])

/-- The choice of test `i`: the last number after -d, whether or not a name follows; names count only if there is no number, or if
the last number is negative (as an `int`). -/
def TestChoice (tests : List (Option (List Char))) (opts : List SelOpt) (i : Nat) : Prop :=
  ∃ x a, LastNumber (dArgs opts) x ∧ LastName (dArgs opts) a ∧
    if x.toNat < 2147483648 then i = x.toNat ∧ ∃ nm, tests[i]? = some (some nm) else FirstNamed tests 128 (a.take 127) i

end Spec
open Spec

theorem decimalOf_eq (ds : List Char) : decimalOf ds = Nat.ofDigits 10 (ds.map fun c => c.toNat - 48).reverse := by
  induction ds using List.reverseRecOn with
  | nil => rfl
  | append_singleton l c ih =>
    rw [decimalOf, List.foldl_append]
    simp only [List.foldl_cons, List.foldl_nil, List.map_append, List.map_cons, List.map_nil, List.reverse_append, List.reverse_cons,
      List.reverse_nil, List.nil_append, List.singleton_append, Nat.ofDigits_cons]
    rw [← decimalOf, ih]
    omega

theorem cSpace_iff (c : Char) : cSpace c = true ↔ (c = ' ' ∨ c = '\t' ∨ c = '\n' ∨ c.toNat = 11 ∨ c.toNat = 12 ∨ c = '\r') := by
  have h : ∀ d : Char, c = d ↔ c.toNat = d.toNat := fun d => ⟨fun h => h ▸ rfl, fun h => Char.toNat_inj.1 h⟩
  simp only [cSpace, Bool.or_eq_true, Bool.and_eq_true, decide_eq_true_eq]
  rw [h ' ', h '\t', h '\n', h '\r']
  simp only [Char.reduceToNat]
  omega

theorem takeWhile_run {p : Char → Bool} : ∀ (a b : List Char), (∀ c ∈ a, p c = true) → (∀ c ∈ b.head?, p c = false) →
    (a ++ b).takeWhile p = a ∧ (a ++ b).dropWhile p = b
  | [], [], _, _ => ⟨rfl, rfl⟩
  | [], c :: b, _, h => by
    have := h c (by simp)
    simp [List.takeWhile_cons, List.dropWhile_cons, this]
  | c :: a, b, h, h2 => by
    obtain ⟨h3, h4⟩ := takeWhile_run a b (fun d hd => h d (List.mem_cons_of_mem _ hd)) h2
    have := h c (by simp)
    simp [List.takeWhile_cons, List.dropWhile_cons, this, h3, h4]

/-- What `strtol` does with a number at the beginning. -/
theorem strtol_number {s rest : List Char} {v : Int} (h : ReadsNumber s v rest) :
    strtol s = (max (-9223372036854775808) (min 9223372036854775807 v), rest) := by
  obtain ⟨ws, sg, ds, rfl, h1, h2, h3, h4, h5⟩ := h
  have hd : ∃ c l, ds = c :: l := List.exists_cons_of_ne_nil h2
  obtain ⟨d, l, hdl⟩ := hd
  have hdig : d.isDigit = true := h3 d (by rw [hdl]; simp)
  have hdn : 48 ≤ d.toNat ∧ d.toNat ≤ 57 := by
    simp only [Char.isDigit, Bool.and_eq_true, decide_eq_true_eq, UInt32.le_iff_toNat_le] at hdig
    exact hdig
  have hs0 : ∀ c, c.toNat = 43 ∨ c.toNat = 45 ∨ (48 ≤ c.toNat ∧ c.toNat ≤ 57) → cSpace c = false := by
    intro c hc
    rw [Bool.eq_false_iff]
    intro hh
    simp only [cSpace, Bool.or_eq_true, Bool.and_eq_true, decide_eq_true_eq] at hh
    rcases hh with rfl | hh
    · simp at hc
    · omega
  have hw : ∀ c ∈ (sg ++ (ds ++ rest)).head?, cSpace c = false := by
    intro c hc
    rcases h5 with ⟨rfl | rfl, _⟩ | ⟨rfl, _⟩
    · rw [hdl] at hc
      simp only [List.nil_append, List.cons_append, List.head?_cons, Option.mem_some_iff] at hc
      exact hs0 c (by rw [← hc]; omega)
    · simp only [List.cons_append, List.head?_cons, Option.mem_some_iff] at hc
      exact hs0 c (by rw [← hc]; simp)
    · simp only [List.cons_append, List.head?_cons, Option.mem_some_iff] at hc
      exact hs0 c (by rw [← hc]; simp)
  obtain ⟨_, e2⟩ := takeWhile_run ws (sg ++ (ds ++ rest)) (fun c hc => (cSpace_iff c).2 (h1 c hc)) hw
  obtain ⟨e3, e4⟩ := takeWhile_run ds rest h3 h4
  rw [strtol, e2]
  have hsg : cSign (ds ++ rest) = (false, ds ++ rest) := by
    rw [hdl, List.cons_append, cSign]
    · intro u hu
      rw [List.cons.injEq] at hu
      rw [hu.1] at hdn
      simp at hdn
    · intro u hu
      rw [List.cons.injEq] at hu
      rw [hu.1] at hdn
      simp at hdn
  rcases h5 with ⟨rfl | rfl, rfl⟩ | ⟨rfl, rfl⟩
  · simp only [List.nil_append, hsg, e3, e4, if_neg h2, decimalOf_eq]
    simp
  · simp only [List.cons_append, List.nil_append, cSign, e3, e4, if_neg h2, decimalOf_eq]
    simp
  · simp only [List.cons_append, List.nil_append, cSign, e3, e4, if_neg h2, decimalOf_eq]
    simp

theorem cSign_cases (t : List Char) : ∃ sg, t = sg ++ (cSign t).2 ∧ (((sg = [] ∨ sg = ['+']) ∧ (cSign t).1 = false) ∨ (sg = ['-'] ∧ (cSign t).1 = true)) := by
  unfold cSign
  split
  · exact ⟨['-'], rfl, Or.inr ⟨rfl, rfl⟩⟩
  · exact ⟨['+'], rfl, Or.inl ⟨Or.inr rfl, rfl⟩⟩
  · exact ⟨[], rfl, Or.inl ⟨Or.inl rfl, rfl⟩⟩

theorem head_dropWhile (p : Char → Bool) : ∀ (l : List Char), ∀ c ∈ (l.dropWhile p).head?, p c = false
  | [], c, h => by simp at h
  | a :: l, c, h => by
    by_cases ha : p a = true
    · rw [List.dropWhile_cons, if_pos ha] at h
      exact head_dropWhile p l c h
    · rw [List.dropWhile_cons, if_neg ha] at h
      simp only [List.head?_cons, Option.mem_some_iff] at h
      rw [← h]
      simpa using ha

/-- What `strtol` does without a number at the beginning. -/
theorem strtol_none {s : List Char} (h : ∀ v rest, ¬ ReadsNumber s v rest) : strtol s = (0, s) := by
  obtain ⟨sg, e1, e2⟩ := cSign_cases (s.dropWhile cSpace)
  by_cases hd : ((cSign (s.dropWhile cSpace)).2.takeWhile Char.isDigit) = []
  · simp only [strtol, hd, if_true]
  · exfalso
    have e : s = s.takeWhile cSpace ++ (sg ++ ((cSign (s.dropWhile cSpace)).2.takeWhile Char.isDigit ++
        (cSign (s.dropWhile cSpace)).2.dropWhile Char.isDigit)) := by
      rw [List.takeWhile_append_dropWhile, ← e1, List.takeWhile_append_dropWhile]
    rcases e2 with ⟨h1, _⟩ | ⟨h1, _⟩
    · exact h _ _ ⟨_, sg, _, e, fun c hc => (cSpace_iff c).1 (List.mem_takeWhile_imp hc), hd, fun c hc => List.mem_takeWhile_imp hc,
        head_dropWhile _ _, Or.inl ⟨h1, rfl⟩⟩
    · exact h _ _ ⟨_, sg, _, e, fun c hc => (cSpace_iff c).1 (List.mem_takeWhile_imp hc), hd, fun c hc => List.mem_takeWhile_imp hc,
        head_dropWhile _ _, Or.inr ⟨h1, rfl⟩⟩

theorem take_one_eq {a b : List Char} : (strncmpEq a b 1 = true) ↔ a.head? = b.head? := by
  rw [strncmpEq, beq_iff_eq]
  cases a <;> cases b <;> simp

/-- The argument as `parsecl` sees it: a number or a name. -/
def argKind (a : List Char) : Option UInt := if strncmpEq a (strtol a).2 1 then none else some (BitVec.ofInt 32 (strtol a).1)

theorem kind_number {a : List Char} {x : UInt} (h : IsNumber a x) : argKind a = some x := by
  obtain ⟨v, rest, h1, h2, h3⟩ := h
  rw [argKind, strtol_number h1, if_neg (by rw [take_one_eq]; exact h2), h3]
  congr 1
  split
  · rw [max_eq_right (by omega), min_eq_left (by omega)]
    rfl
  · split
    · rw [max_eq_left (by omega)]
      rfl
    · rw [min_eq_right (by omega), max_eq_right (by omega)]

theorem kind_name {a : List Char} (h : IsName a) : argKind a = none := by
  by_cases hr : ∃ v rest, ReadsNumber a v rest
  · obtain ⟨v, rest, h1⟩ := hr
    rw [argKind, strtol_number h1, if_pos (take_one_eq.2 (h v rest h1))]
  · rw [argKind, strtol_none (fun v rest h1 => hr ⟨v, rest, h1⟩), if_pos (take_one_eq.2 rfl)]

theorem number_or_name (a : List Char) : (∃ x, IsNumber a x) ∨ IsName a := by
  by_cases h : IsName a
  · exact Or.inr h
  · rw [IsName] at h
    push_neg at h
    obtain ⟨v, rest, h1, h2⟩ := h
    exact Or.inl ⟨_, v, rest, h1, h2, rfl⟩

theorem kind_none_iff (a : List Char) : argKind a = none ↔ IsName a := by
  refine ⟨fun h => ?_, kind_name⟩
  rcases number_or_name a with ⟨x, hx⟩ | h2
  · rw [kind_number hx] at h
    exact absurd h (by simp)
  · exact h2

theorem kind_some_iff (a : List Char) (x : UInt) : argKind a = some x ↔ IsNumber a x := by
  refine ⟨fun h => ?_, kind_number⟩
  rcases number_or_name a with ⟨y, hy⟩ | h2
  · rw [kind_number hy, Option.some.injEq] at h
    exact h ▸ hy
  · rw [kind_name h2] at h
    exact absurd h (by simp)


theorem selOpt_d (s : SelS) (a : List Char) : selOpt s (.d a) = .ok (match argKind a with
    | none => { s with dtestName := a.take 127 }
    | some x => { s with dtestNum := x }) := by
  simp only [selOpt, argKind]
  split <;> rfl

theorem selOpt_g (s : SelS) (a : List Char) (h1 : s.gnames.length = 100) (h2 : s.gnumbs.length = 100) (h3 : s.gvcount < 100) :
    ∃ tmp, selOpt s (.g a) = .ok (match argKind a with
    | none => { s with gnames := s.gnames.set s.gvcount (a.take 128), genTmp := tmp, gvcount := s.gvcount + 1 }
    | some x => { s with gnumbs := s.gnumbs.set s.gvcount x, genTmp := tmp, gvcount := s.gvcount + 1 }) := by
  refine ⟨BitVec.ofInt 32 (strtol a).1, ?_⟩
  simp only [selOpt, argKind]
  split
  · simp only [wr, h1, h3, if_true, Res.bind_ok]
  · simp only [wr, h2, h3, if_true, Res.bind_ok]

theorem selOpt_S (s : SelS) (a : List Char) (h1 : s.gseeds.length = 100) (h3 : s.gscount < 100) :
    selOpt s (.S a) = .ok { s with seed := BitVec.ofInt 32 (strtol a).1, gseeds := s.gseeds.set s.gscount s.genTmp, gscount := s.gscount + 1 } := by
  simp only [selOpt, wr, h1, h3, if_true, Res.bind_ok]

/-- What the options leave in the variables. -/
structure Parsed (opts : List SelOpt) (s t : SelS) : Prop where
  names : t.gnames.length = 100
  numbs : t.gnumbs.length = 100
  seeds : t.gseeds.length = 100
  low : ∀ i < s.gvcount, t.gnumbs[i]? = s.gnumbs[i]? ∧ t.gnames[i]? = s.gnames[i]?
  slot : ∀ i a, (gArgs opts)[i]? = some a → t.gnumbs[s.gvcount + i]? = (match argKind a with | none => s.gnumbs[s.gvcount + i]? | some x => some x) ∧
    t.gnames[s.gvcount + i]? = (match argKind a with | none => some (a.take 128) | some _ => s.gnames[s.gvcount + i]?)
  high : ∀ i, s.gvcount + (gArgs opts).length ≤ i → t.gnumbs[i]? = s.gnumbs[i]? ∧ t.gnames[i]? = s.gnames[i]?
  count : t.gvcount = s.gvcount + (gArgs opts).length
  num : t.dtestNum = ((dArgs opts).filterMap argKind).getLast?.getD s.dtestNum
  name : t.dtestName = (((dArgs opts).filter fun a => (argKind a).isNone).getLast?.map (·.take 127)).getD s.dtestName
  file : t.fromfile = true ↔ (s.fromfile = true ∨ HasFile opts)
  seed : t.seed = ((sArgs opts).getLast?.map fun a => BitVec.ofInt 32 (strtol a).1).getD s.seed

theorem parsed_run : ∀ (opts : List SelOpt) (s : SelS), s.gnames.length = 100 → s.gnumbs.length = 100 → s.gseeds.length = 100 →
    s.gvcount + (gArgs opts).length ≤ 100 → s.gscount + (sArgs opts).length ≤ 100 → ∃ t, selOpts opts s = .ok t ∧ Parsed opts s t
  | [], s, h1, h2, h3, h4, h5 => by
    refine ⟨s, rfl, h1, h2, h3, fun i _ => ⟨rfl, rfl⟩, ?_, fun i _ => ⟨rfl, rfl⟩, rfl, rfl, rfl, ?_, rfl⟩
    · intro i a h
      simp [gArgs] at h
    · simp [HasFile]
  | .d a :: opts, s, h1, h2, h3, h4, h5 => by
    have hg : gArgs (.d a :: opts) = gArgs opts := rfl
    have hs : sArgs (.d a :: opts) = sArgs opts := rfl
    have hd : dArgs (.d a :: opts) = a :: dArgs opts := rfl
    have hf : HasFile (.d a :: opts) ↔ HasFile opts := by simp [HasFile]
    rw [hg] at h4
    rw [hs] at h5
    rw [selOpts, selOpt_d]
    cases hk : argKind a with
    | none =>
      obtain ⟨t, e, p⟩ := parsed_run opts { s with dtestName := a.take 127 } h1 h2 h3 h4 h5
      refine ⟨t, e, p.names, p.numbs, p.seeds, p.low, by rw [hg]; exact p.slot, by rw [hg]; exact p.high, by rw [hg]; exact p.count, ?_, ?_, by rw [hf]; exact p.file, by rw [hs]; exact p.seed⟩
      · rw [hd, List.filterMap_cons, hk]
        exact p.num
      · rw [hd, List.filter_cons, hk]
        simp only [Option.isNone_none, if_true, List.getLast?_cons, Option.map_some, Option.getD_some]
        rw [p.name]
        cases ((dArgs opts).filter fun a => (argKind a).isNone).getLast? <;> rfl
    | some x =>
      obtain ⟨t, e, p⟩ := parsed_run opts { s with dtestNum := x } h1 h2 h3 h4 h5
      refine ⟨t, e, p.names, p.numbs, p.seeds, p.low, by rw [hg]; exact p.slot, by rw [hg]; exact p.high, by rw [hg]; exact p.count, ?_, ?_, by rw [hf]; exact p.file, by rw [hs]; exact p.seed⟩
      · rw [hd, List.filterMap_cons, hk]
        simp only [List.getLast?_cons, Option.getD_some]
        exact p.num
      · rw [hd, List.filter_cons, hk]
        simp only [Option.isNone_some, Bool.false_eq_true, if_false]
        exact p.name
  | .f a :: opts, s, h1, h2, h3, h4, h5 => by
    obtain ⟨t, e, p⟩ := parsed_run opts { s with fromfile := true } h1 h2 h3 h4 h5
    refine ⟨t, e, p.names, p.numbs, p.seeds, p.low, p.slot, p.high, p.count, p.num, p.name, ?_, p.seed⟩
    rw [p.file]
    simp [HasFile]
  | .S a :: opts, s, h1, h2, h3, h4, h5 => by
    have hs : sArgs (.S a :: opts) = a :: sArgs opts := rfl
    have hf : HasFile (.S a :: opts) ↔ HasFile opts := by simp [HasFile]
    rw [hs, List.length_cons] at h5
    rw [selOpts, selOpt_S s a h3 (by omega)]
    obtain ⟨t, e, p⟩ := parsed_run opts { s with seed := BitVec.ofInt 32 (strtol a).1, gseeds := s.gseeds.set s.gscount s.genTmp, gscount := s.gscount + 1 }
      h1 h2 (by rw [List.length_set]; exact h3) h4 (by simp only; omega)
    refine ⟨t, e, p.names, p.numbs, p.seeds, p.low, p.slot, p.high, p.count, p.num, p.name, by rw [hf]; exact p.file, ?_⟩
    rw [hs, List.getLast?_cons, p.seed]
    cases (sArgs opts).getLast? <;> rfl
  | .g a :: opts, s, h1, h2, h3, h4, h5 => by
    have hg : gArgs (.g a :: opts) = a :: gArgs opts := rfl
    have hf : HasFile (.g a :: opts) ↔ HasFile opts := by simp [HasFile]
    rw [hg, List.length_cons] at h4
    obtain ⟨tmp, e0⟩ := selOpt_g s a h1 h2 (by omega)
    rw [selOpts, e0]
    cases hk : argKind a with
    | none =>
      obtain ⟨t, e, p⟩ := parsed_run opts { s with gnames := s.gnames.set s.gvcount (a.take 128), genTmp := tmp, gvcount := s.gvcount + 1 }
        (by rw [List.length_set]; exact h1) h2 h3 (by simp only; omega) h5
      refine ⟨t, e, p.names, p.numbs, p.seeds, ?_, ?_, ?_, ?_, p.num, p.name, by rw [hf]; exact p.file, p.seed⟩
      · intro i hi
        have := p.low i (by simp only; omega)
        simp only [List.getElem?_set, show s.gvcount ≠ i by omega, if_false] at this
        exact this
      · intro i b hb
        rw [hg] at hb
        cases i with
        | zero =>
          simp only [List.getElem?_cons_zero, Option.some.injEq] at hb
          subst hb
          have := p.low s.gvcount (by simp only; omega)
          simp only [List.getElem?_set, if_true, h1, show s.gvcount < 100 by omega] at this
          simp only [hk, Nat.add_zero]
          exact this
        | succ i =>
          rw [List.getElem?_cons_succ] at hb
          have := p.slot i b hb
          simp only [List.getElem?_set, show s.gvcount ≠ s.gvcount + 1 + i by omega, if_false] at this
          rw [show s.gvcount + (i + 1) = s.gvcount + 1 + i by omega]
          exact this
      · intro i hi
        rw [hg, List.length_cons] at hi
        have := p.high i (by simp only; omega)
        simp only [List.getElem?_set, show s.gvcount ≠ i by omega, if_false] at this
        exact this
      · rw [p.count, hg, List.length_cons]
        simp only
        omega
    | some x =>
      obtain ⟨t, e, p⟩ := parsed_run opts { s with gnumbs := s.gnumbs.set s.gvcount x, genTmp := tmp, gvcount := s.gvcount + 1 }
        h1 (by rw [List.length_set]; exact h2) h3 (by simp only; omega) h5
      refine ⟨t, e, p.names, p.numbs, p.seeds, ?_, ?_, ?_, ?_, p.num, p.name, by rw [hf]; exact p.file, p.seed⟩
      · intro i hi
        have := p.low i (by simp only; omega)
        simp only [List.getElem?_set, show s.gvcount ≠ i by omega, if_false] at this
        exact this
      · intro i b hb
        rw [hg] at hb
        cases i with
        | zero =>
          simp only [List.getElem?_cons_zero, Option.some.injEq] at hb
          subst hb
          have := p.low s.gvcount (by simp only; omega)
          simp only [List.getElem?_set, if_true, h2, show s.gvcount < 100 by omega] at this
          simp only [hk, Nat.add_zero]
          exact this
        | succ i =>
          rw [List.getElem?_cons_succ] at hb
          have := p.slot i b hb
          simp only [List.getElem?_set, show s.gvcount ≠ s.gvcount + 1 + i by omega, if_false] at this
          rw [show s.gvcount + (i + 1) = s.gvcount + 1 + i by omega]
          exact this
      · intro i hi
        rw [hg, List.length_cons] at hi
        have := p.high i (by simp only; omega)
        simp only [List.getElem?_set, show s.gvcount ≠ i by omega, if_false] at this
        exact this
      · rw [p.count, hg, List.length_cons]
        simp only
        omega

theorem nameSearch_run (types : List (Option (List Char))) (name : List Char) (n : Nat) : ∀ (todo i : Nat), i + todo ≤ types.length →
    ∃ r, nameSearch types name n todo i = .ok r ∧ (∀ k, r = some k → i ≤ k ∧ k < i + todo ∧ (∃ nm, types[k]? = some (some nm) ∧ nm.take n = name.take n) ∧
      ∀ j, i ≤ j → j < k → ∀ nm, types[j]? = some (some nm) → nm.take n ≠ name.take n) ∧
      (r = none → ∀ j, i ≤ j → j < i + todo → ∀ nm, types[j]? = some (some nm) → nm.take n ≠ name.take n)
  | 0, i, _ => ⟨none, rfl, by simp, fun _ j h1 h2 => by omega⟩
  | todo + 1, i, h => by
    obtain ⟨r, e, h1, h2⟩ := nameSearch_run types name n todo (i + 1) (by omega)
    have hi : i < types.length := by omega
    have hget : types[i]? = some types[i] := List.getElem?_eq_getElem hi
    rw [nameSearch, rd_ok hi, Res.bind_ok]
    have step : (∀ nm, types[i]? = some (some nm) → nm.take n ≠ name.take n) →
        (∀ k, r = some k → i ≤ k ∧ k < i + (todo + 1) ∧ (∃ nm, types[k]? = some (some nm) ∧ nm.take n = name.take n) ∧
          ∀ j, i ≤ j → j < k → ∀ nm, types[j]? = some (some nm) → nm.take n ≠ name.take n) ∧
        (r = none → ∀ j, i ≤ j → j < i + (todo + 1) → ∀ nm, types[j]? = some (some nm) → nm.take n ≠ name.take n) := by
      intro h0
      constructor
      · intro k hk
        obtain ⟨a, b, c, d⟩ := h1 k hk
        refine ⟨by omega, by omega, c, fun j hj hjk => ?_⟩
        rcases Nat.eq_or_lt_of_le hj with rfl | hlt
        · exact h0
        · exact d j hlt hjk
      · intro hr j hj hjk
        rcases Nat.eq_or_lt_of_le hj with rfl | hlt
        · exact h0
        · exact h2 hr j hlt (by omega)
    cases ht : types[i] with
    | none =>
      refine ⟨r, e, step ?_⟩
      intro nm hnm
      rw [hget, ht] at hnm
      simp at hnm
    | some nm =>
      by_cases hc : strncmpEq nm name n = true
      · refine ⟨some i, by simp only [hc, if_true], ?_, by simp⟩
        intro k hk
        rw [Option.some.injEq] at hk
        subst hk
        rw [strncmpEq, beq_iff_eq] at hc
        exact ⟨le_rfl, by omega, ⟨nm, by rw [hget, ht], hc⟩, fun j h1 h2 => by omega⟩
      · refine ⟨r, by simp only [hc]; exact e, step ?_⟩
        intro nm' hnm
        rw [hget, ht, Option.some.injEq, Option.some.injEq] at hnm
        rw [strncmpEq, beq_iff_eq] at hc
        exact hnm ▸ hc

theorem nameSearch_all (types : List (Option (List Char))) (name : List Char) (n : Nat) (h : types.length = 1000) :
    ∃ r, nameSearch types name n 1000 0 = .ok r ∧ (∀ k, r = some k ↔ FirstNamed types n name k) := by
  obtain ⟨r, e, h1, h2⟩ := nameSearch_run types name n 1000 0 (by omega)
  refine ⟨r, e, fun k => ⟨fun hk => ?_, fun hk => ?_⟩⟩
  · obtain ⟨_, _, a, b⟩ := h1 k hk
    exact ⟨a, fun j hj => b j (by omega) hj⟩
  · obtain ⟨⟨nm, hn1, hn2⟩, hb⟩ := hk
    have hk1 : k < 1000 := by
      by_contra hc
      rw [List.getElem?_eq_none (by omega)] at hn1
      simp at hn1
    cases hr : r with
    | none => exact absurd hn2 (h2 hr k (by omega) (by omega) nm hn1)
    | some m =>
      obtain ⟨_, _, ⟨nm', a1, a2⟩, b⟩ := h1 m hr
      rcases Nat.lt_trichotomy m k with hlt | rfl | hlt
      · exact absurd a2 (hb m hlt nm' a1)
      · rfl
      · exact absurd hn2 (b k (by omega) hlt nm hn1)

theorem rd_some {α : Type} {l : List α} {i : Nat} {a : α} (h : l[i]? = some a) : rd l i = .ok a := by
  obtain ⟨h1, h2⟩ := List.getElem?_eq_some_iff.1 h
  rw [rd_ok h1, h2]

theorem selectRng_run (types : List (Option (List Char))) (t : SelS) (g0 : UInt) (n0 : List Char) (h : types.length = 1000)
    (hg : t.gnumbs[0]? = some g0) (hn : t.gnames[0]? = some n0) :
    ∃ r, selectRng types t = .ok r ∧ ∀ i, r = some i ↔ g0.toNat < 1000 ∧
      ((n0 ≠ [] ∧ FirstNamed types 20 n0 i) ∨ (n0 = [] ∧ i = g0.toNat ∧ ∃ nm, nm ≠ [] ∧ types[i]? = some (some nm))) ∧
      ((∃ nm, types[i]? = some (some nm) ∧ "file_input".toList <+: nm) → t.fromfile = true) := by
  have hlt := g0.isLt
  have hrange : (g0.toInt < 0 ∨ g0.toInt ≥ 1000) ↔ ¬ g0.toNat < 1000 := by
    rw [BitVec.toInt_eq_toNat_cond]
    split <;> omega
  rw [selectRng, rd_some hg, Res.bind_ok]
  by_cases hr : g0.toNat < 1000
  swap
  · rw [if_pos (hrange.2 hr)]
    exact ⟨none, rfl, fun i => ⟨by simp, fun hh => absurd hh.1 hr⟩⟩
  rw [if_neg (fun hh => hrange.1 hh hr), rd_some hn, Res.bind_ok]
  have key : ∃ r, (if n0 ≠ [] then nameSearch types n0 20 1000 0 else rngByNumber types g0.toNat : Res (Option Nat)) = .ok r ∧ ∀ i, r = some i ↔
      ((n0 ≠ [] ∧ FirstNamed types 20 n0 i) ∨ (n0 = [] ∧ i = g0.toNat ∧ ∃ nm, nm ≠ [] ∧ types[i]? = some (some nm))) := by
    by_cases hn0 : n0 = []
    · rw [if_neg (by simp [hn0])]
      have hi : g0.toNat < types.length := by omega
      have hget : types[g0.toNat]? = some types[g0.toNat] := List.getElem?_eq_getElem hi
      rw [rngByNumber, rd_ok hi, Res.bind_ok]
      cases ht : types[g0.toNat] with
      | none =>
        refine ⟨none, rfl, fun i => ⟨by simp, ?_⟩⟩
        rintro (⟨h1, _⟩ | ⟨_, rfl, nm, _, h2⟩)
        · exact absurd hn0 h1
        · rw [hget, ht] at h2
          simp at h2
      | some nm =>
        by_cases hnm : nm = []
        · refine ⟨none, by simp only [hnm, if_true], fun i => ⟨by simp, ?_⟩⟩
          rintro (⟨h1, _⟩ | ⟨_, rfl, nm', h1, h2⟩)
          · exact absurd hn0 h1
          · rw [hget, ht] at h2
            simp only [Option.some.injEq] at h2
            exact absurd (h2 ▸ hnm) h1
        · refine ⟨some g0.toNat, by simp only [hnm, if_false], fun i => ⟨?_, ?_⟩⟩
          · intro hh
            rw [Option.some.injEq] at hh
            subst hh
            exact Or.inr ⟨hn0, rfl, nm, hnm, by rw [hget, ht]⟩
          · rintro (⟨h1, _⟩ | ⟨_, rfl, _⟩)
            · exact absurd hn0 h1
            · rfl
    · rw [if_pos hn0]
      obtain ⟨r, e, h1⟩ := nameSearch_all types n0 20 h
      refine ⟨r, e, fun i => ?_⟩
      rw [h1]
      simp [hn0]
  obtain ⟨r, e, hk⟩ := key
  rw [e, Res.bind_ok]
  cases r with
  | none =>
    refine ⟨none, rfl, fun i => ⟨by simp, fun hh => ?_⟩⟩
    exact absurd ((hk i).2 hh.2.1) (by simp)
  | some k =>
    have hk1 := (hk k).1 rfl
    have hty : ∃ nm, types[k]? = some (some nm) := by
      rcases hk1 with ⟨_, ⟨nm, h1, _⟩, _⟩ | ⟨_, _, nm, _, h1⟩ <;> exact ⟨nm, h1⟩
    obtain ⟨nm, hnm⟩ := hty
    have hpre : strncmpEq "file_input".toList nm 10 = true ↔ "file_input".toList <+: nm := by
      rw [strncmpEq, beq_iff_eq, List.prefix_iff_eq_take]
      exact Iff.rfl
    simp only [rd_some hnm, Res.bind_ok, hpre]
    by_cases hf : "file_input".toList <+: nm ∧ t.fromfile = false
    · rw [if_pos hf]
      refine ⟨none, rfl, fun i => ⟨by simp, fun hh => ?_⟩⟩
      have : k = i := by simpa using (hk i).2 hh.2.1
      subst this
      have := hh.2.2 ⟨nm, hnm, hf.1⟩
      rw [hf.2] at this
      simp at this
    · rw [if_neg hf]
      refine ⟨some k, rfl, fun i => ⟨fun hh => ?_, fun hh => (hk i).2 hh.2.1⟩⟩
      rw [Option.some.injEq] at hh
      subst hh
      refine ⟨hr, hk1, ?_⟩
      rintro ⟨nm', h1, h2⟩
      rw [hnm, Option.some.injEq, Option.some.injEq] at h1
      subst h1
      by_contra hc
      exact hf ⟨h2, by simpa using hc⟩

theorem lastNumber_iff (l : List (List Char)) (x : UInt) : LastNumber l x ↔ x = (l.filterMap argKind).getLast?.getD (-1) := by
  have fwd : ∀ (l : List (List Char)) x, LastNumber l x → x = (l.filterMap argKind).getLast?.getD (-1) := by
    rintro l x (⟨pre, a, post, rfl, h1, h2⟩ | ⟨h1, rfl⟩)
    · have hp : post.filterMap argKind = [] := List.filterMap_eq_nil_iff.2 fun b hb => (kind_none_iff b).2 (h2 b hb)
      rw [List.filterMap_append, List.filterMap_cons, (kind_some_iff a x).2 h1, hp]
      simp
    · rw [List.filterMap_eq_nil_iff.2 fun b hb => (kind_none_iff b).2 (h1 b hb)]
      rfl
  have ex : ∀ l : List (List Char), ∃ x, LastNumber l x := by
    intro l
    induction l using List.reverseRecOn with
    | nil => exact ⟨-1, Or.inr ⟨by simp, rfl⟩⟩
    | append_singleton l a ih =>
      rcases number_or_name a with ⟨x, hx⟩ | hn
      · exact ⟨x, Or.inl ⟨l, a, [], rfl, hx, by simp⟩⟩
      · obtain ⟨x, hx⟩ := ih
        · refine ⟨x, ?_⟩
          rcases hx with ⟨pre, b, post, rfl, h1, h2⟩ | ⟨h1, h2⟩
          · refine Or.inl ⟨pre, b, post ++ [a], by simp, h1, ?_⟩
            intro c hc
            rcases List.mem_append.1 hc with hc | hc
            · exact h2 c hc
            · rw [List.mem_singleton] at hc
              exact hc ▸ hn
          · refine Or.inr ⟨?_, h2⟩
            intro c hc
            rcases List.mem_append.1 hc with hc | hc
            · exact h1 c hc
            · rw [List.mem_singleton] at hc
              exact hc ▸ hn
  obtain ⟨y, hy⟩ := ex l
  exact ⟨fwd l x, fun h => by rw [h, ← fwd l y hy]; exact hy⟩

theorem lastName_iff (l : List (List Char)) (a : List Char) :
    LastName l a ↔ a = ((l.filter fun a => (argKind a).isNone).getLast?).getD [] := by
  have hk : ∀ b, (argKind b).isNone = true ↔ IsName b := fun b => by rw [Option.isNone_iff_eq_none, kind_none_iff]
  have fwd : ∀ (l : List (List Char)) a, LastName l a → a = ((l.filter fun a => (argKind a).isNone).getLast?).getD [] := by
    rintro l a (⟨pre, post, rfl, h1, h2⟩ | ⟨h1, rfl⟩)
    · have hp : (post.filter fun a => (argKind a).isNone) = [] := List.filter_eq_nil_iff.2 fun b hb h => h2 b hb ((hk b).1 h)
      rw [List.filter_append, List.filter_cons, if_pos ((hk a).2 h1), hp]
      simp
    · rw [List.filter_eq_nil_iff.2 fun b hb h => h1 b hb ((hk b).1 h)]
      rfl
  have ex : ∀ l : List (List Char), ∃ a, LastName l a := by
    intro l
    induction l using List.reverseRecOn with
    | nil => exact ⟨[], Or.inr ⟨by simp, rfl⟩⟩
    | append_singleton l a ih =>
      by_cases hn : IsName a
      · exact ⟨a, Or.inl ⟨l, [], rfl, hn, by simp⟩⟩
      · obtain ⟨x, hx⟩ := ih
        refine ⟨x, ?_⟩
        have hl : ∀ q : List (List Char), (∀ c ∈ q, ¬ IsName c) → ∀ c ∈ q ++ [a], ¬ IsName c := by
          intro q hq c hc
          rcases List.mem_append.1 hc with hc | hc
          · exact hq c hc
          · rw [List.mem_singleton] at hc
            exact hc ▸ hn
        rcases hx with ⟨pre, post, rfl, h1, h2⟩ | ⟨h1, h2⟩
        · exact Or.inl ⟨pre, post ++ [a], by simp, h1, hl _ h2⟩
        · exact Or.inr ⟨hl _ h1, h2⟩
  obtain ⟨y, hy⟩ := ex l
  exact ⟨fwd l a, fun h => by rw [h, ← fwd l y hy]; exact hy⟩

theorem runTest_run (types : List (Option (List Char))) (t : SelS) (h : types.length = 1000) :
    (∀ i, runTest types t = .ok i ↔ if t.dtestNum.toNat < 2147483648 then i = t.dtestNum.toNat ∧ ∃ nm, types[i]? = some (some nm)
      else FirstNamed types 128 t.dtestName i) ∧ ((∃ i, runTest types t = .ok i) ∨ runTest types t = .exit) := by
  have hlt := t.dtestNum.isLt
  -- the second part of the function
  have tail : ∀ num : UInt, ∃ r : Res Nat, runNumber types num = r ∧ (∀ i, r = .ok i ↔ i = num.toNat ∧ ∃ nm, types[i]? = some (some nm)) ∧ ((∃ i, r = .ok i) ∨ r = .exit) := by
    intro num
    have hl := num.isLt
    refine ⟨_, rfl, ?_⟩
    have hrange : (num.toInt ≥ 0 ∧ num.toInt < 1000) ↔ num.toNat < 1000 := by
      rw [BitVec.toInt_eq_toNat_cond]
      split <;> omega
    rw [runNumber]
    simp only [hrange]
    by_cases hr : num.toNat < 1000
    · have hi : num.toNat < types.length := by omega
      have hget : types[num.toNat]? = some types[num.toNat] := List.getElem?_eq_getElem hi
      rw [if_pos hr, rd_ok hi, Res.bind_ok]
      cases ht : types[num.toNat] with
      | none =>
        refine ⟨fun i => ⟨by simp, ?_⟩, Or.inr rfl⟩
        rintro ⟨rfl, nm, h1⟩
        rw [hget, ht] at h1
        simp at h1
      | some nm =>
        refine ⟨fun i => ⟨fun hh => ?_, fun hh => by rw [hh.1]⟩, Or.inl ⟨_, rfl⟩⟩
        have : num.toNat = i := by simpa using hh
        subst this
        exact ⟨rfl, nm, by rw [hget, ht]⟩
    · rw [if_neg hr]
      refine ⟨fun i => ⟨by simp, ?_⟩, Or.inr rfl⟩
      rintro ⟨rfl, nm, h1⟩
      rw [List.getElem?_eq_none (by omega)] at h1
      simp at h1
  have hneg : t.dtestNum.toInt < 0 ↔ ¬ t.dtestNum.toNat < 2147483648 := by
    rw [BitVec.toInt_eq_toNat_cond]
    split <;> omega
  rw [runTest]
  by_cases hn : t.dtestNum.toNat < 2147483648
  · rw [if_neg (fun hh => hneg.1 hh hn), Res.bind_ok]
    obtain ⟨r, e, h1, h2⟩ := tail t.dtestNum
    rw [e]
    simp only [hn, if_true]
    exact ⟨h1, h2⟩
  · rw [if_pos (hneg.2 hn)]
    obtain ⟨r, e, h1⟩ := nameSearch_all types t.dtestName 128 h
    rw [e, Res.bind_ok]
    simp only [hn, if_false]
    cases r with
    | none =>
      obtain ⟨r, e, h3, h4⟩ := tail t.dtestNum
      simp only [Res.bind_ok]
      rw [e]
      refine ⟨fun i => ⟨fun hh => ?_, fun hh => absurd ((h1 i).2 hh) (by simp)⟩, h4⟩
      obtain ⟨rfl, nm, hnm⟩ := (h3 i).1 hh
      rw [List.getElem?_eq_none (by omega)] at hnm
      simp at hnm
    | some k =>
      obtain ⟨r, e, h3, h4⟩ := tail (BitVec.ofNat 32 k)
      simp only [Res.bind_ok]
      rw [e]
      have hk := (h1 k).1 rfl
      obtain ⟨nm, hnm, _⟩ := hk.1
      have hk1 : k < 1000 := by
        by_contra hc
        rw [List.getElem?_eq_none (by omega)] at hnm
        simp at hnm
      have hkn : (BitVec.ofNat 32 k).toNat = k := by
        rw [BitVec.toNat_ofNat]
        omega
      refine ⟨fun i => ?_, h4⟩
      rw [h3, hkn, ← h1 i, Option.some.injEq]
      refine ⟨fun hh => hh.1.symm, fun hh => ?_⟩
      subst hh
      exact ⟨rfl, nm, hnm⟩

theorem selInit_parsed (opts : List SelOpt) (hg : (gArgs opts).length ≤ 100) (hs : (sArgs opts).length ≤ 100) :
    ∃ t, selOpts opts selInit = .ok t ∧ Parsed opts selInit t :=
  parsed_run opts selInit rfl rfl rfl (by simpa [selInit] using hg) (by simpa [selInit] using hs)

theorem firstNamed_take (types : List (Option (List Char))) (a : List Char) (i : Nat) :
    FirstNamed types 20 (a.take 128) i ↔ FirstNamed types 20 a i := by
  simp only [FirstNamed, List.take_take, show min 20 128 = 20 from rfl]

theorem parsed_rng (rngs : List (Option (List Char))) (h : rngs.length = 1000) (opts : List SelOpt) (t : SelS) (p : Parsed opts selInit t) :
    ∃ r, selectRng rngs t = .ok r ∧ ∀ i, r = some i ↔ RngChoice rngs opts i := by
  have hfile : t.fromfile = true ↔ HasFile opts := by
    rw [p.file]
    simp [selInit]
  cases hga : gArgs opts with
  | nil =>
    obtain ⟨e1, e2⟩ := p.high 0 (by rw [hga]; simp [selInit])
    obtain ⟨r, e, hr⟩ := selectRng_run rngs t 13 [] h (by rw [e1]; rfl) (by rw [e2]; rfl)
    refine ⟨r, e, fun i => ?_⟩
    rw [hr, RngChoice, hfile]
    simp only [hga, RngNumber, List.head?_nil]
    simp
  | cons a l =>
    obtain ⟨e1, e2⟩ := p.slot 0 a (by rw [hga]; rfl)
    cases hk : argKind a with
    | none =>
      rw [hk] at e1 e2
      have hname := (kind_none_iff a).1 hk
      have hnonum : ∀ x, ¬ IsNumber a x := fun x hx => by
        rw [← kind_some_iff, hk] at hx
        simp at hx
      obtain ⟨r, e, hr⟩ := selectRng_run rngs t 13 (a.take 128) h (by rw [show (0 : Nat) = selInit.gvcount + 0 from rfl, e1]; rfl) (by rw [show (0 : Nat) = selInit.gvcount + 0 from rfl, e2])
      refine ⟨r, e, fun i => ?_⟩
      have hnil : a.take 128 = [] ↔ a = [] := by simp
      rw [hr, RngChoice, hfile, firstNamed_take]
      simp only [hga, RngNumber, List.head?_cons, Option.some.injEq, exists_eq_left', ne_eq, hnil, hname, true_and, hnonum, false_or]
      refine ⟨fun hh => ⟨?_, hh.2.2⟩, fun hh => ⟨by decide, ?_, hh.2⟩⟩
      · rcases hh.2.1 with h1 | h1
        · exact Or.inl h1
        · exact Or.inr ⟨13, ⟨Or.inr h1.1, rfl⟩, h1.2⟩
      · rcases hh.1 with h1 | ⟨x, ⟨h1, rfl⟩, h2⟩
        · exact Or.inl h1
        · rcases h1 with h1 | h1
          · exact absurd h1 (by simp)
          · exact Or.inr ⟨h1, h2⟩
    | some x =>
      rw [hk] at e1 e2
      have hnum := (kind_some_iff a x).1 hk
      have hnoname : ¬ IsName a := fun hx => by
        rw [← kind_none_iff, hk] at hx
        simp at hx
      have huniq : ∀ y, IsNumber a y → y = x := fun y hy => by
        rw [← kind_some_iff, hk, Option.some.injEq] at hy
        exact hy.symm
      have ha : a ≠ [] := by
        rintro rfl
        obtain ⟨v, rest, ⟨ws, sg, ds, h1, _, h2, _⟩, _⟩ := hnum
        have := congrArg List.length h1
        have h3 := List.length_pos_iff.2 h2
        simp at this
        omega
      obtain ⟨r, e, hr⟩ := selectRng_run rngs t x [] h (by rw [show (0 : Nat) = selInit.gvcount + 0 from rfl, e1]) (by rw [show (0 : Nat) = selInit.gvcount + 0 from rfl, e2]; rfl)
      refine ⟨r, e, fun i => ?_⟩
      rw [hr, RngChoice, hfile]
      simp only [hga, RngNumber, List.head?_cons, Option.some.injEq, exists_eq_left', ne_eq, hnoname, false_and, and_false, false_or,
        not_true_eq_false, true_and]
      refine ⟨fun hh => ⟨⟨x, Or.inl hnum, hh.2.1⟩, hh.2.2⟩, fun hh => ?_⟩
      obtain ⟨⟨y, h1, h2, nm, h3, h4⟩, h5⟩ := hh
      rcases h1 with h1 | ⟨h1 | h1, _⟩
      · rw [huniq y h1] at h2
        refine ⟨?_, ⟨h2, nm, h3, h4⟩, h5⟩
        by_contra hc
        rw [List.getElem?_eq_none (by omega)] at h4
        simp at h4
      · simp at h1
      · exact absurd h1 ha

/-- **C91.** The generator and the test that run, for any order of the options.  In particular only the first -g counts, and a number
after -d wins over every name. -/
theorem C91_selected (rngs tests : List (Option (List Char))) (hr : rngs.length = 1000) (ht : tests.length = 1000) (opts : List SelOpt)
    (hg : (gArgs opts).length ≤ 100) (hs : (sArgs opts).length ≤ 100) (g t : Nat) :
    selectRun rngs tests opts = .ok (g, t) ↔ RngChoice rngs opts g ∧ TestChoice tests opts t := by
  obtain ⟨s, e, p⟩ := selInit_parsed opts hg hs
  obtain ⟨r, e1, h1⟩ := parsed_rng rngs hr opts s p
  obtain ⟨h2, h3⟩ := runTest_run tests s ht
  have htest : ∀ i, runTest tests s = .ok i ↔ TestChoice tests opts i := by
    intro i
    rw [h2, p.num, p.name, TestChoice]
    simp only [lastNumber_iff, lastName_iff, exists_eq_left, exists_and_left]
    cases ((dArgs opts).filter fun a => (argKind a).isNone).getLast? <;> rfl
  rw [selectRun, e, Res.bind_ok, chooseRng, e1, Res.bind_ok]
  cases r with
  | none =>
    simp only [Res.bind_exit]
    refine ⟨by simp, fun hh => absurd ((h1 g).2 hh.1) (by simp)⟩
  | some k =>
    simp only [Res.bind_ok]
    rw [← h1, ← htest, Option.some.injEq]
    rcases h3 with ⟨i, hi⟩ | hi
    · rw [hi, Res.bind_ok]
      simp
    · rw [hi, Res.bind_exit]
      simp

/-- **C91.** In all other cases the program ends without a test. -/
theorem C91_refused (rngs tests : List (Option (List Char))) (hr : rngs.length = 1000) (ht : tests.length = 1000) (opts : List SelOpt)
    (hg : (gArgs opts).length ≤ 100) (hs : (sArgs opts).length ≤ 100) (h : ∀ g t, ¬ (RngChoice rngs opts g ∧ TestChoice tests opts t)) :
    selectRun rngs tests opts = .exit := by
  obtain ⟨s, e, p⟩ := selInit_parsed opts hg hs
  obtain ⟨r, e1, h1⟩ := parsed_rng rngs hr opts s p
  obtain ⟨h2, h3⟩ := runTest_run tests s ht
  have h0 : ∀ g t, selectRun rngs tests opts ≠ .ok (g, t) := fun g t hh => h g t ((C91_selected rngs tests hr ht opts hg hs g t).1 hh)
  rw [selectRun, e, Res.bind_ok, chooseRng, e1, Res.bind_ok] at h0 ⊢
  cases r with
  | none => rfl
  | some k =>
    simp only [Res.bind_ok] at h0 ⊢
    rcases h3 with ⟨i, hi⟩ | hi
    · rw [hi, Res.bind_ok] at h0
      exact absurd rfl (h0 k i)
    · rw [hi, Res.bind_exit]

theorem selOpts_append (o1 o2 : List SelOpt) (s : SelS) : selOpts (o1 ++ o2) s = selOpts o1 s >>= selOpts o2 := by
  induction o1 generalizing s with
  | nil => rfl
  | cons o os ih =>
    rw [List.cons_append, selOpts, selOpts]
    cases selOpt s o with
    | ok t => rw [Res.bind_ok, Res.bind_ok, ih]
    | _ => rfl

/-- **C91.** The hundred and first -g writes beyond the vectors. -/
theorem C91_too_many (pre post : List SelOpt) (a : List Char) (rngs tests : List (Option (List Char))) (hg : (gArgs pre).length = 100)
    (hs : (sArgs pre).length ≤ 100) : selectRun rngs tests (pre ++ .g a :: post) = .ub := by
  obtain ⟨s, e, p⟩ := selInit_parsed pre (by omega) hs
  have hc : s.gvcount = 100 := by
    rw [p.count, hg]
    rfl
  have : selOpt s (.g a) = .ub := by
    simp only [selOpt, hc]
    split
    · simp only [wr, p.names, show ¬ 100 < 100 by omega, if_false, Res.bind_ub]
    · simp only [wr, p.numbs, show ¬ 100 < 100 by omega, if_false, Res.bind_ub]
  rw [selectRun, selOpts_append, e, Res.bind_ok, selOpts, this]
  rfl

/-- **C91.** What the generator XOR finds: `gvcount` is the number of options -g, and component `i` (the `i`-th -g after the first) is the
number given, but generator 0 whenever the component was given by name. -/
theorem C91_xor_components (opts : List SelOpt) (hg : (gArgs opts).length ≤ 100) (hs : (sArgs opts).length ≤ 100) :
    ∃ t, selOpts opts selInit = .ok t ∧ t.gvcount = (gArgs opts).length ∧ ∀ i a, 1 ≤ i → (gArgs opts)[i]? = some a →
      (∀ x, IsNumber a x → t.gnumbs[i]? = some x) ∧ (IsName a → t.gnumbs[i]? = some 0) := by
  obtain ⟨s, e, p⟩ := selInit_parsed opts hg hs
  refine ⟨s, e, ?_, ?_⟩
  · rw [p.count]
    simp [selInit]
  · intro i a hi ha
    have hlt : i < 100 := by
      have := (List.getElem?_eq_some_iff.1 ha).1
      omega
    obtain ⟨h1, _⟩ := p.slot i a ha
    rw [show selInit.gvcount + i = i from Nat.zero_add i] at h1
    refine ⟨fun x hx => ?_, fun hn => ?_⟩
    · rw [h1, kind_number hx]
    · rw [h1, kind_name hn]
      simp only [selInit, List.getElem?_set, show 0 ≠ i by omega, if_false, List.getElem?_replicate, hlt, if_true]

/-- **C91.** The seed is the number of the last -S modulo 2^32; an argument that does not begin with a number is the same as 0, a random
seed. -/
theorem C91_seed (opts : List SelOpt) (hg : (gArgs opts).length ≤ 100) (hs : (sArgs opts).length ≤ 100) :
    ∃ t, selOpts opts selInit = .ok t ∧ (sArgs opts = [] → t.seed = 0) ∧ ∀ a, (sArgs opts).getLast? = some a →
      (∀ v rest, ReadsNumber a v rest → -9223372036854775808 ≤ v → v ≤ 9223372036854775807 → t.seed = BitVec.ofInt 32 v) ∧
      ((∀ v rest, ¬ ReadsNumber a v rest) → t.seed = 0) := by
  obtain ⟨s, e, p⟩ := selInit_parsed opts hg hs
  refine ⟨s, e, fun h => ?_, fun a ha => ⟨fun v rest hv h1 h2 => ?_, fun hn => ?_⟩⟩
  · rw [p.seed, h]
    rfl
  · rw [p.seed, ha, Option.map_some, Option.getD_some, strtol_number hv, min_eq_right h2, max_eq_right h1]
  · rw [p.seed, ha, Option.map_some, Option.getD_some, strtol_none hn]
    rfl

/-- A small table: generators 5 and 13, tests 0 and 7. -/
def exRngs : List (Option (List Char)) := ((List.replicate 1000 none).set 5 (some "file_input".toList)).set 13 (some "mt19937".toList)
def exTests : List (Option (List Char)) := ((List.replicate 1000 none).set 0 (some "birthdays".toList)).set 7 (some "runs".toList)

example : selectRun exRngs exTests [.d "runs".toList] = .ok (13, 7) ∧
    selectRun exRngs exTests [.d "0".toList, .g "mt19937".toList, .d "runs".toList] = .ok (13, 0) ∧
    selectRun exRngs exTests [.d "7up".toList, .g "13".toList, .g "file_input".toList] = .ok (13, 7) ∧
    selectRun exRngs exTests [.d "7".toList, .g "file_input".toList] = .exit ∧
    selectRun exRngs exTests [.g "file_input".toList, .d "7".toList, .f "x".toList] = .ok (5, 7) ∧
    selectRun exRngs exTests [.d "+7+".toList] = .exit ∧ selectRun exRngs exTests [.d "+7".toList] = .ok (13, 7) ∧
    selectRun exRngs exTests [.g "4294967301".toList, .d "-4294967289".toList, .f [] ] = .ok (5, 7) := by decide +kernel

example : ReadsNumber " -12x".toList (-12) "x".toList :=
  ⟨[' '], ['-'], ['1', '2'], rfl, by decide, by decide, by decide, by decide, Or.inr ⟨rfl, by decide⟩⟩

end Dh
