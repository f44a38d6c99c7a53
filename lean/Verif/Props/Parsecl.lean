import Verif.Model.Parsecl
import Verif.Props.TestListing
import Mathlib.Tactic.NormNum
/-
Property C114: the command line as a whole.
-/
namespace Dh

namespace Spec

/-- The number at the beginning of a text, 0 if there is none; limited to the range of `long`. -/
def TextNumber (s : List Char) (v : Int) : Prop :=
  (∃ u rest, ReadsNumber s u rest ∧ v = max (-9223372036854775808) (min 9223372036854775807 u)) ∨ ((∀ u rest, ¬ ReadsNumber s u rest) ∧ v = 0)

/-- A setting that the last of the arguments determines: its number modulo 2^32; `dflt` without an argument. -/
def IntSetting (args : List (List Char)) (dflt x : UInt) : Prop :=
  match args.getLast? with
  | none => x = dflt
  | some arg => ∃ v, TextNumber arg v ∧ x = BitVec.ofInt 32 v

/-- The arguments of one option. -/
def argsOf (p : CliOpt → Option (List Char)) (opts : List CliOpt) : List (List Char) := opts.filterMap p

def optI : CliOpt → Option (List Char) | .i a => some a | _ => none
def optK : CliOpt → Option (List Char) | .k a => some a | _ => none
def optL : CliOpt → Option (List Char) | .L a => some a | _ => none
def optM : CliOpt → Option (List Char) | .m a => some a | _ => none
def optN : CliOpt → Option (List Char) | .n a => some a | _ => none
def optPsamples : CliOpt → Option (List Char) | .p a => some a | _ => none
def optXoff : CliOpt → Option (List Char) | .P a => some a | _ => none
def optStrategy : CliOpt → Option (List Char) | .s a => some a | _ => none
def optT : CliOpt → Option (List Char) | .t a => some a | _ => none
def optVerbose : CliOpt → Option (List Char) | .v a => some a | _ => none
def optWeak : CliOpt → Option (List Char) | .W a => some a | _ => none
def optFail : CliOpt → Option (List Char) | .X a => some a | _ => none
def optXuser : CliOpt → Option (List Char) | .x a => some a | _ => none
def optXtrategy : CliOpt → Option (List Char) | .Y a => some a | _ => none
def optYuser : CliOpt → Option (List Char) | .y a => some a | _ => none
def optZuser : CliOpt → Option (List Char) | .z a => some a | _ => none
def optSep : CliOpt → Option (List Char) | .c a => some a | _ => none
def optFile : CliOpt → Option (List Char) | .f a => some a | _ => none
def optFlags : CliOpt → Option (List Char) | .D a => some a | _ => none
/-- -O with its argument, and -B as -O 0. -/
def optFormat : CliOpt → Option (List Char) | .O a => some a | .B => some ['0'] | _ => none

/-- The options that select the generator, the test and the seed (C91). -/
def selPart (opts : List CliOpt) : List SelOpt := opts.filterMap fun
  | .d a => some (.d a)
  | .f a => some (.f a)
  | .g a => some (.g a)
  | .S a => some (.S a)
  | _ => none

/-- The argument of -D as C49 takes it: a number if the text is read to its end. -/
def FlagArg (s : List Char) (x : DArg) : Prop :=
  (∃ u, ReadsNumber s u [] ∧ x = .num (max (-9223372036854775808) (min 9223372036854775807 u))) ∨
  (s = [] ∧ x = .num 0) ∨ (s ≠ [] ∧ (∀ u, ¬ ReadsNumber s u []) ∧ x = .text s)

/-- The tsamples: the last -t whose number modulo 2^32 is below 2^31. -/
def TSetting (args : List (List Char)) (x : Int) : Prop :=
  (∃ pre arg post v, args = pre ++ arg :: post ∧ TextNumber arg v ∧ x = v % 4294967296 ∧ x < 2147483648 ∧
    ∀ b ∈ post, ∀ w, TextNumber b w → 2147483648 ≤ w % 4294967296) ∨
  ((∀ b ∈ args, ∀ w, TextNumber b w → 2147483648 ≤ w % 4294967296) ∧ x = 0)

end Spec
open Spec

theorem textNumber_iff (s : List Char) (v : Int) : TextNumber s v ↔ v = (strtol s).1 := by
  by_cases h : ∃ u rest, ReadsNumber s u rest
  · obtain ⟨u, rest, hu⟩ := h
    constructor
    · rintro (⟨u', rest', hu', rfl⟩ | ⟨h, -⟩)
      · rw [strtol_number hu']
      · exact absurd hu (h u rest)
    · rintro rfl
      exact Or.inl ⟨u, rest, hu, by rw [strtol_number hu]⟩
  · have h' : ∀ u rest, ¬ ReadsNumber s u rest := fun u rest hu => h ⟨u, rest, hu⟩
    rw [strtol_none h']
    constructor
    · rintro (⟨u', rest', hu', -⟩ | ⟨-, rfl⟩)
      · exact absurd hu' (h' u' rest')
      · rfl
    · rintro rfl
      exact Or.inr ⟨h', rfl⟩

theorem flagArg_iff (s : List Char) (x : DArg) : FlagArg s x ↔ x = argD s := by
  by_cases h : ∃ u rest, ReadsNumber s u rest
  · obtain ⟨u, rest, hu⟩ := h
    have hne : s ≠ [] := by
      rintro rfl
      obtain ⟨ws, sg, ds, e, -, hds, -⟩ := hu
      have := congrArg List.length e
      simp only [List.length_nil, List.length_append] at this
      exact hds (List.length_eq_zero_iff.1 (by omega))
    have huniq : ∀ {u' rest'}, ReadsNumber s u' rest' → rest' = rest := by
      intro u' rest' h'
      have := strtol_number h'
      rw [strtol_number hu, Prod.mk.injEq] at this
      exact this.2.symm
    rw [argD, strtol_number hu]
    simp only
    by_cases hr : rest = []
    · subst hr
      rw [if_pos rfl]
      constructor
      · rintro (⟨u', h', rfl⟩ | ⟨h', -⟩ | ⟨-, h', -⟩)
        · have := strtol_number h'
          rw [strtol_number hu, Prod.mk.injEq] at this
          rw [this.1]
        · exact absurd h' hne
        · exact absurd hu (h' u)
      · rintro rfl
        exact Or.inl ⟨u, hu, rfl⟩
    · rw [if_neg hr]
      constructor
      · rintro (⟨u', h', -⟩ | ⟨h', -⟩ | ⟨-, -, h'⟩)
        · exact absurd (huniq h').symm hr
        · exact absurd h' hne
        · exact h'
      · rintro rfl
        exact Or.inr (Or.inr ⟨hne, fun u' h' => hr (huniq h').symm, rfl⟩)
  · have h' : ∀ u rest, ¬ ReadsNumber s u rest := fun u rest hu => h ⟨u, rest, hu⟩
    rw [argD, strtol_none h']
    simp only
    by_cases hs : s = []
    · rw [if_pos hs]
      constructor
      · rintro (⟨u', h1, -⟩ | ⟨-, h1⟩ | ⟨h1, -⟩)
        · exact absurd h1 (h' _ _)
        · exact h1
        · exact absurd hs h1
      · rintro rfl
        exact Or.inr (Or.inl ⟨hs, rfl⟩)
    · rw [if_neg hs]
      constructor
      · rintro (⟨u', h1, -⟩ | ⟨h1, -⟩ | ⟨-, -, h1⟩)
        · exact absurd h1 (h' _ _)
        · exact absurd h1 hs
        · exact h1
      · rintro rfl
        exact Or.inr (Or.inr ⟨hs, fun u => h' u _, rfl⟩)

/-! ### Settings of one option -/

/-- The value for the last argument. -/
def lastOr {α β : Type} (f : β → α) (d : α) (l : List β) : α := (l.getLast?.map f).getD d

theorem lastOr_cons {α β : Type} (f : β → α) (d : α) (b : β) (l : List β) : lastOr f d (b :: l) = lastOr f (f b) l := by
  cases l with
  | nil => rfl
  | cons c l =>
    rw [lastOr, lastOr, List.getLast?_cons_cons]
    obtain ⟨e, he⟩ : ∃ e, (c :: l).getLast? = some e := ⟨_, List.getLast?_eq_some_getLast (by simp)⟩
    rw [he]
    rfl

section
variable {ρ : Type} {strtod : List Char → ρ}

theorem cliOpts_cons {q : CliOpt} {qs : List CliOpt} {s s' : CliS ρ} (h : cliOpts strtod (q :: qs) s = .ok (some s')) :
    q ≠ .V ∧ ∃ s1, cliOpt strtod s q = .ok s1 ∧ cliOpts strtod qs s1 = .ok (some s') := by
  by_cases hq : q = .V
  · subst hq
    simp [cliOpts] at h
  · refine ⟨hq, ?_⟩
    rw [cliOpts] at h
    · obtain ⟨s1, h1, h2⟩ := Res.bind_eq_ok.1 h
      exact ⟨s1, h1, h2⟩
    · exact fun h => hq h

/-- A variable that one option sets. -/
theorem cliOpts_last {α β : Type} (F : CliS ρ → α) (p : CliOpt → Option β) (f : β → α)
    (step : ∀ s q s', cliOpt strtod s q = .ok s' → F s' = match p q with | some a => f a | none => F s) :
    ∀ (opts : List CliOpt) (s s' : CliS ρ), cliOpts strtod opts s = .ok (some s') → F s' = lastOr f (F s) (opts.filterMap p)
  | [], s, s', h => by
    simp only [cliOpts, Res.ok.injEq, Option.some.injEq] at h
    subst h
    rfl
  | q :: qs, s, s', h => by
    obtain ⟨-, s1, h1, h2⟩ := cliOpts_cons h
    rw [cliOpts_last F p f step qs s1 s' h2, List.filterMap_cons, step s q s1 h1]
    cases p q with
    | none => rfl
    | some a => exact (lastOr_cons f (F s) a _).symm

/-- The steps of all options, to be used with a variable. -/
macro "cli_step" : tactic => `(tactic| (
  intro s q s' h
  cases q <;> simp only [cliOpt, Res.ok.injEq] at h <;>
    first
    | (subst h; rfl)
    | (split at h <;> (simp only [Res.ok.injEq] at h; subst h; first | rfl | (simp_all)))
    | (obtain ⟨r, -, h2⟩ := Res.bind_eq_ok.1 h; simp only [Res.ok.injEq] at h2; subst h2; rfl)))

theorem optsD_cons (x : DArg) (xs : List DArg) (tflag tmp : UInt) : optsD (x :: xs) tflag tmp = (optD tflag x >>= fun r => optsD xs r.1 r.2) := rfl

/-- The loop goes through if there is no -V, the selection options fit and the -D are accepted. -/
theorem cliOpts_ok : ∀ (opts : List CliOpt) (s : CliS ρ) (t : SelS) (fl tmp : UInt), CliOpt.V ∉ opts → selOpts (selPart opts) s.sel = .ok t →
    optsD ((argsOf optFlags opts).map argD) s.tflag s.tflagTmp = .ok (fl, tmp) →
    ∃ s', cliOpts strtod opts s = .ok (some s') ∧ s'.sel = t ∧ s'.tflag = fl ∧ s'.tflagTmp = tmp
  | [], s, t, fl, tmp, _, h1, h2 => by
    simp only [selPart, List.filterMap_nil, selOpts, Res.ok.injEq, argsOf, List.map_nil, optsD, Prod.mk.injEq] at h1 h2
    exact ⟨s, rfl, h1, h2.1, h2.2⟩
  | q :: qs, s, t, fl, tmp, hV, h1, h2 => by
    have hq : q ≠ .V := fun h => hV (by rw [h]; simp)
    have hV' : CliOpt.V ∉ qs := fun h => hV (List.mem_cons_of_mem _ h)
    have go : ∀ s1, cliOpt strtod s q = .ok s1 → selOpts (selPart qs) s1.sel = .ok t →
        optsD ((argsOf optFlags qs).map argD) s1.tflag s1.tflagTmp = .ok (fl, tmp) →
        ∃ s', cliOpts strtod (q :: qs) s = .ok (some s') ∧ s'.sel = t ∧ s'.tflag = fl ∧ s'.tflagTmp = tmp := by
      intro s1 e1 e2 e3
      obtain ⟨s', f1, f2⟩ := cliOpts_ok qs s1 t fl tmp hV' e2 e3
      refine ⟨s', ?_, f2⟩
      rw [cliOpts]
      · rw [e1, Res.bind_ok, f1]
      · exact fun h => hq h
    cases q with
    | D arg =>
      have e : argsOf optFlags (.D arg :: qs) = arg :: argsOf optFlags qs := rfl
      rw [e, List.map_cons, optsD_cons] at h2
      obtain ⟨r, g1, g2⟩ := Res.bind_eq_ok.1 h2
      refine go { s with tflag := r.1, tflagTmp := r.2 } ?_ h1 g2
      rw [cliOpt, g1]
      rfl
    | d arg =>
      have e : selPart (.d arg :: qs) = .d arg :: selPart qs := rfl
      rw [e, selOpts] at h1
      obtain ⟨r, g1, g2⟩ := Res.bind_eq_ok.1 h1
      refine go { s with sel := r } ?_ g2 h2
      rw [cliOpt, g1]
      rfl
    | g arg =>
      have e : selPart (.g arg :: qs) = .g arg :: selPart qs := rfl
      rw [e, selOpts] at h1
      obtain ⟨r, g1, g2⟩ := Res.bind_eq_ok.1 h1
      refine go { s with sel := r } ?_ g2 h2
      rw [cliOpt, g1]
      rfl
    | S arg =>
      have e : selPart (.S arg :: qs) = .S arg :: selPart qs := rfl
      rw [e, selOpts] at h1
      obtain ⟨r, g1, g2⟩ := Res.bind_eq_ok.1 h1
      refine go { s with sel := r } ?_ g2 h2
      rw [cliOpt, g1]
      rfl
    | f arg =>
      have e : selPart (.f arg :: qs) = .f arg :: selPart qs := rfl
      rw [e, selOpts] at h1
      obtain ⟨r, g1, g2⟩ := Res.bind_eq_ok.1 h1
      refine go { s with sel := r, filename := arg.take 128 } ?_ g2 h2
      rw [cliOpt, g1]
      rfl
    | t arg =>
      by_cases hc : (argInt arg).toInt ≥ 0
      · refine go { s with tsamples := (argInt arg).toInt } ?_ h1 h2
        rw [cliOpt]
        simp only [if_pos hc]
      · refine go s ?_ h1 h2
        rw [cliOpt]
        simp only [if_neg hc]
    | _ => exact go _ rfl h1 h2

end

/-- What is asked of the options before some place: the -D are accepted, and there are not too many -g and -S. -/
structure Accepted (opts : List CliOpt) (dl : List DArg) (fl : UInt) (t : SelS) : Prop where
  noV : CliOpt.V ∉ opts
  args : List.Forall₂ FlagArg (argsOf optFlags opts) dl
  flags : tableFlags dl = .ok fl
  sel : selOpts (selPart opts) selInit = .ok t

theorem forall_flagArg : ∀ {l : List (List Char)} {dl : List DArg}, List.Forall₂ FlagArg l dl → dl = l.map argD
  | _, _, .nil => rfl
  | _, _, .cons h hs => by rw [List.map_cons, ← forall_flagArg hs, ← (flagArg_iff _ _).1 h]

variable {ρ : Type} {strtod : List Char → ρ} {one weak fail zero : ρ}

theorem accepted_run {opts : List CliOpt} {dl : List DArg} {fl : UInt} {t : SelS} (h : Accepted opts dl fl t) :
    ∃ s, cliOpts strtod opts (cliInit one weak fail zero) = .ok (some s) ∧ s.sel = t ∧
      fl = if s.tflagTmp = 0 then tflagDefault else s.tflag := by
  have h1 := h.flags
  rw [tableFlags] at h1
  obtain ⟨⟨f1, f2⟩, e1, e2⟩ := Res.bind_eq_ok.1 h1
  rw [forall_flagArg h.args] at e1
  obtain ⟨s, g1, g2, g3, g4⟩ := cliOpts_ok (strtod := strtod) opts (cliInit one weak fail zero) t f1 f2 h.noV h.sel e1
  refine ⟨s, g1, g2, ?_⟩
  rw [g3, g4]
  simp only at e2
  split at e2
  · rw [if_pos (by assumption)]
    simpa using e2.symm
  · rw [if_neg (by assumption)]
    simpa using e2.symm

/-- A setting that is switched on. -/
theorem cliOpts_flag (F : CliS ρ → Bool) (q0 : CliOpt) (p : CliOpt → Option Unit) (hp : ∀ q, p q = some () ↔ q = q0)
    (step : ∀ s q s', cliOpt strtod s q = .ok s' → F s' = match p q with | some _ => true | none => F s) {opts : List CliOpt} {s s' : CliS ρ}
    (h : cliOpts strtod opts s = .ok (some s')) (h0 : F s = false) : F s' = true ↔ q0 ∈ opts := by
  rw [cliOpts_last F p (fun _ => true) (fun s q s' h => by rw [step s q s' h]; cases p q <;> rfl) opts s s' h, h0, lastOr]
  cases hl : (opts.filterMap p).getLast? with
  | none =>
    rw [List.getLast?_eq_none_iff, List.filterMap_eq_nil_iff] at hl
    simp only [Option.map_none, Option.getD_none, Bool.false_eq_true, false_iff]
    intro hq
    have := hl q0 hq
    rw [(hp q0).2 rfl] at this
    exact absurd this (by simp)
  | some u =>
    simp only [Option.map_some, Option.getD_some, true_iff]
    obtain ⟨q, hq, hq2⟩ := List.mem_filterMap.1 (List.mem_of_getLast? hl)
    rw [hp q] at hq2
    exact hq2 ▸ hq

theorem intSetting_of {args : List (List Char)} {d x : UInt} (h : x = lastOr argInt d args) : IntSetting args d x := by
  rw [IntSetting]
  rw [lastOr] at h
  cases hl : args.getLast? with
  | none => rw [hl] at h; exact h
  | some a =>
    rw [hl] at h
    exact ⟨_, (textNumber_iff a _).2 rfl, h⟩

/-- The arguments of -t that are taken. -/
def optT' : CliOpt → Option (List Char) | .t a => if (argInt a).toInt ≥ 0 then some a else none | _ => none

theorem argInt_toInt (a : List Char) : (0 ≤ (argInt a).toInt ↔ (strtol a).1 % 4294967296 < 2147483648) ∧
    (0 ≤ (argInt a).toInt → (argInt a).toInt = (strtol a).1 % 4294967296) := by
  rw [argInt, BitVec.toInt_ofInt]
  obtain ⟨v, hv⟩ : ∃ v, v = (strtol a).1 := ⟨_, rfl⟩
  rw [← hv, Int.bmod_def]
  norm_num
  constructor
  · split <;> omega
  · split <;> omega

theorem tSetting_of {opts : List CliOpt} {x : Int} (h : x = lastOr (fun a => (argInt a).toInt) 0 (opts.filterMap optT')) :
    TSetting (argsOf optT opts) x := by
  have hfil : opts.filterMap optT' = (argsOf optT opts).filter fun a => decide ((argInt a).toInt ≥ 0) := by
    clear h
    induction opts with
    | nil => rfl
    | cons q qs ih =>
      cases q with
      | t a =>
        have e1 : argsOf optT (.t a :: qs) = a :: argsOf optT qs := rfl
        rw [e1, List.filter_cons, List.filterMap_cons, ih]
        simp only [optT']
        by_cases hc : (argInt a).toInt ≥ 0
        · rw [if_pos hc, if_pos (by simpa using hc)]
        · rw [if_neg hc, if_neg (by simpa using hc)]
      | _ => exact ih
  rw [hfil] at h
  generalize argsOf optT opts = l at h
  have hneg : ∀ {b : List Char}, ¬ (argInt b).toInt ≥ 0 → ∀ w, TextNumber b w → 2147483648 ≤ w % 4294967296 := by
    intro b hb w hw
    rw [textNumber_iff] at hw
    subst hw
    have := (argInt_toInt b).1
    omega
  rw [lastOr] at h
  cases hl : (l.filter fun a => decide ((argInt a).toInt ≥ 0)).getLast? with
  | none =>
    rw [hl] at h
    rw [List.getLast?_eq_none_iff, List.filter_eq_nil_iff] at hl
    exact Or.inr ⟨fun b hb => hneg (by simpa using hl b hb), h⟩
  | some a =>
    rw [hl] at h
    obtain ⟨pre, post, e1, e2, e3⟩ : ∃ pre post, l = pre ++ a :: post ∧ (argInt a).toInt ≥ 0 ∧ ∀ b ∈ post, ¬ (argInt b).toInt ≥ 0 := by
      rw [List.getLast?_eq_some_iff] at hl
      obtain ⟨ys, hys⟩ := hl
      obtain ⟨l1, l2, e1, e2, e3⟩ := List.filter_eq_append_iff.1 hys
      obtain ⟨m1, m2, f1, f2, f3, f4⟩ := List.filter_eq_cons_iff.1 e3
      refine ⟨l1 ++ m1, m2, by rw [e1, f1, List.append_assoc], by simpa using f3, fun b hb => ?_⟩
      have := List.filter_eq_nil_iff.1 f4 b hb
      simpa using this
    have h1 := argInt_toInt a
    simp only [Option.map_some, Option.getD_some] at h
    exact Or.inl ⟨pre, a, post, (strtol a).1, e1, (textNumber_iff a _).2 rfl, by rw [h]; exact h1.2 e2,
      by rw [h, h1.2 e2]; exact h1.1.1 e2, fun b hb => hneg (e3 b hb)⟩

/-- The settings of a run. -/
structure Settings (strtod : List Char → ρ) (one weak fail zero : ρ) (opts : List CliOpt) (s : CliS ρ) : Prop where
  all : s.all = true ↔ CliOpt.a ∈ opts
  outputFile : s.outputFile = true ↔ CliOpt.o ∈ opts
  outputFormat : IntSetting (argsOf optFormat opts) 1 s.outputFormat
  separator : s.separator = ((argsOf optSep opts).getLast?.map List.head?).getD (some '|')
  iterations : IntSetting (argsOf optI opts) (-1) s.iterations
  ksTest : IntSetting (argsOf optK opts) 0 s.ksTest
  overlap : IntSetting (argsOf optL opts) 1 s.overlap
  multiplyP : s.multiplyP = ((argsOf optM opts).getLast?.map strtod).getD one
  ntuple : IntSetting (argsOf optN opts) 0 s.ntuple
  xoff : IntSetting (argsOf optXoff opts) 100000 s.xoff
  psamples : IntSetting (argsOf optPsamples opts) 0 s.psamples
  strategy : TextNumber ((argsOf optStrategy opts).getLast?.getD []) s.strategy
  tsamples : TSetting (argsOf optT opts) s.tsamples
  verbose : IntSetting (argsOf optVerbose opts) 0 s.verbose
  xweak : s.xweak = ((argsOf optWeak opts).getLast?.map strtod).getD weak
  xfail : s.xfail = ((argsOf optFail opts).getLast?.map strtod).getD fail
  xtrategy : IntSetting (argsOf optXtrategy opts) 0 s.xtrategy
  xUser : s.xUser = ((argsOf optXuser opts).getLast?.map strtod).getD zero
  yUser : s.yUser = ((argsOf optYuser opts).getLast?.map strtod).getD zero
  zUser : s.zUser = ((argsOf optZuser opts).getLast?.map strtod).getD zero
  filename : s.filename = ((argsOf optFile opts).getLast?.getD []).take 128

theorem settings_of {opts : List CliOpt} {s : CliS ρ} (h : cliOpts strtod opts (cliInit one weak fail zero) = .ok (some s)) :
    Settings strtod one weak fail zero opts s where
  all := cliOpts_flag (fun s => s.all) .a (fun | .a => some () | _ => none) (by intro q; cases q <;> simp) (by cli_step) h rfl
  outputFile := cliOpts_flag (fun s => s.outputFile) .o (fun | .o => some () | _ => none) (by intro q; cases q <;> simp) (by cli_step) h rfl
  outputFormat := intSetting_of (cliOpts_last (fun s => s.outputFormat) optFormat argInt (by cli_step) opts _ _ h)
  separator := cliOpts_last (fun s => s.separator) optSep List.head? (by cli_step) opts _ _ h
  iterations := intSetting_of (cliOpts_last (fun s => s.iterations) optI argInt (by cli_step) opts _ _ h)
  ksTest := intSetting_of (cliOpts_last (fun s => s.ksTest) optK argInt (by cli_step) opts _ _ h)
  overlap := intSetting_of (cliOpts_last (fun s => s.overlap) optL argInt (by cli_step) opts _ _ h)
  multiplyP := cliOpts_last (fun s => s.multiplyP) optM strtod (by cli_step) opts _ _ h
  ntuple := intSetting_of (cliOpts_last (fun s => s.ntuple) optN argInt (by cli_step) opts _ _ h)
  xoff := intSetting_of (cliOpts_last (fun s => s.xoff) optXoff argInt (by cli_step) opts _ _ h)
  psamples := intSetting_of (cliOpts_last (fun s => s.psamples) optPsamples argInt (by cli_step) opts _ _ h)
  strategy := by
    have := cliOpts_last (fun s => s.strategy) optStrategy (fun a => (strtol a).1) (by cli_step) opts _ _ h
    rw [textNumber_iff]
    refine Eq.trans this ?_
    rw [lastOr, argsOf]
    cases (opts.filterMap optStrategy).getLast? <;> rfl
  tsamples := tSetting_of (cliOpts_last (fun s => s.tsamples) optT' (fun a => (argInt a).toInt) (by
    intro s q s' h
    cases q with
    | t a =>
      simp only [cliOpt] at h
      by_cases hc : (argInt a).toInt ≥ 0
      · rw [if_pos hc, Res.ok.injEq] at h
        subst h
        simp only [optT', if_pos hc]
      · rw [if_neg hc, Res.ok.injEq] at h
        subst h
        simp only [optT', if_neg hc]
    | D a | d a | g a | S a | f a =>
      simp only [cliOpt] at h
      obtain ⟨r, -, h2⟩ := Res.bind_eq_ok.1 h
      simp only [Res.ok.injEq] at h2
      subst h2
      rfl
    | _ =>
      simp only [cliOpt, Res.ok.injEq] at h
      subst h
      rfl) opts _ _ h)
  verbose := intSetting_of (cliOpts_last (fun s => s.verbose) optVerbose argInt (by cli_step) opts _ _ h)
  xweak := cliOpts_last (fun s => s.xweak) optWeak strtod (by cli_step) opts _ _ h
  xfail := cliOpts_last (fun s => s.xfail) optFail strtod (by cli_step) opts _ _ h
  xtrategy := intSetting_of (cliOpts_last (fun s => s.xtrategy) optXtrategy argInt (by cli_step) opts _ _ h)
  xUser := cliOpts_last (fun s => s.xUser) optXuser strtod (by cli_step) opts _ _ h
  yUser := cliOpts_last (fun s => s.yUser) optYuser strtod (by cli_step) opts _ _ h
  zUser := cliOpts_last (fun s => s.zUser) optZuser strtod (by cli_step) opts _ _ h
  filename := by
    have := cliOpts_last (fun s => s.filename) optFile (fun a => a.take 128) (by cli_step) opts _ _ h
    refine Eq.trans this ?_
    rw [lastOr, argsOf]
    cases (opts.filterMap optFile).getLast? <;> rfl

theorem modes_of {opts : List CliOpt} {s : CliS ρ} (h : cliOpts strtod opts (cliInit one weak fail zero) = .ok (some s)) :
    (s.errflg ≠ 0 ↔ CliOpt.bad ∈ opts) ∧ (s.list = true ↔ CliOpt.l ∈ opts) ∧ (s.showFlags = true ↔ CliOpt.F ∈ opts) ∧
    (s.help = true ↔ CliOpt.h ∈ opts) := by
  refine ⟨?_, ?_, ?_, ?_⟩
  · have := cliOpts_flag (fun s => decide (s.errflg ≠ 0)) .bad (fun | .bad => some () | _ => none) (by intro q; cases q <;> simp) (by
      intro s q s' h
      cases q <;> simp only [cliOpt, Res.ok.injEq] at h <;>
        first
        | (subst h; rfl)
        | (subst h; simp)
        | (split at h <;> (simp only [Res.ok.injEq] at h; subst h; rfl))
        | (obtain ⟨r, -, h2⟩ := Res.bind_eq_ok.1 h; simp only [Res.ok.injEq] at h2; subst h2; rfl)) h (by simp [cliInit])
    simpa using this
  · exact cliOpts_flag (fun s => s.list) .l (fun | .l => some () | _ => none) (by intro q; cases q <;> simp) (by cli_step) h rfl
  · exact cliOpts_flag (fun s => s.showFlags) .F (fun | .F => some () | _ => none) (by intro q; cases q <;> simp) (by cli_step) h rfl
  · exact cliOpts_flag (fun s => s.help) .h (fun | .h => some () | _ => none) (by intro q; cases q <;> simp) (by cli_step) h rfl

theorem dtest_last : ∀ (opts : List SelOpt) (s t : SelS), selOpts opts s = .ok t →
    t.dtestNum = ((dArgs opts).filterMap argKind).getLast?.getD s.dtestNum := by
  intro opts
  induction opts with
  | nil =>
    intro s t h
    simp only [selOpts, Res.ok.injEq] at h
    subst h
    rfl
  | cons o os ih =>
    intro s t h
    rw [selOpts] at h
    obtain ⟨s1, h1, h2⟩ := Res.bind_eq_ok.1 h
    rw [ih s1 t h2]
    cases o with
    | d a =>
      have hd : dArgs (.d a :: os) = a :: dArgs os := rfl
      rw [selOpt_d, Res.ok.injEq] at h1
      rw [hd, List.filterMap_cons]
      cases hk : argKind a with
      | none =>
        rw [hk] at h1
        subst h1
        rfl
      | some x =>
        rw [hk] at h1
        subst h1
        simp only [List.getLast?_cons, Option.getD_some]
    | f a =>
      simp only [selOpt, Res.ok.injEq] at h1
      subst h1
      rfl
    | S a =>
      simp only [selOpt] at h1
      obtain ⟨r, -, h3⟩ := Res.bind_eq_ok.1 h1
      simp only [Res.ok.injEq] at h3
      subst h3
      rfl
    | g a =>
      simp only [selOpt] at h1
      split at h1
      · obtain ⟨r, -, h3⟩ := Res.bind_eq_ok.1 h1
        simp only [Res.ok.injEq] at h3
        subst h3
        rfl
      · obtain ⟨r, -, h3⟩ := Res.bind_eq_ok.1 h1
        simp only [Res.ok.injEq] at h3
        subst h3
        rfl

/-- **C114.** A command line that asks for a run: every setting is what the last of its own options says, whatever the other options
are and wherever they stand. -/
theorem C114_run (argc : Nat) (ha : argc ≠ 1) (opts : List CliOpt) (dl : List DArg) (fl : UInt) (t : SelS) (h : Accepted opts dl fl t)
    (hm : ∀ q ∈ [CliOpt.bad, .l, .F, .h], q ∉ opts) :
    ∃ s, parsecl strtod one weak fail zero argc opts 0 = .ok (.run s) ∧ s.tflag = fl ∧ s.sel = t ∧ Settings strtod one weak fail zero opts s := by
  obtain ⟨s, h1, h2, h3⟩ := accepted_run (strtod := strtod) (one := one) (weak := weak) (fail := fail) (zero := zero) h
  obtain ⟨m1, m2, m3, m4⟩ := modes_of h1
  have e1 : s.errflg = 0 := by
    by_contra hc
    exact hm .bad (by simp) (m1.1 hc)
  have e2 : s.list = false := by
    by_contra hc
    exact hm .l (by simp) (m2.1 (by simpa using hc))
  have e3 : s.showFlags = false := by
    by_contra hc
    exact hm .F (by simp) (m3.1 (by simpa using hc))
  have e4 : s.help = false := by
    by_contra hc
    exact hm .h (by simp) (m4.1 (by simpa using hc))
  have st := settings_of h1
  rw [parsecl, if_neg ha, h1, Res.bind_ok]
  simp only [e1, e2, e3, e4, ne_eq, not_true_eq_false, if_false, if_true, Bool.false_eq_true]
  by_cases hz : s.tflagTmp = 0
  · rw [if_pos hz] at h3 ⊢
    exact ⟨_, rfl, h3.symm, h2, st.1, st.2, st.3, st.4, st.5, st.6, st.7, st.8, st.9, st.10, st.11, st.12, st.13, st.14, st.15, st.16,
      st.17, st.18, st.19, st.20, st.21⟩
  · rw [if_neg hz] at h3 ⊢
    exact ⟨s, rfl, h3.symm, h2, st⟩

theorem cliOpts_V (post : List CliOpt) : ∀ (opts : List CliOpt) (s s' : CliS ρ), cliOpts strtod opts s = .ok (some s') →
    cliOpts strtod (opts ++ .V :: post) s = .ok none
  | [], s, s', _ => rfl
  | q :: qs, s, s', h => by
    obtain ⟨hq, s1, h1, h2⟩ := cliOpts_cons h
    rw [List.cons_append, cliOpts]
    · rw [h1, Res.bind_ok, cliOpts_V post qs s1 s' h2]
    · exact fun h => hq h

/-- **C114.** The other command lines.  Without any argument the usage is printed, with exit status 0; -V prints the version, whatever
follows it; then come, in this order of precedence: an unknown option or an argument left over, -l, -F, -h.  With -h: -a describes all
tests, a number of a listed test as the last number of -d describes it; otherwise (after -d with a name, in particular) the usage is
printed. -/
theorem C114_mode (argc : Nat) (ha : argc ≠ 1) (opts : List CliOpt) (dl : List DArg) (fl : UInt) (t : SelS) (h : Accepted opts dl fl t) (rest : Nat) :
    (∀ opts' rest', parsecl strtod one weak fail zero 1 opts' rest' = .ok (.usage 0)) ∧
    (∀ post, parsecl strtod one weak fail zero argc (opts ++ .V :: post) rest = .ok .version) ∧
    (CliOpt.bad ∈ opts ∨ rest ≠ 0 → parsecl strtod one weak fail zero argc opts rest = .ok (.usage 0)) ∧
    (CliOpt.bad ∉ opts ∧ rest = 0 →
      (CliOpt.l ∈ opts → parsecl strtod one weak fail zero argc opts rest = .ok .listTests) ∧
      (CliOpt.l ∉ opts ∧ CliOpt.F ∈ opts → parsecl strtod one weak fail zero argc opts rest = .ok .showFlags) ∧
      (CliOpt.l ∉ opts ∧ CliOpt.F ∉ opts ∧ CliOpt.h ∈ opts →
        (CliOpt.a ∈ opts → parsecl strtod one weak fail zero argc opts rest = .ok .describeAll) ∧
        (CliOpt.a ∉ opts → ∀ x, LastNumber (dArgs (selPart opts)) x →
          ((∃ e ∈ catalogue, e.1 = x.toNat) → parsecl strtod one weak fail zero argc opts rest = .ok (.describe x.toNat)) ∧
          ((∀ e ∈ catalogue, e.1 ≠ x.toNat) → parsecl strtod one weak fail zero argc opts rest = .ok (.usage 0))))) := by
  obtain ⟨s, h1, h2, h3⟩ := accepted_run (strtod := strtod) (one := one) (weak := weak) (fail := fail) (zero := zero) h
  obtain ⟨m1, m2, m3, m4⟩ := modes_of h1
  have m5 := (settings_of h1).all
  have e : parsecl strtod one weak fail zero argc opts rest = (if s.errflg ≠ 0 then .ok (.usage 0)
      else if rest = 0 then
        if s.list then .ok .listTests
        else if s.showFlags then .ok .showFlags
        else if s.help then cliHelp s
        else if s.tflagTmp = 0 then .ok (.run { s with tflag := tflagDefault })
        else .ok (.run s)
      else .ok (.usage 0)) := by
    rw [parsecl, if_neg ha, h1, Res.bind_ok]
  refine ⟨fun _ _ => rfl, fun post => ?_, fun hb => ?_, fun hb => ⟨fun hl => ?_, fun hl => ?_, fun hl => ?_⟩⟩
  · rw [parsecl, if_neg ha, cliOpts_V post opts _ s h1]
    rfl
  · rw [e]
    by_cases he : s.errflg ≠ 0
    · rw [if_pos he]
    · rw [if_neg he, if_neg (hb.resolve_left fun hc => he (m1.2 hc))]
  · rw [e, if_neg (fun hc => hb.1 (m1.1 hc)), if_pos hb.2, if_pos (m2.2 hl)]
  · rw [e, if_neg (fun hc => hb.1 (m1.1 hc)), if_pos hb.2, if_neg (fun hc => hl.1 (m2.1 hc)), if_pos (m3.2 hl.2)]
  · have e' : parsecl strtod one weak fail zero argc opts rest = cliHelp s := by
      rw [e, if_neg (fun hc => hb.1 (m1.1 hc)), if_pos hb.2, if_neg (fun hc => hl.1 (m2.1 hc)), if_neg (fun hc => hl.2.1 (m3.1 hc)),
        if_pos (m4.2 hl.2.2)]
    rw [e', cliHelp, testRecs_eq, Res.bind_ok]
    refine ⟨fun hA => by rw [if_pos (m5.2 hA)], fun hA x hx => ?_⟩
    rw [if_neg (fun hc => hA (m5.1 hc))]
    have hnum : s.sel.dtestNum = x := by
      have := h.sel
      rw [lastNumber_iff] at hx
      rw [h2, hx]
      exact dtest_last _ _ _ this
    have hl : testTable.length = 1000 := by rw [testTable, List.length_map, List.length_range]
    have hlt := x.isLt
    have hrange : (x.toInt ≥ 0 ∧ x.toInt < 1000) ↔ x.toNat < 1000 := by
      rw [BitVec.toInt_eq_toNat_cond]
      split <;> omega
    rw [hnum]
    simp only [hrange]
    refine ⟨fun ⟨c, hc, hce⟩ => ?_, fun hno => ?_⟩
    · have h5 := (catalogue_lt c hc)
      rw [← hce]
      have hc1 : c.1 < 1000 := by omega
      have h6 : testTable[c.1]? = some (some c.2) := by
        have hall : ∀ c ∈ catalogue, (catalogue.find? fun e => decide (e.1 = c.1)).map Prod.snd = some c.2 := by
          set_option maxRecDepth 100000 in decide +kernel
        rw [testTable_at hc1, hall c hc]
      rw [if_pos hc1, rd_some h6, Res.bind_ok]
    · by_cases hx1 : x.toNat < 1000
      · have h6 : testTable[x.toNat]? = some none := by
          rw [testTable_at hx1, List.find?_eq_none.2 (fun e he => by simpa using hno e he)]
          rfl
        rw [if_pos hx1, rd_some h6, Res.bind_ok]
      · rw [if_neg hx1]

/-- **C114.** -D with a text that is neither a number nor the name of a field (the last field excepted) ends the program. -/
theorem C114_refused (argc : Nat) (ha : argc ≠ 1) (opts : List CliOpt) (dl : List DArg) (fl : UInt) (t : SelS) (h : Accepted opts dl fl t) (rest : Nat)
    (arg : List Char) (ht : FlagArg arg (.text arg)) (hno : ∀ f ∈ tableFields, arg.take 16 ≠ f ∨ f = "file_rng_stat".toList) (post : List CliOpt) :
    parsecl strtod one weak fail zero argc (opts ++ .D arg :: post) rest = .exit := by
  obtain ⟨s, h1, -⟩ := accepted_run (strtod := strtod) (one := one) (weak := weak) (fail := fail) (zero := zero) h
  have hD : cliOpt strtod s (.D arg) = .exit := by
    have : ∀ f, optD f (argD arg) = .exit := by
      intro f
      rw [← (flagArg_iff _ _).1 ht]
      by_cases hl : arg.take 16 = "file_rng_stat".toList
      · have : arg = "file_rng_stat".toList := by
          have h5 := congrArg List.length hl
          rw [List.length_take] at h5
          have h6 : "file_rng_stat".toList.length = 13 := by decide +kernel
          rw [List.take_of_length_le (by omega)] at hl
          exact hl
        rw [this]
        exact C49_last_fails f
      · exact C49_unknown f arg fun g hg => (hno g hg).elim id (fun h5 => h5 ▸ hl)
    rw [cliOpt, this]
    rfl
  have key : ∀ (opts : List CliOpt) (s s' : CliS ρ), cliOpts strtod opts s = .ok (some s') → cliOpt strtod s' (.D arg) = .exit →
      cliOpts strtod (opts ++ .D arg :: post) s = .exit := by
    intro opts
    induction opts with
    | nil =>
      intro s s' e1 e2
      simp only [cliOpts, Res.ok.injEq, Option.some.injEq] at e1
      rw [List.nil_append, cliOpts, e1, e2]
      · rfl
      · simp
    | cons q qs ih =>
      intro s s' e1 e2
      obtain ⟨hq, s1, e3, e4⟩ := cliOpts_cons e1
      rw [List.cons_append, cliOpts]
      · rw [e3, Res.bind_ok, ih s1 s' e4 e2]
      · exact fun h => hq h
  rw [parsecl, if_neg ha, key opts _ s h1 hD]
  rfl

/-- The lines of the listing of -F. -/
def Spec.flagLines : List (List Char) :=
  "    0\t        default".toList :: Spec.fieldFlags.map fun f => atRight 5 (toString f.2).toList ++ '\t' :: atRight 15 f.1.toList

/-- **C114.** The listing of -F: the header, and the flags with their numbers. -/
theorem C114_flags (version : List Char) (hv : version.length ≤ 27) : flagText version = .ok (linesText ([ruleLine,
   '#' :: (List.replicate ((30 - version.length) / 2) ' ' ++ ("dieharder version ".toList ++ (version ++
     (" Copyright 2003 Robert G. Brown".toList ++ (List.replicate (28 - version.length - (30 - version.length) / 2) ' ' ++ ['#']))))),
   ruleLine,
   " Dieharder output control flags.  Set with -D flagname or -D flag".toList,
   " Multiple flags may be given:\t\tdieharder -a -D test_name -D pvalues.".toList,
   " Flags names and numbers may be mixed:\tdieharder -a -D 8 -D pvalues.".toList,
   " Flag\t    Flag Name".toList,
   "=======================".toList] ++ flagLines)) := by
  have h1 : rd tableFields 0 = .ok "default".toList := by decide +kernel
  have h2 : flagLoop TCNT 0 = .ok (linesText (Spec.fieldFlags.map fun f => atRight 5 (toString f.2).toList ++ '\t' :: atRight 15 f.1.toList)) := by
    set_option maxRecDepth 100000 in decide +kernel
  have h3 : " Dieharder output control flags.  Set with -D flagname or -D flag\n".toList ++
        (" Multiple flags may be given:\t\tdieharder -a -D test_name -D pvalues.\n".toList ++
        (" Flags names and numbers may be mixed:\tdieharder -a -D 8 -D pvalues.\n".toList ++
        (" Flag\t    Flag Name\n".toList ++ ("=======================\n".toList ++ (flagLine 0 "default".toList))))) =
      linesText [" Dieharder output control flags.  Set with -D flagname or -D flag".toList,
        " Multiple flags may be given:\t\tdieharder -a -D test_name -D pvalues.".toList,
        " Flags names and numbers may be mixed:\tdieharder -a -D 8 -D pvalues.".toList,
        " Flag\t    Flag Name".toList,
        "=======================".toList, "    0\t        default".toList] := by
    set_option maxRecDepth 100000 in decide +kernel
  rw [flagText, h1, Res.bind_ok, h2, Res.bind_ok, header_eq version hv, flagLines]
  refine congrArg Res.ok ?_
  have h4 : ∀ x a b c d e f g : List Char, x ++ (a ++ (b ++ (c ++ (d ++ (e ++ (f ++ g)))))) =
      x ++ ((a ++ (b ++ (c ++ (d ++ (e ++ f))))) ++ g) := by
    intros
    simp only [List.append_assoc]
  rw [h4, h3, ← linesText_append, ← linesText_append]
  exact congrArg linesText rfl

/-- **C114.** A single -D with a number of this listing shows exactly the field on the line (0: the default report), and so does the
name, except on the last line. -/
theorem C114_flag_meaning : (∀ j < 18, tableFlags [.num ((Spec.fieldFlags.getD j ("", 0)).2 : Nat)] = .ok (BitVec.ofNat 32 (2 ^ j))) ∧
    (∀ j < 17, tableFlags [.text (Spec.fieldFlags.getD j ("", 0)).1.toList] = .ok (BitVec.ofNat 32 (2 ^ j))) ∧
    tableFlags [.num 0] = tableFlags [] ∧ tableFlags [.text "default".toList] = tableFlags [] ∧
    tableFlags [.text (Spec.fieldFlags.getD 17 ("", 0)).1.toList] = .exit :=
  ⟨by decide +kernel, by decide +kernel, rfl, by decide +kernel, by decide +kernel⟩

/-- `-n 5 -t -3 -B -n 0x4 -O 2 -t 4294967297 -Z 1`. -/
def cliEx : List CliOpt := [.n "5".toList, .t "-3".toList, .B, .n " 4x".toList, .O "2".toList, .t "4294967297".toList, .Z "1".toList]

/-- Its settings: the last -n counts, -O overrides -B, -t counts modulo 2^32. -/
example : ∃ s, parsecl (fun _ => (0 : Int)) 1 2 3 0 15 cliEx 0 = .ok (.run s) ∧ s.ntuple = 4 ∧ s.outputFormat = 2 ∧ s.tsamples = 1 ∧
    s.tflag = tflagDefault ∧ s.xweak = 2 := ⟨_, rfl, by decide +kernel, by decide +kernel, by decide +kernel, rfl, rfl⟩

/-- The hypotheses of the theorems hold for it. -/
example : Accepted cliEx [] tflagDefault selInit := ⟨by simp [cliEx], .nil, rfl, rfl⟩

/-- -t 3000000000 is ignored; -h with a name of a test prints the usage, with its number the description. -/
example : (∃ s, parsecl (fun _ => (0 : Int)) 1 2 3 0 3 [.t "3000000000".toList] 0 = .ok (.run s) ∧ s.tsamples = 0) ∧
    parsecl (fun _ => (0 : Int)) 1 2 3 0 4 [.d "diehard_sums".toList, .h] 0 = .ok (.usage 0) :=
  ⟨⟨_, rfl, by decide +kernel⟩, by
    have hc : cliOpts (fun _ => (0 : Int)) [.d "diehard_sums".toList, .h] (cliInit 1 2 3 0) =
        .ok (some { cliInit 1 2 3 0 with help := true, sel := { selInit with dtestName := "diehard_sums".toList } }) := rfl
    rw [parsecl, if_neg (by decide), hc, Res.bind_ok]
    show cliHelp _ = _
    rw [cliHelp, testRecs_eq]
    rfl⟩

end Dh
