import Verif.Model.Startup
import Verif.Props.FileInput
import Verif.Props.Devices
import Verif.Props.Aes
import Verif.Props.Threefish
/-
C119: what the tests of a run are given.
-/
namespace Dh

namespace Spec

/-- The number of values drawn to time a generator: -t and -p if they are given and -a is not, otherwise 1000000 and ten times the
factor of -m, at least 1; none if the rate is not wanted. -/
def timingDraws (c : Cfg) (rate : Bool) : Nat :=
  if rate then (if c.all ∨ c.tsamples = 0 then 1000000 else c.tsamples) * (if c.all ∨ c.psamples = 0 then max 1 ⌊10 * c.multiplyP⌋.toNat else c.psamples)
  else 0

/-- Lists of the lengths `ns` cut from the sequence `f`, one after the other, the first beginning at `f k`. -/
def cut (f : Nat → UInt) : Nat → List Nat → List (List UInt)
  | _, [] => []
  | k, n :: ns => (List.range n).map (fun i => f (k + i)) :: cut f (k + n) ns

end Spec

/-- The lists of `Spec.cut`, one after the other, are a part of the sequence without gaps or repetitions. -/
theorem cut_flatten (f : Nat → UInt) : ∀ (ns : List Nat) (k : Nat), (Spec.cut f k ns).flatten = (List.range ns.sum).map fun i => f (k + i)
  | [], _ => rfl
  | n :: ns, k => by
    rw [Spec.cut, List.flatten_cons, cut_flatten f ns, List.sum_cons, List.range_add, List.map_append, List.map_map]
    congr 1
    exact List.map_congr_left fun i _ => by simp only [Function.comp, Nat.add_assoc]

/-! ### The timing -/

theorem timingPasses_eq {σ : Type} (g : GslGen σ) (ts : Nat) : ∀ (ps : Nat) (st : σ), timingPasses g ts ps st = timingPass g (ps * ts) st := by
  have key : ∀ (a b : Nat) (st : σ), timingPass g (a + b) st = (do let st ← timingPass g a st; timingPass g b st) := by
    intro a
    induction a with
    | zero => intro b st; rw [Nat.zero_add, timingPass, Res.bind_ok]
    | succ a ih =>
      intro b st
      rw [Nat.succ_add, timingPass, timingPass]
      cases h : g.get st with
      | ok p => simp only [Res.bind_ok, ih]
      | exit => rfl
      | ub => rfl
      | loop => rfl
  intro ps
  induction ps with
  | zero => intro st; rw [Nat.zero_mul]; rfl
  | succ ps ih =>
    intro st
    rw [timingPasses, Nat.succ_mul, Nat.add_comm, key]
    simp only [ih]

theorem timeRng_eq {σ : Type} (c : Cfg) (h0 : 0 ≤ c.multiplyP) (h1 : 10 * c.multiplyP < 2 ^ 32) (g : GslGen σ) (r : UInt) (st : σ) :
    timeRng c g r st = (do let st ← g.set (r.setWidth 64) st; timingPass g (Spec.timingDraws c true) st) := by
  have hm : toUint (((10 : Nat) : ℚ) * c.multiplyP) = .ok ⌊10 * c.multiplyP⌋.toNat := by
    rw [toUint, if_pos]
    · rfl
    · have : (((10 : Nat) : ℚ)) = 10 := by norm_num
      rw [this]
      exact ⟨by linarith [mul_nonneg (by norm_num : (0 : ℚ) ≤ 10) h0], h1⟩
  rw [timeRng, createTest]
  simp only [timingDtest, hm]
  by_cases ha : c.all ∨ c.psamples = 0
  · simp only [if_pos ha, Res.bind_ok, Res.pure_eq, List.replicate_succ, List.replicate_zero, rd, List.getElem?_cons_zero, timingPasses_eq, Spec.timingDraws, if_true]
    congr 1
    funext st
    rw [Nat.mul_comm]
    congr 2
    split <;> omega
  · simp only [if_neg ha, Res.bind_ok, Res.pure_eq, List.replicate_succ, List.replicate_zero, rd, List.getElem?_cons_zero, timingPasses_eq, Spec.timingDraws, if_true]
    congr 1
    funext st
    rw [Nat.mul_comm]

/-- Starting a generator: seeding, `Spec.timingDraws` draws after another seeding, seeding. -/
theorem startRng_eq {σ : Type} (c : Cfg) (h0 : 0 ≤ c.multiplyP) (h1 : 10 * c.multiplyP < 2 ^ 32) (g : GslGen σ) (rate : Bool) (Seed : BitVec 64)
    (r₁ r₂ : UInt) (st : σ) :
    startRng c g rate Seed r₁ r₂ st = (do
      let st ← g.set 0 st
      let st ← (if rate then g.set (r₁.setWidth 64) st else .ok st : Res σ)
      let st ← timingPass g (Spec.timingDraws c rate) st
      g.set (currentSeed Seed r₂) st) := by
  rw [startRng]
  cases g.set 0 st with
  | ok s =>
    cases rate with
    | false => simp only [Res.bind_ok, Bool.false_eq_true, if_false, Spec.timingDraws, timingPass]
    | true =>
      simp only [Res.bind_ok, if_true, timeRng_eq c h0 h1]
      cases g.set (r₁.setWidth 64) s <;> rfl
  | exit => rfl
  | ub => rfl
  | loop => rfl

/-! ### Standard input -/

theorem stdinGet_word (b : ByteStream) (k : Nat) (h : 4 * k + 4 ≤ b.length) :
    stdinGet (b.drop (4 * k)) = .ok (Spec.word b k, b.drop (4 * (k + 1))) := by
  rw [drop_word b k h, stdinGet, if_neg (by simp)]
  congr 2
  · apply BitVec.eq_of_toNat_eq
    rw [leBytes_value _ _ (by simp), Spec.word, BitVec.toNat_ofNat, Nat.mod_eq_of_lt]
    · simp only [List.take_succ_cons, List.take_zero, Spec.bytesValue]
      omega
    · have := (b.getD (4 * k) 0).isLt
      have := (b.getD (4 * k + 1) 0).isLt
      have := (b.getD (4 * k + 2) 0).isLt
      have := (b.getD (4 * k + 3) 0).isLt
      omega

theorem stdinGet_end (b : ByteStream) (k : Nat) (h : b.length < 4 * k + 4) : stdinGet (b.drop (4 * k)) = .exit := by
  rw [stdinGet, if_pos (by rw [List.length_drop]; omega)]

theorem timingPass_stdin (b : ByteStream) : ∀ n k : Nat, timingPass stdinGen n (b.drop (4 * k)) =
    if 4 * (k + n) ≤ b.length ∨ n = 0 then .ok (b.drop (4 * (k + n))) else .exit
  | 0, k => by rw [timingPass, if_pos (Or.inr rfl)]; rfl
  | n + 1, k => by
    rw [timingPass]
    show (do let (_, st) ← stdinGet (b.drop (4 * k)); timingPass stdinGen n st) = _
    by_cases h : 4 * k + 4 ≤ b.length
    · rw [stdinGet_word b k h]
      simp only [Res.bind_ok]
      rw [timingPass_stdin b n (k + 1)]
      have e : k + 1 + n = k + (n + 1) := by omega
      rw [e]
      by_cases h2 : 4 * (k + (n + 1)) ≤ b.length
      · rw [if_pos (Or.inl h2), if_pos (Or.inl h2)]
      · rw [if_neg (by omega), if_neg (by omega)]
    · rw [stdinGet_end b k (by omega), if_neg (by omega)]
      rfl

theorem drawN_stdin (b : ByteStream) : ∀ n k : Nat, drawN stdinGen n (b.drop (4 * k)) =
    if 4 * (k + n) ≤ b.length ∨ n = 0 then .ok ((List.range n).map (fun i => Spec.word b (k + i)), b.drop (4 * (k + n))) else .exit
  | 0, k => by rw [drawN, if_pos (Or.inr rfl)]; rfl
  | n + 1, k => by
    rw [drawN]
    show (do let (v, st) ← stdinGet (b.drop (4 * k)); let (vs, st) ← drawN stdinGen n st; Res.ok (v :: vs, st)) = _
    by_cases h : 4 * k + 4 ≤ b.length
    · rw [stdinGet_word b k h]
      simp only [Res.bind_ok]
      rw [drawN_stdin b n (k + 1)]
      have e : k + 1 + n = k + (n + 1) := by omega
      rw [e]
      by_cases h2 : 4 * (k + (n + 1)) ≤ b.length
      · rw [if_pos (Or.inl h2), if_pos (Or.inl h2), List.range_succ_eq_map]
        simp only [Res.bind_ok, List.map_cons, List.map_map, Nat.add_zero]
        congr 3
        exact List.map_congr_left fun i _ => by simp only [Function.comp]; congr 1; omega
      · rw [if_neg (by omega), if_neg (by omega)]
        rfl
    · rw [stdinGet_end b k (by omega), if_neg (by omega)]
      rfl

theorem runTests_stdin (b : ByteStream) (strategy : Nat) (Seed : BitVec 64) : ∀ (tests : List (UInt × Nat)) (k : Nat), 4 * k ≤ b.length →
    runTests stdinGen strategy Seed tests (b.drop (4 * k)) =
      if 4 * (k + (tests.map Prod.snd).sum) ≤ b.length then
        .ok (Spec.cut (Spec.word b) k (tests.map Prod.snd), b.drop (4 * (k + (tests.map Prod.snd).sum))) else .exit
  | [], k, hk => by rw [runTests, if_pos (by simpa using hk)]; rfl
  | (r, n) :: tests, k, hk => by
    have hs : (if strategy ≠ 0 then stdinGen.set (currentSeed Seed r) (b.drop (4 * k)) else .ok (b.drop (4 * k)) : Res ByteStream) = .ok (b.drop (4 * k)) := by
      split <;> rfl
    rw [runTests, hs, Res.bind_ok, drawN_stdin]
    simp only [List.map_cons, List.sum_cons]
    by_cases h : 4 * (k + n) ≤ b.length
    · rw [if_pos (Or.inl h)]
      simp only [Res.bind_ok]
      rw [runTests_stdin b strategy Seed tests (k + n) h]
      by_cases h2 : 4 * (k + n + (tests.map Prod.snd).sum) ≤ b.length
      · rw [if_pos h2, if_pos (by omega)]
        simp only [Res.bind_ok, Spec.cut, Nat.add_assoc]
      · rw [if_neg h2, if_neg (by omega)]
        rfl
    · rw [if_neg (by omega), if_neg (by omega)]
      rfl

/-- C119, standard input (-g 200): whatever the seeds and the strategy, the words used for timing are lost and the tests are given the
words that follow, one test after the other; if the input ends before that, the program ends. -/
theorem C119_stdin (c : Cfg) (h0 : 0 ≤ c.multiplyP) (h1 : 10 * c.multiplyP < 2 ^ 32) (rate : Bool) (strategy : Nat) (Seed : BitVec 64)
    (r₁ r₂ : UInt) (tests : List (UInt × Nat)) (b : ByteStream) :
    wholeRun c stdinGen rate strategy Seed r₁ r₂ tests b =
      if 4 * (Spec.timingDraws c rate + (tests.map Prod.snd).sum) ≤ b.length then
        .ok (Spec.cut (Spec.word b) (Spec.timingDraws c rate) (tests.map Prod.snd),
          b.drop (4 * (Spec.timingDraws c rate + (tests.map Prod.snd).sum)))
      else .exit := by
  rw [wholeRun, startRng_eq c h0 h1]
  have hr : (if rate then stdinGen.set (r₁.setWidth 64) b else .ok b : Res ByteStream) = .ok b := by split <;> rfl
  show (do
    let st ← (do
      let st ← (if rate then stdinGen.set (r₁.setWidth 64) b else .ok b : Res ByteStream)
      let st ← timingPass stdinGen (Spec.timingDraws c rate) st
      Res.ok st)
    runTests stdinGen strategy Seed tests st) = _
  rw [hr, Res.bind_ok]
  have ht := timingPass_stdin b (Spec.timingDraws c rate) 0
  rw [Nat.mul_zero, List.drop_zero, Nat.zero_add] at ht
  rw [ht]
  by_cases h : 4 * Spec.timingDraws c rate ≤ b.length
  · rw [if_pos (Or.inl h), Res.bind_ok, Res.bind_ok, runTests_stdin b strategy Seed tests _ h]
  · rw [if_neg (by omega), if_neg (by omega)]
    rfl

/-- C119: with the default flags and no -t, -p or -m (or with -a) the first 40000000 bytes of standard input are not tested. -/
theorem C119_stdin_default (c : Cfg) (ht : c.all ∨ (c.tsamples = 0 ∧ c.psamples = 0)) (hm : c.multiplyP = 1) (strategy : Nat)
    (Seed : BitVec 64) (r₁ r₂ : UInt) (tests : List (UInt × Nat)) (b : ByteStream) :
    (b.length < 40000000 → wholeRun c stdinGen true strategy Seed r₁ r₂ tests b = .exit) ∧
    ∀ (front b' : ByteStream), b = front ++ b' → front.length = 40000000 →
      wholeRun c stdinGen true strategy Seed r₁ r₂ tests b = wholeRun c stdinGen false strategy Seed r₁ r₂ tests b' := by
  have hd : Spec.timingDraws c true = 10000000 := by
    have h1 : c.all = true ∨ c.tsamples = 0 := ht.imp id (·.1)
    have h2 : c.all = true ∨ c.psamples = 0 := ht.imp id (·.2)
    have : ⌊(10 : ℚ) * 1⌋ = 10 := by norm_num
    rw [Spec.timingDraws, if_pos rfl, if_pos h1, if_pos h2, hm, this]
    rfl
  have hf : Spec.timingDraws c false = 0 := rfl
  have h0 : 0 ≤ c.multiplyP := by rw [hm]; norm_num
  have h1 : 10 * c.multiplyP < 2 ^ 32 := by rw [hm]; norm_num
  constructor
  · intro h
    rw [C119_stdin c h0 h1, hd, if_neg (by omega)]
  · intro front b' hb hl
    rw [C119_stdin c h0 h1, C119_stdin c h0 h1, hd, hf]
    have hlen : b.length = 40000000 + b'.length := by rw [hb, List.length_append, hl]
    have hw : ∀ k, Spec.word b (10000000 + k) = Spec.word b' k := by
      intro k
      have hg : ∀ j, b.getD (40000000 + j) 0 = b'.getD j 0 := by
        intro j
        rw [hb, List.getD_eq_getElem?_getD, List.getD_eq_getElem?_getD, List.getElem?_append_right (by omega), hl, Nat.add_sub_cancel_left]
      have e : ∀ j, 4 * (10000000 + k) + j = 40000000 + (4 * k + j) := by intro j; omega
      rw [Spec.word, Spec.word, e 1, e 2, e 3, hg, hg, hg, show 4 * (10000000 + k) = 40000000 + 4 * k by omega, hg]
    have hc : ∀ (ns : List Nat) (k : Nat), Spec.cut (Spec.word b) (10000000 + k) ns = Spec.cut (Spec.word b') k ns := by
      intro ns
      induction ns with
      | nil => intro k; rfl
      | cons n ns ih =>
        intro k
        rw [Spec.cut, Spec.cut, Nat.add_assoc, ih]
        congr 1
        exact List.map_congr_left fun i _ => by rw [Nat.add_assoc, hw]
    have hdr : ∀ s, b.drop (4 * (10000000 + s)) = b'.drop (4 * (0 + s)) := by
      intro s
      rw [hb, show 4 * (10000000 + s) = front.length + 4 * (0 + s) by omega, List.drop_append]
      simp
    rw [show (10000000 : Nat) = 10000000 + 0 from rfl, hc, show (10000000 + 0 : Nat) = 10000000 from rfl, hdr]
    by_cases h : 4 * (0 + (tests.map Prod.snd).sum) ≤ b'.length
    · rw [if_pos h, if_pos (by omega)]
    · rw [if_neg h, if_neg (by omega)]

/-! ### Generators that rewind -/

/-- A generator whose `k`-th draw after a seeding with a nonzero value is `f k`, and that is not changed by the seed 0. -/
structure Rewinding {σ : Type} (g : GslGen σ) (f : Nat → UInt) (at_ : Nat → σ → Prop) (start : σ) : Prop where
  init : ∀ s, ∃ st, g.set s start = .ok st ∧ at_ 0 st
  set : ∀ s k st, at_ k st → ∃ st', g.set s st = .ok st' ∧ at_ (if s = 0 then k else 0) st'
  get : ∀ k st, at_ k st → ∃ st', g.get st = .ok (f k, st') ∧ at_ (k + 1) st'

namespace Spec

/-- What the tests are given when each may begin with a rewinding: of the sequence `f`, from `f k` on. -/
def given (f : Nat → UInt) (rewinds : UInt → Bool) : Nat → List (UInt × Nat) → List (List UInt)
  | _, [] => []
  | k, (r, n) :: tests =>
    (List.range n).map (fun i => f ((if rewinds r then 0 else k) + i)) :: given f rewinds ((if rewinds r then 0 else k) + n) tests

end Spec

theorem currentSeed_zero (Seed : BitVec 64) (r : UInt) : currentSeed Seed r = 0 ↔ Seed = 0 ∧ r = 0 := by
  rw [currentSeed]
  split
  · next h =>
    constructor
    · intro e
      refine ⟨h, BitVec.eq_of_toNat_eq ?_⟩
      have e2 : r.toNat % 2 ^ 64 = 0 := by
        have := congrArg BitVec.toNat e
        rwa [BitVec.toNat_setWidth] at this
      have := r.isLt
      show r.toNat = 0
      omega
    · rintro ⟨_, e⟩; rw [e]; rfl
  · next h => exact ⟨fun e => absurd e h, fun e => absurd e.1 h⟩

section
variable {σ : Type} {g : GslGen σ} {f : Nat → UInt} {at_ : Nat → σ → Prop} {start : σ} (hg : Rewinding g f at_ start)
include hg

theorem Rewinding.timing : ∀ (n k : Nat) (st : σ), at_ k st → ∃ st', timingPass g n st = .ok st' ∧ at_ (k + n) st'
  | 0, k, st, h => ⟨st, rfl, h⟩
  | n + 1, k, st, h => by
    obtain ⟨st1, e1, h1⟩ := hg.get k st h
    obtain ⟨st2, e2, h2⟩ := Rewinding.timing n (k + 1) st1 h1
    refine ⟨st2, ?_, by rw [show k + (n + 1) = k + 1 + n by omega]; exact h2⟩
    rw [timingPass, e1]
    exact e2

theorem Rewinding.draws : ∀ (n k : Nat) (st : σ), at_ k st → ∃ st', drawN g n st = .ok ((List.range n).map (fun i => f (k + i)), st') ∧ at_ (k + n) st'
  | 0, k, st, h => ⟨st, rfl, h⟩
  | n + 1, k, st, h => by
    obtain ⟨st1, e1, h1⟩ := hg.get k st h
    obtain ⟨st2, e2, h2⟩ := Rewinding.draws n (k + 1) st1 h1
    refine ⟨st2, ?_, by rw [show k + (n + 1) = k + 1 + n by omega]; exact h2⟩
    rw [drawN, e1]
    simp only [Res.bind_ok, e2]
    rw [List.range_succ_eq_map, List.map_cons, List.map_map]
    congr 3
    exact List.map_congr_left fun i _ => by simp only [Function.comp]; congr 1; omega

theorem Rewinding.tests (strategy : Nat) (Seed : BitVec 64) : ∀ (tests : List (UInt × Nat)) (k : Nat) (st : σ), at_ k st →
    ∃ st', runTests g strategy Seed tests st =
      .ok (Spec.given f (fun r => decide (strategy ≠ 0 ∧ (Seed ≠ 0 ∨ r ≠ 0))) k tests, st')
  | [], k, st, h => ⟨st, rfl⟩
  | (r, n) :: tests, k, st, h => by
    have hs : ∃ st1, (if strategy ≠ 0 then g.set (currentSeed Seed r) st else .ok st : Res σ) = .ok st1 ∧
        at_ (if decide (strategy ≠ 0 ∧ (Seed ≠ 0 ∨ r ≠ 0)) = true then 0 else k) st1 := by
      by_cases h1 : strategy = 0
      · exact ⟨st, by rw [if_neg (by simpa using h1)], by simpa [h1] using h⟩
      · obtain ⟨st1, e1, h2⟩ := hg.set (currentSeed Seed r) k st h
        refine ⟨st1, by rw [if_pos h1]; exact e1, ?_⟩
        by_cases h3 : Seed = 0 ∧ r = 0
        · rw [if_pos ((currentSeed_zero Seed r).2 h3)] at h2
          rw [if_neg (by simp only [decide_eq_true_eq]; rintro ⟨_, a | a⟩; exacts [a h3.1, a h3.2])]
          exact h2
        · rw [if_neg (fun e => h3 ((currentSeed_zero Seed r).1 e))] at h2
          rw [if_pos (by simp only [decide_eq_true_eq]; exact ⟨h1, by by_cases e : Seed = 0; exacts [Or.inr fun e2 => h3 ⟨e, e2⟩, Or.inl e]⟩)]
          exact h2
    obtain ⟨st1, e1, h1⟩ := hs
    obtain ⟨st2, e2, h2⟩ := hg.draws n _ st1 h1
    obtain ⟨st3, e3⟩ := Rewinding.tests strategy Seed tests _ st2 h2
    refine ⟨st3, ?_⟩
    rw [runTests, e1, Res.bind_ok, e2]
    simp only [Res.bind_ok, e3]
    rfl

theorem Rewinding.run (c : Cfg) (h0 : 0 ≤ c.multiplyP) (h1 : 10 * c.multiplyP < 2 ^ 32) (rate : Bool) (strategy : Nat) (Seed : BitVec 64)
    (r₁ r₂ : UInt) (tests : List (UInt × Nat)) : ∃ st', wholeRun c g rate strategy Seed r₁ r₂ tests start =
      .ok (Spec.given f (fun r => decide (strategy ≠ 0 ∧ (Seed ≠ 0 ∨ r ≠ 0))) (if Seed = 0 ∧ r₂ = 0 then Spec.timingDraws c rate else 0) tests, st') := by
  obtain ⟨sa, ea, ha⟩ := hg.init 0
  have hb : ∃ sb, (if rate then g.set (r₁.setWidth 64) sa else .ok sa : Res σ) = .ok sb ∧ at_ 0 sb := by
    cases rate with
    | false => exact ⟨sa, rfl, ha⟩
    | true =>
      obtain ⟨sb, eb, hb⟩ := hg.set (r₁.setWidth 64) 0 sa ha
      rw [ite_self] at hb
      exact ⟨sb, eb, hb⟩
  obtain ⟨sb, eb, hb⟩ := hb
  obtain ⟨sc, ec, hc⟩ := hg.timing (Spec.timingDraws c rate) 0 sb hb
  obtain ⟨sd, ed, hd⟩ := hg.set (currentSeed Seed r₂) _ sc hc
  obtain ⟨se, ee⟩ := hg.tests strategy Seed tests _ sd hd
  refine ⟨se, ?_⟩
  rw [wholeRun, startRng_eq c h0 h1, ea, Res.bind_ok, eb, Res.bind_ok, ec, Res.bind_ok, ed, Res.bind_ok, ee, Nat.zero_add]
  simp only [currentSeed_zero]

end

theorem given_never (f : Nat → UInt) : ∀ (tests : List (UInt × Nat)) (k : Nat), Spec.given f (fun _ => false) k tests = Spec.cut f k (tests.map Prod.snd)
  | [], _ => rfl
  | (r, n) :: tests, k => by
    rw [Spec.given, given_never f tests, List.map_cons, Spec.cut]
    rfl

theorem given_always (f : Nat → UInt) : ∀ (tests : List (UInt × Nat)) (k : Nat),
    Spec.given f (fun _ => true) k tests = tests.map fun t => (List.range t.2).map f
  | [], _ => rfl
  | (r, n) :: tests, k => by
    rw [Spec.given, given_always f tests, List.map_cons]
    simp

/-- What the tests are given, for the three ways of seeding. -/
theorem Rewinding.modes {σ : Type} {g : GslGen σ} {f : Nat → UInt} {at_ : Nat → σ → Prop} {start : σ} (hg : Rewinding g f at_ start)
    (c : Cfg) (h0 : 0 ≤ c.multiplyP) (h1 : 10 * c.multiplyP < 2 ^ 32) (rate : Bool) (strategy : Nat) (Seed : BitVec 64) (r₁ r₂ : UInt)
    (tests : List (UInt × Nat)) : ∃ vss st', wholeRun c g rate strategy Seed r₁ r₂ tests start = .ok (vss, st') ∧
      (strategy = 0 → (Seed ≠ 0 ∨ r₂ ≠ 0) → vss = Spec.cut f 0 (tests.map Prod.snd)) ∧
      (strategy = 0 → Seed = 0 → r₂ = 0 → vss = Spec.cut f (Spec.timingDraws c rate) (tests.map Prod.snd)) ∧
      (strategy ≠ 0 → (Seed ≠ 0 ∨ ∀ t ∈ tests, t.1 ≠ 0) → vss = tests.map fun t => (List.range t.2).map f) := by
  obtain ⟨st', e⟩ := hg.run c h0 h1 rate strategy Seed r₁ r₂ tests
  refine ⟨_, st', e, ?_, ?_, ?_⟩
  · intro hs hn
    rw [if_neg (by rintro ⟨a, b⟩; rcases hn with h | h; exacts [h a, h b])]
    simp only [hs, ne_eq, not_true_eq_false, false_and, decide_false, given_never]
  · intro hs a b
    rw [if_pos ⟨a, b⟩]
    simp only [hs, ne_eq, not_true_eq_false, false_and, decide_false, given_never]
  · intro hs hn
    generalize (if Seed = 0 ∧ r₂ = 0 then Spec.timingDraws c rate else 0) = k
    clear e
    induction tests generalizing k with
    | nil => rfl
    | cons t tests ih =>
      obtain ⟨r, n⟩ := t
      have hd : decide (strategy ≠ 0 ∧ (Seed ≠ 0 ∨ r ≠ 0)) = true := by
        rw [decide_eq_true_eq]
        exact ⟨hs, hn.imp id fun h => h (r, n) (by simp)⟩
      rw [Spec.given, ih (hn.imp id fun h t ht => h t (by simp [ht])), List.map_cons]
      simp only [hd, if_true, Nat.zero_add]

theorem rawGen_rewinding (file : Str) (h : 16 ≤ file.length / 4) :
    Rewinding (rawGen file) (fun k => Spec.word file (k % (file.length / 4))) (RawAt file (file.length / 4)) (rawAlloc true) where
  init s := rawSet_open file (by omega) s (rawAlloc true) (Or.inl ⟨rfl, rfl, rfl⟩)
  set s k st hs := by
    obtain ⟨st', e, h'⟩ := rawCalls_spec file (by omega) [.seed s] k st hs
    rw [rawCalls] at e
    obtain ⟨st1, e1, e2⟩ := Res.bind_eq_ok.1 e
    simp only [rawCalls, Res.ok.injEq, Prod.mk.injEq] at e2
    rw [e2.2] at e1
    exact ⟨st', e1, h'⟩
  get k st hs := rawGet_step file _ (by omega) (by omega) hs

/-- C119, raw files (-g 201): the tests are given the words of the file from its beginning, in a circle; the words used for timing are
not lost, except that they are if the random seed is 0.  With a strategy every test is given the words from the beginning of the file. -/
theorem C119_raw (file : Str) (h : 16 ≤ file.length / 4) (c : Cfg) (h0 : 0 ≤ c.multiplyP) (h1 : 10 * c.multiplyP < 2 ^ 32) (rate : Bool)
    (strategy : Nat) (Seed : BitVec 64) (r₁ r₂ : UInt) (tests : List (UInt × Nat)) :
    ∃ vss st', wholeRun c (rawGen file) rate strategy Seed r₁ r₂ tests (rawAlloc true) = .ok (vss, st') ∧
      (strategy = 0 → (Seed ≠ 0 ∨ r₂ ≠ 0) → vss = Spec.cut (fun k => Spec.word file (k % (file.length / 4))) 0 (tests.map Prod.snd)) ∧
      (strategy = 0 → Seed = 0 → r₂ = 0 →
        vss = Spec.cut (fun k => Spec.word file (k % (file.length / 4))) (Spec.timingDraws c rate) (tests.map Prod.snd)) ∧
      (strategy ≠ 0 → (Seed ≠ 0 ∨ ∀ t ∈ tests, t.1 ≠ 0) →
        vss = tests.map fun t => (List.range t.2).map fun k => Spec.word file (k % (file.length / 4))) :=
  (rawGen_rewinding file h).modes c h0 h1 rate strategy Seed r₁ r₂ tests

/-- C119, files with a header (-g 202) whose values are numbers: the same for the values of the file. -/
theorem C119_ascii (rnd : ℚ → ℚ) {items : List Spec.HItem} {ty : BitVec 8} {n nb : Nat} (h : Spec.Header items ty n nb)
    (hty : ty = 100 ∨ ty = 105 ∨ ty = 117) (hn : 0 < n) (hn2 : n < 2 ^ 31) (hb : nb < 2 ^ 31) (lines : List Str) (vals : List UInt)
    (hv : List.Forall₂ Spec.ValueLine lines vals) (hlen : lines.length = n) (extra : Str)
    (ty₀ : BitVec 8) (nb₀ : Int) (sbuf : List (List (BitVec 8))) (hl : sbuf.length = PK)
    (c : Cfg) (h0 : 0 ≤ c.multiplyP) (h1 : 10 * c.multiplyP < 2 ^ 32) (rate : Bool)
    (strategy : Nat) (Seed : BitVec 64) (r₁ r₂ : UInt) (tests : List (UInt × Nat)) :
    ∃ vss st', wholeRun c (asciiGen rnd ((items.map Spec.HItem.text).flatten ++ (lines.flatten ++ extra))) rate strategy Seed r₁ r₂ tests
        (fileAlloc ty₀ nb₀ sbuf) = .ok (vss, st') ∧
      (strategy = 0 → (Seed ≠ 0 ∨ r₂ ≠ 0) → vss = Spec.cut (fun k => vals.getD (k % n) 0) 0 (tests.map Prod.snd)) ∧
      (strategy = 0 → Seed = 0 → r₂ = 0 → vss = Spec.cut (fun k => vals.getD (k % n) 0) (Spec.timingDraws c rate) (tests.map Prod.snd)) ∧
      (strategy ≠ 0 → (Seed ≠ 0 ∨ ∀ t ∈ tests, t.1 ≠ 0) → vss = tests.map fun t => (List.range t.2).map fun k => vals.getD (k % n) 0) := by
  have hv' := forall₂_getD hv [] 0
  have hspec := fileCalls_spec rnd h hn hn2 hb (fun j => (lines.drop j).flatten ++ extra)
    ((items.map Spec.HItem.text).flatten ++ (lines.flatten ++ extra)) (by simp) (fun j => lines.getD j []) (fun j => vals.getD j 0)
    (fun j hj => (hv' j (by omega)).line)
    (fun j hj => by
      rw [convertLine, if_pos hty]
      exact (hv' j (by omega)).scan)
    (fun j hj => rests_step lines extra j (by omega))
  have hr : Rewinding (asciiGen rnd ((items.map Spec.HItem.text).flatten ++ (lines.flatten ++ extra))) (fun k => vals.getD (k % n) 0)
      (FileAt (fun j => (lines.drop j).flatten ++ extra) n ty nb) (fileAlloc ty₀ nb₀ sbuf) := by
    constructor
    · intro s
      exact fileSet_open h hn hn2 hb (fun j => (lines.drop j).flatten ++ extra)
        ((items.map Spec.HItem.text).flatten ++ (lines.flatten ++ extra)) (by simp) (fileAlloc ty₀ nb₀ sbuf) hl s (Or.inr ⟨rfl, rfl, rfl⟩)
    · intro s k st hs
      obtain ⟨st', e, h'⟩ := hspec [.seed s] k st hs
      rw [fileCalls] at e
      obtain ⟨st1, e1, e2⟩ := Res.bind_eq_ok.1 e
      simp only [fileCalls, Res.ok.injEq, Prod.mk.injEq] at e2
      rw [e2.2] at e1
      exact ⟨st', e1, h'⟩
    · intro k st hs
      obtain ⟨st', e, h'⟩ := hspec [.draw] k st hs
      rw [fileCalls] at e
      obtain ⟨⟨v, st1⟩, e1, e2⟩ := Res.bind_eq_ok.1 e
      simp only [fileCalls, Res.bind_ok, Res.ok.injEq, Prod.mk.injEq, Spec.outputs, List.cons.injEq, and_true] at e2
      rw [e2.1, e2.2] at e1
      exact ⟨st', e1, h'⟩
  exact hr.modes c h0 h1 rate strategy Seed r₁ r₂ tests

/-! ### Generators that are computed -/

theorem drop_timing {σ : Type} (g : GslGen σ) (inv : σ → Prop) (hget : ∀ st, inv st → ∃ v st', g.get st = .ok (v, st') ∧ inv st') :
    ∀ (n : Nat) (st : σ), inv st → ∃ st', timingPass g n st = .ok st'
  | 0, st, _ => ⟨st, rfl⟩
  | n + 1, st, h => by
    obtain ⟨v, st1, e1, h1⟩ := hget st h
    obtain ⟨st2, e2⟩ := drop_timing g inv hget n st1 h1
    exact ⟨st2, by rw [timingPass, e1]; exact e2⟩

/-- C119, generators whose seeding determines the whole state: the tests are given the sequence of the seed; the timing, the options it
depends on, its random seed and what the memory held before have no influence. -/
theorem C119_seeded {σ : Type} (g : GslGen σ) (inv : σ → Prop) (init : BitVec 64 → σ) (hset : ∀ s st, g.set s st = .ok (init s))
    (hinv : ∀ s, inv (init s)) (hget : ∀ st, inv st → ∃ v st', g.get st = .ok (v, st') ∧ inv st')
    (c : Cfg) (h0 : 0 ≤ c.multiplyP) (h1 : 10 * c.multiplyP < 2 ^ 32) (rate : Bool) (strategy : Nat) (Seed : BitVec 64) (r₁ r₂ : UInt)
    (tests : List (UInt × Nat)) (st : σ) :
    wholeRun c g rate strategy Seed r₁ r₂ tests st = runTests g strategy Seed tests (init (if Seed = 0 then r₂.setWidth 64 else Seed)) := by
  have hb : ∃ sb, (if rate then g.set (r₁.setWidth 64) (init 0) else .ok (init 0) : Res σ) = .ok sb ∧ inv sb := by
    cases rate with
    | false => exact ⟨_, rfl, hinv 0⟩
    | true => exact ⟨_, hset _ _, hinv _⟩
  obtain ⟨sb, eb, hb⟩ := hb
  obtain ⟨sc, ec⟩ := drop_timing g inv hget (Spec.timingDraws c rate) sb hb
  rw [wholeRun, startRng_eq c h0 h1, hset, Res.bind_ok, eb, Res.bind_ok, ec, Res.bind_ok, hset, Res.bind_ok]
  rfl

theorem drawN_add {σ : Type} (g : GslGen σ) : ∀ (a b : Nat) (st : σ), drawN g (a + b) st = (do
    let (u, st) ← drawN g a st
    let (v, st) ← drawN g b st
    Res.ok (u ++ v, st))
  | 0, b, st => by
    rw [Nat.zero_add, drawN]
    simp only [Res.bind_ok]
    cases drawN g b st <;> rfl
  | a + 1, b, st => by
    rw [Nat.succ_add, drawN, drawN]
    cases g.get st with
    | ok p =>
      simp only [Res.bind_ok]
      rw [drawN_add g a b]
      cases drawN g a p.2 with
      | ok q =>
        simp only [Res.bind_ok]
        cases drawN g b q.2 <;> rfl
      | exit => rfl
      | ub => rfl
      | loop => rfl
    | exit => rfl
    | ub => rfl
    | loop => rfl

/-- A generator whose `k`-th draw after seeding with `s` is `f s k`. -/
def Computed {σ : Type} (g : GslGen σ) (f : BitVec 64 → Nat → UInt) : Prop :=
  ∀ s, ∃ st, (∀ old, g.set s old = .ok st) ∧ ∀ n, ∃ st', drawN g n st = .ok ((List.range n).map (f s), st')

theorem Computed.once {σ : Type} {g : GslGen σ} {f : BitVec 64 → Nat → UInt} (Seed s : BitVec 64) (st : σ)
    (hd : ∀ n, ∃ st', drawN g n st = .ok ((List.range n).map (f s), st')) : ∀ (tests : List (UInt × Nat)) (k : Nat) (sk : σ) (us : List UInt),
    drawN g k st = .ok (us, sk) → ∃ st', runTests g 0 Seed tests sk = .ok (Spec.cut (f s) k (tests.map Prod.snd), st')
  | [], k, sk, us, h => ⟨sk, rfl⟩
  | (r, n) :: tests, k, sk, us, h => by
    obtain ⟨s1, e1⟩ := hd (k + n)
    have e2 := e1
    rw [drawN_add, h] at e2
    simp only [Res.bind_ok] at e2
    obtain ⟨⟨v, s2⟩, e3, e4⟩ := Res.bind_eq_ok.1 e2
    simp only [Res.ok.injEq, Prod.mk.injEq] at e4
    obtain ⟨s0, e0⟩ := hd k
    have hu : us = (List.range k).map (f s) := by
      rw [h] at e0
      simp only [Res.ok.injEq, Prod.mk.injEq] at e0
      exact e0.1
    have hv : v = (List.range n).map fun i => f s (k + i) := by
      have := e4.1
      rw [hu, List.range_add, List.map_append, List.append_cancel_left_eq, List.map_map] at this
      exact this
    rw [e4.2] at e3
    obtain ⟨s3, e5⟩ := Computed.once Seed s st hd tests (k + n) s1 _ e1
    refine ⟨s3, ?_⟩
    rw [runTests, if_neg (by simp), Res.bind_ok, e3]
    simp only [Res.bind_ok, e5, hv]
    rfl

theorem Computed.each {σ : Type} {g : GslGen σ} {f : BitVec 64 → Nat → UInt} (h : Computed g f) (strategy : Nat) (hs : strategy ≠ 0)
    (Seed : BitVec 64) : ∀ (tests : List (UInt × Nat)) (st : σ), ∃ st', runTests g strategy Seed tests st =
      .ok (tests.map fun t => (List.range t.2).map (f (if Seed = 0 then t.1.setWidth 64 else Seed)), st')
  | [], st => ⟨st, rfl⟩
  | (r, n) :: tests, st => by
    obtain ⟨s0, e0, hd⟩ := h (currentSeed Seed r)
    obtain ⟨s1, e1⟩ := hd n
    obtain ⟨s2, e2⟩ := Computed.each h strategy hs Seed tests s1
    refine ⟨s2, ?_⟩
    rw [runTests, if_pos hs, e0, Res.bind_ok, e1]
    simp only [Res.bind_ok, e2]
    rfl

theorem Computed.run {σ : Type} {g : GslGen σ} {f : BitVec 64 → Nat → UInt} (h : Computed g f) (c : Cfg) (h0 : 0 ≤ c.multiplyP)
    (h1 : 10 * c.multiplyP < 2 ^ 32) (rate : Bool) (strategy : Nat) (Seed : BitVec 64) (r₁ r₂ : UInt) (tests : List (UInt × Nat)) (st : σ) :
    ∃ vss st', wholeRun c g rate strategy Seed r₁ r₂ tests st = .ok (vss, st') ∧
      (strategy = 0 → vss = Spec.cut (f (if Seed = 0 then r₂.setWidth 64 else Seed)) 0 (tests.map Prod.snd)) ∧
      (strategy ≠ 0 → vss = tests.map fun t => (List.range t.2).map (f (if Seed = 0 then t.1.setWidth 64 else Seed))) := by
  choose init hset hd using h
  have hw := C119_seeded g (fun st => ∀ n, ∃ p, drawN g n st = .ok p) init hset (fun s n => ⟨_, (hd s n).choose_spec⟩)
    (fun st hst => by
      obtain ⟨p, hp⟩ := hst 1
      rw [drawN] at hp
      obtain ⟨⟨v, st'⟩, e1, _⟩ := Res.bind_eq_ok.1 hp
      refine ⟨v, st', e1, fun n => ?_⟩
      obtain ⟨q, hq⟩ := hst (n + 1)
      rw [drawN, e1] at hq
      simp only [Res.bind_ok] at hq
      obtain ⟨q', e2, _⟩ := Res.bind_eq_ok.1 hq
      exact ⟨q', e2⟩) c h0 h1 rate strategy Seed r₁ r₂ tests st
  by_cases hs : strategy = 0
  · obtain ⟨s', e⟩ := Computed.once Seed _ _ (hd (if Seed = 0 then r₂.setWidth 64 else Seed)) tests 0 _ [] rfl
    refine ⟨_, s', ?_, fun _ => rfl, fun h => absurd hs h⟩
    rw [hw, hs, e]
  · obtain ⟨s', e⟩ := Computed.each (fun s => ⟨init s, hset s, hd s⟩) strategy hs Seed tests (init (if Seed = 0 then r₂.setWidth 64 else Seed))
    refine ⟨_, s', ?_, fun h => absurd h hs, fun _ => rfl⟩
    rw [hw, e]

theorem drawN_aes : ∀ (n : Nat) (st : AesS), drawN aesGen n st = aesDraws n st
  | 0, _ => rfl
  | n + 1, st => by
    rw [drawN, aesDraws]
    simp only [drawN_aes n]
    rfl

theorem drawN_tf : ∀ (n : Nat) (st : TfS), drawN tfGen n st = tfDraws n st
  | 0, _ => rfl
  | n + 1, st => by
    rw [drawN, tfDraws]
    simp only [drawN_tf n]
    rfl

open Aes in
/-- C119 for aes: timing has no influence, the tests together are given the key stream of the seed, or each of them the key stream of its
seed. -/
theorem C119_aes (c : Cfg) (h0 : 0 ≤ c.multiplyP) (h1 : 10 * c.multiplyP < 2 ^ 32) (rate : Bool) (strategy : Nat) (Seed : BitVec 64)
    (r₁ r₂ : UInt) (tests : List (UInt × Nat)) (st : AesS) :
    ∃ vss st', wholeRun c aesGen rate strategy Seed r₁ r₂ tests st = .ok (vss, st') ∧
      (strategy = 0 → vss = Spec.cut (fun k => leWord (ofbBlock (aesKey (if Seed = 0 then r₂.setWidth 64 else Seed)) (k / 4 + 1)) (4 * (k % 4))) 0
        (tests.map Prod.snd)) ∧
      (strategy ≠ 0 → vss = tests.map fun t => (List.range t.2).map fun k =>
        leWord (ofbBlock (aesKey (if Seed = 0 then t.1.setWidth 64 else Seed)) (k / 4 + 1)) (4 * (k % 4))) :=
  Computed.run (f := fun s k => leWord (ofbBlock (aesKey s) (k / 4 + 1)) (4 * (k % 4)))
    (fun s => by
      obtain ⟨st, e, hd⟩ := C27_aes_ofb s
      exact ⟨st, e, fun n => by rw [drawN_aes]; exact hd n⟩) c h0 h1 rate strategy Seed r₁ r₂ tests st

open Threefish in
/-- C119 for threefish. -/
theorem C119_threefish (c : Cfg) (h0 : 0 ≤ c.multiplyP) (h1 : 10 * c.multiplyP < 2 ^ 32) (rate : Bool) (strategy : Nat) (Seed : BitVec 64)
    (r₁ r₂ : UInt) (tests : List (UInt × Nat)) (st : TfS) :
    ∃ vss st', wholeRun c tfGen rate strategy Seed r₁ r₂ tests st = .ok (vss, st') ∧
      (strategy = 0 → vss = Spec.cut (fun k => half (tfBlocks (if Seed = 0 then r₂.setWidth 64 else Seed) (k / 16)) (k % 16)) 0
        (tests.map Prod.snd)) ∧
      (strategy ≠ 0 → vss = tests.map fun t => (List.range t.2).map fun k =>
        half (tfBlocks (if Seed = 0 then t.1.setWidth 64 else Seed) (k / 16)) (k % 16)) :=
  Computed.run (f := fun s k => half (tfBlocks s (k / 16)) (k % 16))
    (fun s => by
      obtain ⟨st, e, hd⟩ := C64_threefish_ofb s
      exact ⟨st, e, fun n => by rw [drawN_tf]; exact hd n⟩) c h0 h1 rate strategy Seed r₁ r₂ tests st

/-! ### Examples -/

/-- Options -t 2 -p 1: two words are used for timing. -/
def twoCfg : Cfg := ⟨false, 2, 1, 1, 0, 100000, 100, 5 / 1000, 1 / 1000000, 0⟩

/-- Five words on standard input, two tests of two and one word: words 2 and 3, then word 4; a sixth word would be needed for two tests
of two words. -/
example : (wholeRun twoCfg stdinGen true 0 7 0 0 [(0, 2), (0, 1)] [0, 0, 0, 0, 1, 0, 0, 0, 2, 0, 0, 0, 3, 0, 0, 0, 4, 0, 0, 0]).map Prod.fst =
      .ok [[2, 3], [4]] ∧
    wholeRun twoCfg stdinGen true 0 7 0 0 [(0, 2), (0, 2)] [0, 0, 0, 0, 1, 0, 0, 0, 2, 0, 0, 0, 3, 0, 0, 0, 4, 0, 0, 0] = .exit ∧
    (wholeRun twoCfg stdinGen false 0 7 0 0 [(0, 2), (0, 2)] [0, 0, 0, 0, 1, 0, 0, 0, 2, 0, 0, 0, 3, 0, 0, 0, 4, 0, 0, 0]).map Prod.fst =
      .ok [[0, 1], [2, 3]] := by decide +kernel

/-- The same for a raw file of sixteen words 0, 1, ..., 15: one pass over the file, rewinding before each test, and the random seed 0. -/
example : (wholeRun twoCfg (rawGen ((List.range 16).flatMap fun i => [BitVec.ofNat 8 i, 0, 0, 0])) true 0 7 0 0 [(0, 2), (0, 3)] (rawAlloc true)).map
      Prod.fst = .ok [[0, 1], [2, 3, 4]] ∧
    (wholeRun twoCfg (rawGen ((List.range 16).flatMap fun i => [BitVec.ofNat 8 i, 0, 0, 0])) true 1 7 0 0 [(0, 2), (0, 3)] (rawAlloc true)).map
      Prod.fst = .ok [[0, 1], [0, 1, 2]] ∧
    (wholeRun twoCfg (rawGen ((List.range 16).flatMap fun i => [BitVec.ofNat 8 i, 0, 0, 0])) true 0 0 5 0 [(0, 2), (0, 3)] (rawAlloc true)).map
      Prod.fst = .ok [[2, 3], [4, 5, 6]] := by decide +kernel

/-- The same for aes: the first five words of the key stream of seed 0 are those of the example for C27. -/
example : (wholeRun twoCfg aesGen true 0 0 5 0 [(0, 2), (0, 3)] ⟨[], [], 7⟩).map Prod.fst =
    .ok [[0x4e55d076, 0xc728d8ff], [0x25845302, 0xc6666a78, 0x9eecaf0a]] := by decide +kernel

end Dh
