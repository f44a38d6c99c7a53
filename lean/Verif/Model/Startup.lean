import Verif.Model.Devices
import Verif.Model.FileInput
import Verif.Model.StdTest
import Verif.Model.RngAes
import Verif.Model.Threefish
/-
From the selection of a generator to the tests: `select_rng` (dieharder/choose_rng.c), `time_rng` (dieharder/time_rng.c), `rgb_timing`
(libdieharder/rgb_timing.c), `random_seed` (libdieharder/random_seed.c) and the beginning of `execute_test` (dieharder/run_test.c).
-/
namespace Dh

/-- What `gsl_rng_set` and `gsl_rng_get` do for a type of generator. -/
structure GslGen (σ : Type) where
  set : BitVec 64 → σ → Res σ
  get : σ → Res (UInt × σ)

/-- `stdin_input_raw`, rng_stdin_input_raw.c:14-49: seeding does nothing (36-40). -/
def stdinGen : GslGen ByteStream := ⟨fun _ b => .ok b, stdinGet⟩

/-- `file_input_raw` on a file, rng_file_input_raw.c. -/
def rawGen (file : Str) : GslGen RawS := ⟨rawSet file, rawGet file⟩

/-- `file_input` on a file, rng_file_input.c. -/
def asciiGen (rnd : ℚ → ℚ) (file : Str) : GslGen FileS := ⟨fileSet file, fileGet rnd file⟩

/-- `AES_OFB`, rng_aes.c:42-91. -/
def aesGen : GslGen AesS := ⟨fun s st => aesSet st s, aesGet⟩

/-- `Threefish_OFB`, rng_threefish.c:59-125. -/
def tfGen : GslGen TfS := ⟨fun s st => tfSet st s, tfGet⟩

/-- `rgb_timing_dtest`, rgb_timing.h:28-30. -/
def timingDtest : Dtest := ⟨10, 1000000, 1⟩

/-- `for(j=0;j<test[0]->tsamples;j++) rand_uint[j] = gsl_rng_get(rng);`, rgb_timing.c:37-39 (the values are not read again). -/
def timingPass {σ : Type} (g : GslGen σ) : Nat → σ → Res σ
  | 0, st => .ok st
  | j + 1, st => do
    let (_, st) ← g.get st
    timingPass g j st

/-- `for(i=0;i<test[0]->psamples;i++)`, rgb_timing.c:35-42 (the clock is not modelled). -/
def timingPasses {σ : Type} (g : GslGen σ) (tsamples : Nat) : Nat → σ → Res σ
  | 0, st => .ok st
  | i + 1, st => do
    let st ← timingPass g tsamples st
    timingPasses g tsamples i st

/-- `time_rng`, time_rng.c:20-48, with `rgb_timing`, rgb_timing.c:18-52; `r` is what `random_seed` returns, an `unsigned int`
(random_seed.c:22, 50). -/
def timeRng {σ : Type} (c : Cfg) (g : GslGen σ) (r : UInt) (st : σ) : Res σ := do
  let t ← createTest c timingDtest
  let t ← rd t.tests 0
  let st ← g.set (r.setWidth 64) st
  timingPasses g t.tsamples t.psamples st

/-- `if(Seed == 0) seed = random_seed(); else seed = Seed;`, choose_rng.c:237-247 and run_test.c:57-67. -/
def currentSeed (Seed : BitVec 64) (r : UInt) : BitVec 64 := if Seed = 0 then r.setWidth 64 else Seed

/-- `select_rng`, choose_rng.c:192-252, for a valid number: `gsl_rng_alloc`, which seeds with `gsl_rng_default_seed` (0), the timing if
the flag TRATE is set, and the seeding.  `r₁` and `r₂` are what `random_seed` returns in `rgb_timing` and in `select_rng`. -/
def startRng {σ : Type} (c : Cfg) (g : GslGen σ) (rate : Bool) (Seed : BitVec 64) (r₁ r₂ : UInt) (st : σ) : Res σ := do
  let st ← g.set 0 st
  let st ← (if rate then timeRng c g r₁ st else .ok st : Res σ)
  g.set (currentSeed Seed r₂) st

/-- The values a test draws. -/
def drawN {σ : Type} (g : GslGen σ) : Nat → σ → Res (List UInt × σ)
  | 0, st => .ok ([], st)
  | n + 1, st => do
    let (v, st) ← g.get st
    let (vs, st) ← drawN g n st
    .ok (v :: vs, st)

/-- The tests of a run, `execute_test` (run_test.c:56-70) for each: reseeding if `strategy` is not zero, then the draws.  An element of
the list is a test: what `random_seed` returns before it, and how many values it draws. -/
def runTests {σ : Type} (g : GslGen σ) (strategy : Nat) (Seed : BitVec 64) : List (UInt × Nat) → σ → Res (List (List UInt) × σ)
  | [], st => .ok ([], st)
  | (r, n) :: tests, st => do
    let st ← (if strategy ≠ 0 then g.set (currentSeed Seed r) st else .ok st : Res σ)
    let (vs, st) ← drawN g n st
    let (vss, st) ← runTests g strategy Seed tests st
    .ok (vs :: vss, st)

/-- A run of the program from the selection of the generator on (dieharder.c:71-91): what each test draws. -/
def wholeRun {σ : Type} (c : Cfg) (g : GslGen σ) (rate : Bool) (strategy : Nat) (Seed : BitVec 64) (r₁ r₂ : UInt)
    (tests : List (UInt × Nat)) (st : σ) : Res (List (List UInt) × σ) := do
  let st ← startRng c g rate Seed r₁ r₂ st
  runTests g strategy Seed tests st

end Dh
