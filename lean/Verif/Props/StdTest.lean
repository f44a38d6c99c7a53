import Verif.Proof.StdTest2
/-
Properties C11-C15: the test driver.
-/
set_option linter.unusedSimpArgs false
namespace Dh

/-! ### C11: storage -/

/-- C11.  From `create_test` on, no history of `std_test`/`clear_test` calls leaves the
allocated arrays, provided an adaptive strategy is selected, or the configured number of samples is
already at the cutoff, or no two `std_test` calls follow each other without a `clear_test`.  In the
remaining case the arrays are overrun, see `C11_overrun`. -/
theorem C11_storage (c : Cfg) (d : Dtest) (K Q : Nat → ℚ → ℚ) (tf : Nat → Nat → ℚ) (ops : List Op) (s0 : TS)
    (hk : 0 < d.nkps) (hX : c.Xoff < 2 ^ 32) (hp : c.psamples < 2 ^ 32)
    (h0 : createTest c d = .ok s0)
    (h : c.Xtrategy ≠ 0 ∨ (∀ t ∈ s0.tests, c.Xoff ≤ t.psamples) ∨
      ops.IsChain (fun a b => ¬ (a = .std ∧ b = .std))) :
    ∃ s, runOps c d K Q tf ops s0 = .ok s ∧
      s.tests.map (fun t => t.pvalues.length) = s0.tests.map (fun t => t.pvalues.length) := by
  obtain ⟨n, cap, h1, h2, h3, h4, h5, h6, h7, h8⟩ := createTest_unif c d s0 h0 hp
  obtain ⟨s', n', g1, g2⟩ := runOps_ok c d K Q tf n cap hk hX h3 h1 h7 h8 ops n s0 h1 h2 (by
    rcases h with h | h | h
    · exact Or.inl (h4 h)
    · obtain ⟨t, ht⟩ : ∃ t, t ∈ s0.tests := by
        cases hs : s0.tests with
        | nil => have := h2.hk; rw [hs] at this; simp at this; omega
        | cons t ts => exact ⟨t, by simp⟩
      have e1 := h t ht
      have e2 := h2.hps t ht
      exact Or.inl (by omega)
    · exact Or.inr ⟨h, Or.inl ⟨h3, fun t ht => le_of_eq (h5 t ht)⟩⟩)
  refine ⟨s', g1, ?_⟩
  have e : ∀ x : TS, (∀ t ∈ x.tests, t.pvalues.length = cap) →
      x.tests.map (fun t => t.pvalues.length) = List.replicate x.tests.length cap := by
    intro x hx
    apply List.eq_replicate_iff.2
    refine ⟨by simp, ?_⟩
    intro b hb
    obtain ⟨t, ht, rfl⟩ := List.mem_map.1 hb
    exact hx t ht
  rw [e s' g2.hcap, e s0 h2.hcap, g2.hk, h2.hk]

theorem runLoop_ub (tf : Nat → Nat → ℚ) (cap : Nat) : ∀ (todo i k : Nat) (s : TS), 0 < k → s.tests.length = k →
    (∀ t ∈ s.tests, t.pvalues.length = cap) → i ≤ cap → cap < i + todo → runLoop tf todo i s = .ub := by
  intro todo
  induction todo with
  | zero => intro i k s _ _ _ h1 h2; omega
  | succ todo ih =>
    intro i k s hk hl hc h1 h2
    rw [runLoop]
    by_cases hi : i < cap
    · rw [storeRun_eq tf s.calls i s.tests 0 (fun t ht => by rw [hc t ht]; exact hi)]
      simp only [Res.bind_ok]
      apply ih (i + 1) k _ hk (by simp [hl]) ?_ hi (by omega)
      intro t ht
      obtain ⟨j, hj, rfl⟩ := List.mem_iff_getElem.1 ht
      simp only [List.length_mapIdx] at hj
      simp only [List.getElem_mapIdx, List.length_set]
      exact hc _ (List.getElem_mem hj)
    · cases hs : s.tests with
      | nil => rw [hs] at hl; simp at hl; omega
      | cons t ts =>
        rw [storeRun, wr, if_neg (by rw [hc t (by simp [hs])]; exact hi)]
        rfl

/-- C11, what the code does without a strategy: whenever the array is smaller than the cutoff
and the first `std_test` gave a positive summary p-value, the second `std_test` writes past the
end of the array. -/
theorem C11_overrun (c : Cfg) (d : Dtest) (K Q : Nat → ℚ → ℚ) (tf : Nat → Nat → ℚ) (s0 s1 : TS)
    (hk : 0 < d.nkps) (hX : c.Xoff < 2 ^ 32) (hp : c.psamples < 2 ^ 32) (hstep : 0 < c.Xstep)
    (hw : c.Xoff + c.Xstep < 2 ^ 32)
    (hstrat : c.Xtrategy = 0) (h0 : createTest c d = .ok s0)
    (hsmall : ∀ t ∈ s0.tests, t.psamples < c.Xoff)
    (h1 : runOps c d K Q tf [.std] s0 = .ok s1) (hpos : ∃ t ∈ s1.tests, 0 < t.ks) :
    runOps c d K Q tf [.std, .std] s0 = .ub := by
  have hcr := createTest_unif c d s0 h0 hp
  unfold createTest at h0
  obtain ⟨ps, e1, e2⟩ := Res.bind_eq_ok.1 h0
  injection e2 with e2
  obtain ⟨n, cap, a1, a2, a3, a4, a5, a6, -, -⟩ := hcr
  obtain ⟨t0, ht0⟩ : ∃ t, t ∈ s0.tests := by
    cases hs : s0.tests with
    | nil => have := a2.hk; rw [hs] at this; simp at this; omega
    | cons t ts => exact ⟨t, by simp⟩
  have hn := a2.hps t0 ht0
  have hc := a2.hcap t0 ht0
  have hsm := hsmall t0 ht0
  have hcapn : cap = n := by
    rw [← e2] at ht0
    have := List.eq_of_mem_replicate ht0
    rw [this] at hn hc
    simp only [List.length_replicate] at hn hc
    rw [if_neg (by simp [hstrat])] at hc
    omega
  obtain ⟨s', g1, g2⟩ := stdTest_first c K Q tf d.nkps n cap s0 hk a2 (fun t ht => le_of_eq (a5 t ht)) a1 hX (by omega)
  simp only [runOps, g1, Res.bind_ok] at h1 ⊢
  injection h1 with h1
  rw [h1] at g2 ⊢
  have hmin : min n c.Xoff = n := by omega
  rw [hmin] at g2
  have : stdTest c K Q tf s1 = .ub := by
    unfold stdTest
    simp only
    rw [if_neg]
    · unfold add2Test
      rw [ps0_unif g2.u hk]
      simp only [Res.bind_ok]
      rw [Nat.mod_eq_of_lt (by omega)]
      rw [runLoop_ub tf cap _ n d.nkps s1 hk g2.u.hk g2.u.hcap (by omega)]
      · rfl
      · split <;> omega
    · intro h0
      obtain ⟨t, ht, hp⟩ := hpos
      have := (((pmax_zero s1.tests 0 (le_refl _)).2).1 h0).2 t ht
      linarith
  rw [this]
  rfl

/-- A configuration for the examples: 2 samples, step 2, cutoff 5. -/
def exCfg (strat : Nat) : Cfg := ⟨false, 0, 2, 1, strat, 5, 2, 5/1000, 1/1000000, 0⟩
def exTest : Dtest := ⟨100, 100000, 1⟩

example : runOps (exCfg 0) exTest (fun _ _ => 1/2) (fun _ _ => 1/2) (fun c _ => c) [.std, .std]
    ⟨[⟨100000, 2, [0, 0], 0⟩], 0⟩ = .ub := by decide +kernel
example : createTest (exCfg 0) exTest = .ok ⟨[⟨100000, 2, [0, 0], 0⟩], 0⟩ := by decide +kernel

/-! ### C12: accounting -/

theorem runOps_snoc (c : Cfg) (d : Dtest) (K Q : Nat → ℚ → ℚ) (tf : Nat → Nat → ℚ) : ∀ m s,
    runOps c d K Q tf (List.replicate (m + 1) .std) s =
      (runOps c d K Q tf (List.replicate m .std) s >>= stdTest c K Q tf) := by
  intro m
  induction m with
  | zero =>
    intro s
    simp only [List.replicate, runOps, Res.bind_ok]
    cases stdTest c K Q tf s <;> rfl
  | succ m ih =>
    intro s
    rw [List.replicate_succ, runOps]
    rw [show List.replicate (m + 1) Op.std = Op.std :: List.replicate m Op.std from rfl, runOps]
    cases stdTest c K Q tf s with
    | ok s' => simp only [Res.bind_ok]; exact ih s'
    | exit => rfl
    | ub => rfl
    | loop => rfl

/-- A state in which a test is about to start: just created, or cleared after any history. -/
def Fresh (c : Cfg) (d : Dtest) (K Q : Nat → ℚ → ℚ) (tf : Nat → Nat → ℚ) (s1 : TS) : Prop :=
  createTest c d = .ok s1 ∨
  ∃ s0 ops s, createTest c d = .ok s0 ∧ runOps c d K Q tf ops s0 = .ok s ∧ clearTest c d s = .ok s1

theorem fresh_unif (c : Cfg) (d : Dtest) (K Q : Nat → ℚ → ℚ) (tf : Nat → Nat → ℚ) (s1 : TS)
    (hk : 0 < d.nkps) (hX : c.Xoff < 2 ^ 32) (hp : c.psamples < 2 ^ 32) (hst : c.Xtrategy ≠ 0)
    (h : Fresh c d K Q tf s1) :
    ∃ n cap, n < 2 ^ 32 ∧ Unif d.nkps n cap s1 ∧ n ≤ cap ∧ c.Xoff ≤ cap ∧ ∀ t ∈ s1.tests, t.ks ≤ 0 := by
  rcases h with h | ⟨s0, ops, s, h0, h1, h2⟩
  · obtain ⟨n, cap, a1, a2, a3, a4, a5, a6, -, -⟩ := createTest_unif c d s1 h hp
    exact ⟨n, cap, a1, a2, a3, a4 hst, fun t ht => le_of_eq (a5 t ht)⟩
  · obtain ⟨n, cap, a1, a2, a3, a4, a5, a6, a7, a8⟩ := createTest_unif c d s0 h0 hp
    obtain ⟨s', n', g1, g2⟩ := runOps_ok c d K Q tf n cap hk hX a3 a1 a7 a8 ops n s0 a1 a2 (Or.inl (a4 hst))
    rw [h1] at g1
    injection g1 with g1
    subst g1
    obtain ⟨n2, b1, b2⟩ := a7 s1 s h2
    unfold clearTest at h2
    obtain ⟨ps', h3, h4⟩ := Res.bind_eq_ok.1 h2
    injection h4 with h4
    refine ⟨n2, cap, by omega, ⟨by rw [← h4]; simp [g2.hk], b2, ?_⟩, by omega, a4 hst, ?_⟩
    · intro t ht
      rw [← h4] at ht
      obtain ⟨t', ht', rfl⟩ := List.mem_map.1 ht
      exact g2.hcap t' ht'
    · intro t ht
      rw [← h4] at ht
      obtain ⟨t', ht', rfl⟩ := List.mem_map.1 ht
      exact le_refl _

/-- C12.  With an adaptive strategy, `k+1` calls of `std_test` on a fresh test (just created, or
cleared after any history) leave in test `j` exactly the p-values of the next
`min (ps + k*Xstep) Xoff` calls of the test function (as a multiset: the summary sorts them), call
the test function exactly that often, and the summary p-value is the one computed from all of
them.  The hypothesis on the intermediate states says that the first-call detection
(`pmax == 0.0`) does not misfire; see `C12_restart` for what happens otherwise. -/
theorem C12_accounting (c : Cfg) (d : Dtest) (K Q : Nat → ℚ → ℚ) (tf : Nat → Nat → ℚ) (s0 : TS) (k ps : Nat)
    (hk : 0 < d.nkps) (hX : c.Xoff < 2 ^ 32) (hp : c.psamples < 2 ^ 32) (hw : c.Xoff + c.Xstep < 2 ^ 32)
    (hstrat : c.Xtrategy ≠ 0) (h0 : Fresh c d K Q tf s0) (hps : ∀ t ∈ s0.tests, t.psamples = ps)
    (hpos : ∀ m < k, ∀ s, runOps c d K Q tf (List.replicate (m + 1) .std) s0 = .ok s → ∃ t ∈ s.tests, 0 < t.ks) :
    ∃ s, runOps c d K Q tf (List.replicate (k + 1) .std) s0 = .ok s ∧
      s.tests.length = d.nkps ∧
      s.calls = s0.calls + min (ps + k * c.Xstep) c.Xoff ∧
      ∀ j, ∀ h : j < s.tests.length,
        (s.tests[j]).psamples = min (ps + k * c.Xstep) c.Xoff ∧
        ((s.tests[j]).pvalues.take (s.tests[j]).psamples).Perm
          ((List.range (min (ps + k * c.Xstep) c.Xoff)).map fun i => tf (s0.calls + i) j) ∧
        (summary c K Q ((List.range (min (ps + k * c.Xstep) c.Xoff)).map fun i => tf (s0.calls + i) j)
          (min (ps + k * c.Xstep) c.Xoff)).map Prod.fst = .ok (s.tests[j]).ks := by
  obtain ⟨n, cap, a1, a2, a3, a4, a5⟩ := fresh_unif c d K Q tf s0 hk hX hp hstrat h0
  have hn : n = ps := by
    cases hs : s0.tests with
    | nil => have := a2.hk; rw [hs] at this; simp at this; omega
    | cons t ts => rw [← hps t (by simp [hs]), a2.hps t (by simp [hs])]
  subst hn
  have key : ∀ k,
      (∀ m < k, ∀ s, runOps c d K Q tf (List.replicate (m + 1) .std) s0 = .ok s → ∃ t ∈ s.tests, 0 < t.ks) →
      ∃ s, runOps c d K Q tf (List.replicate (k + 1) .std) s0 = .ok s ∧
        Acc c K Q tf s0.calls d.nkps (min (n + k * c.Xstep) c.Xoff) cap s := by
    intro k
    induction k with
    | zero =>
      intro _
      obtain ⟨s', g1, g2⟩ := stdTest_first c K Q tf d.nkps n cap s0 hk a2 a5 a1 hX (by omega)
      refine ⟨s', ?_, ?_⟩
      · simp only [List.replicate, runOps, g1, Res.bind_ok]
      · simpa using g2
    | succ k ih =>
      intro hpos
      obtain ⟨s, g1, g2⟩ := ih (fun m hm => hpos m (by omega))
      obtain ⟨s', e1, e2⟩ := stdTest_more c K Q tf s0.calls d.nkps _ cap s hk g2 (hpos k (by omega) s g1) (by omega) hX
        (by omega) (by omega)
      refine ⟨s', ?_, ?_⟩
      · rw [runOps_snoc, g1]; simpa using e1
      · have : min (min (n + k * c.Xstep) c.Xoff + c.Xstep) c.Xoff = min (n + (k + 1) * c.Xstep) c.Xoff := by
          rw [Nat.succ_mul]; omega
        rw [this] at e2
        exact e2
  obtain ⟨s, g1, g2⟩ := key k hpos
  refine ⟨s, g1, g2.u.hk, g2.hcalls, ?_⟩
  intro j hj
  have hpj := g2.u.hps _ (List.getElem_mem hj)
  refine ⟨hpj, ?_, ?_⟩
  · rw [hpj]; exact g2.hsamp j hj
  · exact g2.hks j hj

/-- C12 without a strategy: the one `std_test` call made after `create_test` runs the test
function `min psamples Xoff` times and summarises exactly those p-values. -/
theorem C12_no_strategy (c : Cfg) (d : Dtest) (K Q : Nat → ℚ → ℚ) (tf : Nat → Nat → ℚ) (s0 : TS) (ps : Nat)
    (hk : 0 < d.nkps) (hX : c.Xoff < 2 ^ 32) (hp : c.psamples < 2 ^ 32)
    (h0 : createTest c d = .ok s0) (hps : ∀ t ∈ s0.tests, t.psamples = ps) :
    ∃ s, stdTest c K Q tf s0 = .ok s ∧ s.tests.length = d.nkps ∧ s.calls = min ps c.Xoff ∧
      ∀ j, ∀ h : j < s.tests.length, (s.tests[j]).psamples = min ps c.Xoff ∧
        ((s.tests[j]).pvalues.take (min ps c.Xoff)).Perm ((List.range (min ps c.Xoff)).map fun i => tf i j) ∧
        (summary c K Q ((List.range (min ps c.Xoff)).map fun i => tf i j) (min ps c.Xoff)).map Prod.fst =
          .ok (s.tests[j]).ks := by
  obtain ⟨n, cap, a1, a2, a3, a4, a5, a6, -, -⟩ := createTest_unif c d s0 h0 hp
  have hn : n = ps := by
    cases hs : s0.tests with
    | nil => have := a2.hk; rw [hs] at this; simp at this; omega
    | cons t ts => rw [← hps t (by simp [hs]), a2.hps t (by simp [hs])]
  subst hn
  obtain ⟨s', g1, g2⟩ := stdTest_first c K Q tf d.nkps n cap s0 hk a2 (fun t ht => le_of_eq (a5 t ht)) a1 hX (by omega)
  rw [a6] at g2
  refine ⟨s', g1, g2.u.hk, by simpa using g2.hcalls, ?_⟩
  intro j hj
  refine ⟨g2.u.hps _ (List.getElem_mem hj), ?_, ?_⟩
  · simpa using g2.hsamp j hj
  · simpa using g2.hks j hj

/-- C12, the exception: in any state in which no summary p-value is positive, `std_test`
throws the collected samples away and starts over with as many new ones. -/
theorem C12_restart (c : Cfg) (K Q : Nat → ℚ → ℚ) (tf : Nat → Nat → ℚ) (n cap : Nat) (s : TS)
    (hne : s.tests ≠ []) (hn : n < 2 ^ 32) (hX : c.Xoff < 2 ^ 32) (hcap : n ≤ cap)
    (hps : ∀ t ∈ s.tests, t.psamples = n ∧ t.pvalues.length = cap ∧ t.ks ≤ 0) :
    ∃ s', stdTest c K Q tf s = .ok s' ∧ s'.calls = s.calls + min n c.Xoff ∧
      ∀ j, ∀ h : j < s'.tests.length, (s'.tests[j]).psamples = min n c.Xoff ∧
        ((s'.tests[j]).pvalues.take (min n c.Xoff)).Perm
          ((List.range (min n c.Xoff)).map fun i => tf (s.calls + i) j) := by
  obtain ⟨s', h1, h2⟩ := stdTest_first c K Q tf s.tests.length n cap s
    (List.length_pos_of_ne_nil hne) ⟨rfl, fun t ht => (hps t ht).1, fun t ht => (hps t ht).2.1⟩
    (fun t ht => (hps t ht).2.2) hn hX (by omega)
  exact ⟨s', h1, h2.hcalls, fun j hj => ⟨h2.u.hps _ (List.getElem_mem hj), h2.hsamp j hj⟩⟩

example : runOps (exCfg 1) exTest (fun _ D => D) (fun _ D => D) (fun c _ => 1 / (c + 2)) [.std, .std, .std]
    ⟨[⟨100000, 2, [0, 0, 0, 0, 0], 0⟩], 0⟩ = .ok ⟨[⟨100000, 5, [1/6, 1/5, 1/4, 1/3, 1/2], 1/3⟩], 5⟩ := by
  decide +kernel

/-! ### C13: adaptive execution -/

/-- Some summary p-value is assessed FAILED. -/
def AnyFailed (c : Cfg) (s : TS) : Prop := ∃ t ∈ s.tests, t.ks < c.Xfail ∨ t.ks > 1 - c.Xfail
/-- Every summary p-value is outside both the FAILED and the WEAK region. -/
def NoneSuspect (c : Cfg) (s : TS) : Prop := ∀ t ∈ s.tests, ¬ (t.ks < c.Xweak ∨ t.ks > 1 - c.Xweak)
/-- The sample cutoff is reached. -/
def AtCutoff (c : Cfg) (s : TS) : Prop := ∀ t ∈ s.tests, t.psamples ≥ c.Xoff

/-- What each strategy promises at the end of a test. -/
def Resolved (c : Cfg) (s : TS) : Prop :=
  match c.Xtrategy with
  | 1 => AnyFailed c s ∨ NoneSuspect c s ∨ AtCutoff c s
  | 2 => AnyFailed c s ∨ AtCutoff c s
  | _ => True

theorem needMore_resolved (c : Cfg) {k n cap : Nat} {s : TS} (hk : 0 < k) (hu : Unif k n cap s) :
    ∃ b, needMore c s = .ok b ∧ (b = false ↔ Resolved c s) ∧
      (b = true → (∀ t ∈ s.tests, ¬ (t.ks < c.Xfail ∨ t.ks > 1 - c.Xfail)) ∧ n < c.Xoff) := by
  obtain ⟨b, h1, h2⟩ := needMore_eq c hk hu
  have hcut : AtCutoff c s ↔ ¬ n < c.Xoff := by
    unfold AtCutoff
    constructor
    · intro h
      cases hs : s.tests with
      | nil => have := hu.hk; rw [hs] at this; simp at this; omega
      | cons t ts =>
        have h3 := h t (by simp [hs]); have h4 := hu.hps t (by simp [hs]); omega
    · intro h t ht
      have := hu.hps t ht; omega
  have hF : (∀ t ∈ s.tests, ¬(t.ks < c.Xfail ∨ t.ks > 1 - c.Xfail)) ↔ ¬ AnyFailed c s := by
    unfold AnyFailed; simp only [not_exists, not_and]
  have hW : (∃ t ∈ s.tests, t.ks < c.Xweak ∨ t.ks > 1 - c.Xweak) ↔ ¬ NoneSuspect c s := by
    unfold NoneSuspect; simp only [not_forall, not_not, exists_prop]
  refine ⟨b, h1, ?_, ?_⟩
  · have hb : b = false ↔ ¬ b = true := by simp
    rw [hb, h2, hF, hW]
    unfold Resolved
    split
    · next h => rw [hcut, h]; simp only [true_and, show ¬ ((1 : Nat) = 2) by omega, false_and, or_false]; tauto
    · next h => rw [hcut, h]; simp only [true_and, show ¬ ((2 : Nat) = 1) by omega, false_and, false_or]; tauto
    · next h1 h2 =>
      have h1' : ¬ c.Xtrategy = 1 := h1
      have h2' : ¬ c.Xtrategy = 2 := h2
      simp only [h1', h2', false_and, or_false, not_false_eq_true]
  · intro hb
    rcases h2.1 hb with h | h
    · exact ⟨h.2.1, h.2.2.2⟩
    · exact ⟨h.2.1, h.2.2⟩

theorem execLoop_ends (c : Cfg) (K Q : Nat → ℚ → ℚ) (tf : Nat → Nat → ℚ) (k cap : Nat)
    (hk : 0 < k) (hX : c.Xoff ≤ cap) (hstep : 0 < c.Xstep) (hw : c.Xoff + c.Xstep < 2 ^ 32)
    (hfail : 0 < c.Xfail) : ∀ (fuel n c0 : Nat) (s : TS),
    (Acc c K Q tf c0 k n cap s) → n < c.Xoff → (∃ t ∈ s.tests, 0 < t.ks) → c.Xoff ≤ n + fuel * c.Xstep → 0 < fuel →
    ∃ l last, execLoop c K Q tf fuel s = .ok (l ++ [last]) ∧ l.length < fuel ∧ (∀ x ∈ l, ¬ Resolved c x) ∧ Resolved c last := by
  intro fuel
  induction fuel with
  | zero => intro n c0 s _ _ _ _ h; omega
  | succ fuel ih =>
    intro n c0 s hacc hn hpos hm _
    obtain ⟨s', e1, e2⟩ := stdTest_more c K Q tf c0 k n cap s hk hacc hpos (by omega) (by omega) (by omega) (by omega)
    obtain ⟨b, b1, b2, b3⟩ := needMore_resolved c hk e2.u
    rw [execLoop, e1]
    simp only [Res.bind_ok, b1]
    cases b with
    | false => exact ⟨[], s', rfl, by simp, by simp, b2.1 rfl⟩
    | true =>
      obtain ⟨b4, b5⟩ := b3 rfl
      have hn' : min (n + c.Xstep) c.Xoff = n + c.Xstep := by
        by_contra hh
        rw [Nat.min_eq_right (by by_contra h2; exact hh (Nat.min_eq_left (by omega)))] at b5
        omega
      rw [hn'] at e2 b5
      have hpos' : ∃ t ∈ s'.tests, 0 < t.ks := by
        cases hs : s'.tests with
        | nil => have := e2.u.hk; rw [hs] at this; simp at this; omega
        | cons t ts =>
          refine ⟨t, by simp, ?_⟩
          have := b4 t (by simp [hs])
          rw [not_or] at this
          have := this.1
          linarith
      rw [Nat.succ_mul] at hm
      have hf : 0 < fuel := by
        rcases Nat.eq_zero_or_pos fuel with h | h
        · subst h; simp at hm; omega
        · exact h
      obtain ⟨l, last, f1, f2, f3, f4⟩ := ih (n + c.Xstep) c0 s' e2 b5 hpos' (by omega) hf
      rw [f1]
      refine ⟨s' :: l, last, rfl, by simp; omega, ?_, f4⟩
      intro x hx
      rcases List.mem_cons.1 hx with h | h
      · rw [h]; intro hr; have := b2.2 hr; cases this
      · exact f3 x h

/-- C13.  With a positive failure threshold and a positive step, running one test ends after at
most `Xoff / Xstep + 2` rounds; every round but the last left the question open and the last
one resolves it: for 'resolve ambiguity' some p-value failed, or none is weak, or the cutoff is
reached; for 'test to destruction' some p-value failed or the cutoff is reached.  Without a
strategy there is one round. -/
theorem C13_terminates (c : Cfg) (d : Dtest) (K Q : Nat → ℚ → ℚ) (tf : Nat → Nat → ℚ) (s0 : TS)
    (hk : 0 < d.nkps) (hp : c.psamples < 2 ^ 32) (hstep : 0 < c.Xstep)
    (hw : c.Xoff + c.Xstep < 2 ^ 32) (hfail : 0 < c.Xfail) (h0 : createTest c d = .ok s0) :
    ∃ l last, executeTest c d K Q tf (c.Xoff / c.Xstep + 2) = .ok (l ++ [last]) ∧
      (∀ x ∈ l, ¬ Resolved c x) ∧ Resolved c last ∧ (c.Xtrategy ≠ 1 → c.Xtrategy ≠ 2 → l = []) := by
  obtain ⟨n, cap, a1, a2, a3, a4, a5, a6, -, -⟩ := createTest_unif c d s0 h0 hp
  obtain ⟨s1, g1, g2⟩ := stdTest_first c K Q tf d.nkps n cap s0 hk a2 (fun t ht => le_of_eq (a5 t ht)) a1 (by omega) (by omega)
  obtain ⟨b, b1, b2, b3⟩ := needMore_resolved c hk g2.u
  unfold executeTest
  rw [h0]
  simp only [Res.bind_ok]
  rw [execLoop, g1]
  simp only [Res.bind_ok, b1]
  cases b with
  | false => exact ⟨[], s1, rfl, by simp, b2.1 rfl, fun _ _ => rfl⟩
  | true =>
    obtain ⟨b4, b5⟩ := b3 rfl
    have hst : c.Xtrategy ≠ 0 := by
      intro h
      have : Resolved c s1 := by unfold Resolved; rw [h]; trivial
      have := b2.2 this
      cases this
    have hpos' : ∃ t ∈ s1.tests, 0 < t.ks := by
      cases hs : s1.tests with
      | nil => have := g2.u.hk; rw [hs] at this; simp at this; omega
      | cons t ts =>
        refine ⟨t, by simp, ?_⟩
        have := b4 t (by simp [hs])
        rw [not_or] at this
        have := this.1
        linarith
    have hfuel : c.Xoff ≤ min n c.Xoff + (c.Xoff / c.Xstep + 1) * c.Xstep := by
      have := Nat.lt_mul_div_succ c.Xoff hstep
      rw [Nat.mul_comm] at this
      have h2 : (c.Xoff / c.Xstep).succ = c.Xoff / c.Xstep + 1 := rfl
      generalize (c.Xoff / c.Xstep + 1) * c.Xstep = q at this ⊢
      omega
    obtain ⟨l, last, f1, f2, f3, f4⟩ := execLoop_ends c K Q tf d.nkps cap hk (a4 hst) hstep hw hfail
      (c.Xoff / c.Xstep + 1) _ _ s1 g2 b5 hpos' hfuel (Nat.succ_pos _)
    rw [f1]
    refine ⟨s1 :: l, last, rfl, ?_, f4, ?_⟩
    · intro x hx
      rcases List.mem_cons.1 hx with h | h
      · rw [h]; intro hr; have := b2.2 hr; cases this
      · exact f3 x h
    · intro h1 h2
      have : Resolved c s1 := by
        unfold Resolved
        split
        · next h => exact absurd h h1
        · next h => exact absurd h h2
        · trivial
      have := b2.2 this
      cases this

/-- C13, why `0 < Xfail` is needed: with threshold 0, 'test to destruction' on a generator whose
summary p-value is 0 never ends, since `std_test` then starts over each time. -/
theorem C13_forever (fuel : Nat) :
    executeTest ⟨false, 0, 2, 1, 2, 3, 100, 5/1000, 0, 0⟩ exTest (fun _ _ => 0) (fun _ _ => 0) (fun _ _ => 0) fuel = .loop := by
  have h : ∀ fuel calls, execLoop ⟨false, 0, 2, 1, 2, 3, 100, 5/1000, 0, 0⟩ (fun _ _ => 0) (fun _ _ => 0) (fun _ _ => 0) fuel
      ⟨[⟨100000, 2, [0, 0, 0], 0⟩], calls⟩ = .loop := by
    intro fuel
    induction fuel with
    | zero => intro calls; rfl
    | succ fuel ih =>
      intro calls
      have e : stdTest ⟨false, 0, 2, 1, 2, 3, 100, 5/1000, 0, 0⟩ (fun _ _ => 0) (fun _ _ => 0) (fun _ _ => 0)
          ⟨[⟨100000, 2, [0, 0, 0], 0⟩], calls⟩ = .ok ⟨[⟨100000, 2, [0, 0, 0], 0⟩], calls + 1 + 1⟩ := by
        rfl
      have e2 : needMore ⟨false, 0, 2, 1, 2, 3, 100, 5/1000, 0, 0⟩ ⟨[⟨100000, 2, [0, 0, 0], 0⟩], calls + 1 + 1⟩ = .ok true := by
        change needMore ⟨false, 0, 2, 1, 2, 3, 100, 5/1000, 0, 0⟩ ⟨[⟨100000, 2, [0, 0, 0], 0⟩], 0⟩ = .ok true
        decide +kernel
      rw [execLoop, e]
      simp only [Res.bind_ok, e2, if_true]
      rw [ih]
      rfl
  exact h fuel 0

example : (executeTest (exCfg 2) exTest (fun _ D => D) (fun _ D => D) (fun c _ => 1 / (c + 2)) 10).map
    (fun l => l.map fun s => s.tests.map fun t => t.psamples) = .ok [[2], [4], [5]] := by decide +kernel

/-! ### C14: assessment -/

/-- How bad a grade is. -/
def Grade.badness : Grade → Nat
  | .passed => 0
  | .weak => 1
  | .failed => 2

/-- C14.  The grade is FAILED, WEAK, PASSED exactly under the documented conditions. -/
theorem C14_thresholds (Xfail Xweak p : ℚ) :
    (assess Xfail Xweak p = .failed ↔ p < Xfail ∨ 1 - Xfail < p) ∧
    (assess Xfail Xweak p = .weak ↔ Xfail ≤ p ∧ p ≤ 1 - Xfail ∧ (p < Xweak ∨ 1 - Xweak < p)) ∧
    (assess Xfail Xweak p = .passed ↔ Xfail ≤ p ∧ p ≤ 1 - Xfail ∧ Xweak ≤ p ∧ p ≤ 1 - Xweak) := by
  unfold assess
  by_cases h : p < Xfail ∨ p > 1 - Xfail
  · rw [if_pos h]
    refine ⟨⟨fun _ => h, fun _ => rfl⟩, ⟨fun e => (by cases e), ?_⟩, ⟨fun e => (by cases e), ?_⟩⟩
    · rintro ⟨h1, h2, -⟩; rcases h with h | h <;> linarith
    · rintro ⟨h1, h2, -⟩; rcases h with h | h <;> linarith
  · rw [if_neg h]
    have h' := not_or.1 h
    have h1 := not_lt.1 h'.1
    have h2 := not_lt.1 h'.2
    by_cases hw : p < Xweak ∨ p > 1 - Xweak
    · rw [if_pos hw]
      refine ⟨⟨fun e => (by cases e), fun e => absurd e h⟩, ⟨fun _ => ⟨h1, h2, hw⟩, fun _ => rfl⟩,
        ⟨fun e => (by cases e), ?_⟩⟩
      rintro ⟨-, -, h3, h4⟩; rcases hw with h | h <;> linarith
    · rw [if_neg hw]
      have hw' := not_or.1 hw
      exact ⟨⟨fun e => (by cases e), fun e => absurd e h⟩, ⟨fun e => (by cases e), fun e => absurd e.2.2 hw⟩,
        ⟨fun _ => ⟨h1, h2, not_lt.1 hw'.1, not_lt.1 hw'.2⟩, fun _ => rfl⟩⟩

/-- C14.  `p` and `1-p` are graded alike. -/
theorem C14_symmetric (Xfail Xweak p : ℚ) : assess Xfail Xweak (1 - p) = assess Xfail Xweak p := by
  unfold assess
  have e : ∀ x : ℚ, (1 - p < x ∨ 1 - p > 1 - x) ↔ (p < x ∨ p > 1 - x) := by
    intro x
    constructor
    · rintro (h | h)
      · right; linarith
      · left; linarith
    · rintro (h | h)
      · right; linarith
      · left; linarith
  simp only [e]

/-- C14.  A p-value further from 1/2 never gets a better grade. -/
theorem C14_monotone (Xfail Xweak p q : ℚ) (h : |p - 1/2| ≤ |q - 1/2|) :
    (assess Xfail Xweak p).badness ≤ (assess Xfail Xweak q).badness := by
  unfold assess
  have e : ∀ x : ℚ, (p < x ∨ p > 1 - x) → (q < x ∨ q > 1 - x) := by
    intro x hp
    rw [← half_sub_abs_lt] at hp ⊢
    linarith
  by_cases h1 : p < Xfail ∨ p > 1 - Xfail
  · simp [h1, e _ h1]
  · by_cases h2 : p < Xweak ∨ p > 1 - Xweak
    · simp only [h1, h2, e _ h2, if_true, if_false]
      split <;> simp [Grade.badness]
    · simp only [h1, h2, if_false, Grade.badness]; omega

example : assess (1/1000000) (5/1000) (1/2000000) = .failed ∧ assess (1/1000000) (5/1000) (4/1000) = .weak ∧
    assess (1/1000000) (5/1000) (6/1000) = .passed ∧ assess (1/1000000) (5/1000) (-1) = .failed := by decide +kernel

/-! ### C15: sample sizes -/

/-- C15.  What `create_test` sets up: one `Test` per statistic; user sizes only when not running
all tests and when given; default `psamples` scaled by `multiply_p`, at least 1; array large
enough for the cutoff when a strategy is in force. -/
theorem C15_sizes (c : Cfg) (d : Dtest) (s : TS) (h : createTest c d = .ok s) :
    s.tests.length = d.nkps ∧ ∀ t ∈ s.tests,
      (t.tsamples = d.tsamplesStd ∨ (t.tsamples = c.tsamples ∧ c.all = false ∧ c.tsamples ≠ 0)) ∧
      ((c.all = true ∨ c.tsamples = 0) → t.tsamples = d.tsamplesStd) ∧
      (c.all = false → c.tsamples ≠ 0 → t.tsamples = c.tsamples) ∧
      ((c.all = true ∨ c.psamples = 0) →
        1 ≤ t.psamples ∧ (t.psamples = 1 ∨ (t.psamples : ℚ) ≤ d.psamplesStd * c.multiplyP) ∧
          d.psamplesStd * c.multiplyP < t.psamples + 1) ∧
      (c.all = false → c.psamples ≠ 0 → t.psamples = c.psamples) ∧
      (c.Xtrategy = 0 → t.pvalues.length = t.psamples) ∧
      (c.Xtrategy ≠ 0 → t.pvalues.length = max t.psamples c.Xoff) ∧
      t.ks = 0 := by
  unfold createTest at h
  obtain ⟨ps, h1, h2⟩ := Res.bind_eq_ok.1 h
  injection h2 with h2
  subst h2
  refine ⟨by simp, ?_⟩
  intro t ht
  rw [List.eq_of_mem_replicate ht]
  simp only [List.length_replicate]
  have hall : (c.all = false) ↔ ¬ (c.all = true) := by simp
  refine ⟨?_, ?_, ?_, ?_, ?_, ?_, ?_, trivial⟩
  · by_cases hd : c.all = true ∨ c.tsamples = 0
    · left; rw [if_pos hd]
    · right; rw [if_neg hd]; rw [not_or] at hd; exact ⟨rfl, hall.2 hd.1, hd.2⟩
  · intro hd; rw [if_pos hd]
  · intro ha hb; rw [if_neg]; rw [not_or]; exact ⟨hall.1 ha, hb⟩
  · intro hd
    rw [if_pos hd] at h1
    obtain ⟨p, h3, h4⟩ := Res.bind_eq_ok.1 h1
    unfold toUint at h3
    split at h3
    · next hr =>
      injection h3 with h3
      injection h4 with h4
      have f1 := (Rat.le_floor_iff (a := (d.psamplesStd * c.multiplyP))).1 (le_refl (d.psamplesStd * c.multiplyP : ℚ).floor)
      have f2 : d.psamplesStd * c.multiplyP < ((d.psamplesStd * c.multiplyP).floor : ℚ) + 1 := by
        have := Rat.lt_floor_add_one (d.psamplesStd * c.multiplyP)
        push_cast at this
        exact this
      by_cases hz : (d.psamplesStd * c.multiplyP).floor < 1
      · have hp : ps = 1 := by rw [← h4, if_pos (by omega)]
        subst hp
        refine ⟨le_refl _, Or.inl rfl, ?_⟩
        have : ((d.psamplesStd * c.multiplyP).floor : ℚ) ≤ 0 := by exact_mod_cast (by omega : (d.psamplesStd * c.multiplyP).floor ≤ 0)
        push_cast
        linarith
      · have hp : ((ps : ℤ)) = (d.psamplesStd * c.multiplyP).floor := by rw [← h4, if_neg (by omega), ← h3]; omega
        have hq : (ps : ℚ) = ((d.psamplesStd * c.multiplyP).floor : ℚ) := by exact_mod_cast hp
        refine ⟨by omega, Or.inr ?_, ?_⟩
        · rw [hq]; exact f1
        · rw [hq]; exact f2
    · exact absurd h3 (by simp)
  · intro ha hb
    rw [if_neg (by rw [not_or]; exact ⟨hall.1 ha, hb⟩)] at h1
    injection h1 with h1
    exact h1.symm
  · intro hx; rw [if_neg (by simp [hx])]
  · intro hx
    by_cases hh : c.Xoff > ps
    · rw [if_pos ⟨hx, hh⟩]; omega
    · rw [if_neg (fun q => hh q.2)]; omega

/-- C15, `clear_test` differs: it has no lower bound of one, so a scaling factor below one can
leave zero samples, and the next `std_test` reports -1, which is graded FAILED whatever the
generator does. -/
theorem C15_clear_differs (tf : Nat → Nat → ℚ) (K Q : Nat → ℚ → ℚ) :
    let c : Cfg := ⟨true, 0, 0, 1/1000, 0, 100000, 100, 5/1000, 1/1000000, 0⟩
    (createTest c exTest).map (fun s => s.tests.map fun t => t.psamples) = .ok [1] ∧
    (∃ s, createTest c exTest = .ok s ∧
      (runOps c exTest K Q tf [.clear, .std] s).map (fun s => s.tests.map fun t => (t.psamples, t.ks)) = .ok [(0, -1)]) ∧
    assess c.Xfail c.Xweak (-1) = .failed := by
  have hc : clearTest ⟨true, 0, 0, 1/1000, 0, 100000, 100, 5/1000, 1/1000000, 0⟩ exTest
      ⟨[⟨100000, 1, [0], 0⟩], 0⟩ = .ok ⟨[⟨100000, 0, [0], 0⟩], 0⟩ := by decide +kernel
  refine ⟨by decide +kernel, ⟨⟨[⟨100000, 1, [0], 0⟩], 0⟩, by decide +kernel, ?_⟩, by decide +kernel⟩
  simp only [runOps, hc, Res.bind_ok]
  rfl

example : (createTest ⟨true, 0, 0, 1/1000, 1, 7, 100, 5/1000, 1/1000000, 0⟩ exTest) =
    .ok ⟨[⟨100000, 1, [0, 0, 0, 0, 0, 0, 0], 0⟩], 0⟩ := by decide +kernel

end Dh
