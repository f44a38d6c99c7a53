import Verif.Proof.StdTest
set_option linter.unusedSimpArgs false
namespace Dh

theorem add2Test_ok (c : Cfg) (K Q : Nat → ℚ → ℚ) (tf : Nat → Nat → ℚ) (k n cap count : Nat) (s : TS)
    (hk : 0 < k) (hu : Unif k n cap s) (hn : n < 2 ^ 32) (hX : c.Xoff < 2 ^ 32)
    (hcap : min ((n + count) % 2 ^ 32) c.Xoff ≤ cap) :
    ∃ s', add2Test c K Q tf count s = .ok s' ∧ Unif k (min ((n + count) % 2 ^ 32) c.Xoff) cap s' := by
  obtain ⟨m, hm⟩ : ∃ m, m = min ((n + count) % 2 ^ 32) c.Xoff := ⟨_, rfl⟩
  rw [← hm] at hcap ⊢
  unfold add2Test
  rw [ps0_unif hu hk]
  simp only [Res.bind_ok]
  have himax : (if (n + count) % 2 ^ 32 > c.Xoff then c.Xoff else (n + count) % 2 ^ 32) = m := by
    rw [hm]; split <;> omega
  rw [himax]
  have hrun : ∃ s1, runLoop tf (m - n) n s = .ok s1 ∧ Unif k n cap s1 := by
    by_cases hmn : m ≤ n
    · rw [Nat.sub_eq_zero_of_le hmn]
      exact ⟨s, rfl, hu⟩
    · rw [runLoop_eq tf (m - n) n s (fun t ht => by rw [hu.hcap t ht]; omega)]
      refine ⟨_, rfl, by simp [hu.hk], ?_, ?_⟩
      · intro t ht
        obtain ⟨j, hj, rfl⟩ := List.mem_iff_getElem.1 ht
        simp only [List.getElem_mapIdx]
        exact hu.hps _ (List.getElem_mem _)
      · intro t ht
        obtain ⟨j, hj, rfl⟩ := List.mem_iff_getElem.1 ht
        simp only [List.length_mapIdx] at hj
        simp only [List.getElem_mapIdx]
        have := hu.hcap _ (List.getElem_mem hj)
        rw [filled_length _ _ _ _ _ _ (by omega), this]
  obtain ⟨s1, e1, u1⟩ := hrun
  rw [e1]
  simp only [Res.bind_ok]
  have hm32 : m < 2 ^ 32 := by omega
  obtain ⟨ts', g1, g2, g3, g4, -⟩ := summaryLoop_ok c K Q ((2 ^ 32 + m - n) % 2 ^ 32) n m cap (by omega) hcap
    s1.tests u1.hps u1.hcap
  rw [g1]
  simp only [Res.bind_ok]
  exact ⟨_, rfl, by simp only; rw [g2]; exact u1.hk, g3, g4⟩

theorem stdTest_ok (c : Cfg) (K Q : Nat → ℚ → ℚ) (tf : Nat → Nat → ℚ) (k n cap : Nat) (s : TS)
    (hk : 0 < k) (hu : Unif k n cap s) (hn : n < 2 ^ 32) (hX : c.Xoff < 2 ^ 32)
    (hcap : c.Xoff ≤ cap ∨ (n ≤ cap ∧ ∀ t ∈ s.tests, t.ks ≤ 0)) :
    ∃ s' n', stdTest c K Q tf s = .ok s' ∧ n' < 2 ^ 32 ∧ Unif k n' cap s' := by
  by_cases h0 : ∀ t ∈ s.tests, t.ks ≤ 0
  · obtain ⟨s', h1, h2⟩ := stdTest_first c K Q tf k n cap s hk hu h0 hn hX (by omega)
    exact ⟨s', _, h1, by omega, h2.u⟩
  · have hc : c.Xoff ≤ cap := by
      rcases hcap with h | h
      · exact h
      · exact absurd h.2 h0
    unfold stdTest
    simp only
    rw [if_neg (fun h => h0 (((pmax_zero s.tests 0 (le_refl _)).2).1 h).2)]
    obtain ⟨s', h1, h2⟩ := add2Test_ok c K Q tf k n cap c.Xstep s hk hu hn hX (by omega)
    exact ⟨s', _, h1, by omega, h2⟩

theorem createTest_unif (c : Cfg) (d : Dtest) (s : TS) (h : createTest c d = .ok s) (hp : c.psamples < 2 ^ 32) :
    ∃ n cap, n < 2 ^ 32 ∧ Unif d.nkps n cap s ∧ n ≤ cap ∧ (c.Xtrategy ≠ 0 → c.Xoff ≤ cap) ∧ (∀ t ∈ s.tests, t.ks = 0) ∧
      s.calls = 0 ∧ (∀ m s' , clearTest c d s' = .ok m → ∃ n', n' ≤ n ∧ ∀ t ∈ m.tests, t.psamples = n') ∧
      (∀ s', ∃ m, clearTest c d s' = .ok m) := by
  unfold createTest at h
  obtain ⟨ps, h1, h2⟩ := (Res.bind_eq_ok).1 h
  injection h2 with h2
  subst h2
  have hps : ps < 2 ^ 32 := by
    by_cases hd : c.all ∨ c.psamples = 0
    · rw [if_pos hd] at h1
      obtain ⟨p, h3, h4⟩ := (Res.bind_eq_ok).1 h1
      unfold toUint at h3
      split at h3
      · next hr =>
        injection h3 with h3
        injection h4 with h4
        have : p < 2 ^ 32 := by
          rw [← h3]
          have hfl : (d.psamplesStd * c.multiplyP).floor < 2 ^ 32 := by
            have h5 := (Rat.le_floor_iff (a := (d.psamplesStd * c.multiplyP))).1 (le_refl (d.psamplesStd * c.multiplyP : ℚ).floor)
            have h6 : (((d.psamplesStd * c.multiplyP).floor : ℤ) : ℚ) < ((2 ^ 32 : ℤ) : ℚ) := by
              push_cast; linarith [hr.2]
            exact_mod_cast h6
          omega
        rw [← h4]; split <;> omega
      · exact absurd h3 (by simp)
    · rw [if_neg hd] at h1
      injection h1 with h1
      omega
  refine ⟨ps, if c.Xtrategy ≠ 0 ∧ c.Xoff > ps then c.Xoff else ps, hps, ⟨by simp, ?_, ?_⟩, ?_, ?_, ?_, rfl, ?_, ?_⟩
  · intro t ht; rw [List.eq_of_mem_replicate ht]
  · intro t ht; rw [List.eq_of_mem_replicate ht]; simp
  · split <;> omega
  · intro hx; by_cases hh : c.Xoff > ps
    · rw [if_pos ⟨hx, hh⟩]
    · rw [if_neg (fun q => hh q.2)]; omega
  · intro t ht; rw [List.eq_of_mem_replicate ht]
  · intro m s' hm
    unfold clearTest at hm
    obtain ⟨ps', h3, h4⟩ := (Res.bind_eq_ok).1 hm
    injection h4 with h4
    subst h4
    refine ⟨ps', ?_, ?_⟩
    · by_cases hd : c.all ∨ c.psamples = 0
      · rw [if_pos hd] at h1 h3
        rw [h3] at h1
        simp only [Res.bind_ok] at h1
        injection h1 with h1
        rw [← h1]; split <;> omega
      · rw [if_neg hd] at h1 h3
        injection h1 with h1
        injection h3 with h3
        omega
    · intro t ht
      obtain ⟨t', _, rfl⟩ := List.mem_map.1 ht
      rfl
  · intro s'
    unfold clearTest
    by_cases hd : c.all ∨ c.psamples = 0
    · rw [if_pos hd] at h1 ⊢
      obtain ⟨p, h3, h4⟩ := (Res.bind_eq_ok).1 h1
      rw [h3]
      exact ⟨_, rfl⟩
    · rw [if_neg hd]
      exact ⟨_, rfl⟩

theorem runOps_ok (c : Cfg) (d : Dtest) (K Q : Nat → ℚ → ℚ) (tf : Nat → Nat → ℚ) (N cap : Nat) (hk : 0 < d.nkps)
    (hX : c.Xoff < 2 ^ 32) (hN : N ≤ cap) (hN2 : N < 2 ^ 32)
    (hclear : ∀ m s', clearTest c d s' = .ok m → ∃ n', n' ≤ N ∧ ∀ t ∈ m.tests, t.psamples = n')
    (hclear2 : ∀ s', ∃ m, clearTest c d s' = .ok m) :
    ∀ (ops : List Op) (n : Nat) (s : TS), n < 2 ^ 32 → Unif d.nkps n cap s →
      (c.Xoff ≤ cap ∨ (ops.IsChain (fun a b => ¬ (a = .std ∧ b = .std)) ∧
        ((n ≤ cap ∧ ∀ t ∈ s.tests, t.ks ≤ 0) ∨ ops.head? ≠ some .std))) →
      ∃ s' n', runOps c d K Q tf ops s = .ok s' ∧ Unif d.nkps n' cap s' := by
  intro ops
  induction ops with
  | nil => intro n s _ hu _; exact ⟨s, n, rfl, hu⟩
  | cons o ops ih =>
    intro n s hn hu hc
    cases o with
    | std =>
      obtain ⟨s', n', h1, h2, h3⟩ := stdTest_ok c K Q tf d.nkps n cap s hk hu hn hX (by
        rcases hc with h | ⟨_, h | h⟩
        · exact Or.inl h
        · exact Or.inr h
        · simp at h)
      rw [runOps, h1]
      simp only [Res.bind_ok]
      apply ih n' s' h2 h3
      rcases hc with h | ⟨h, _⟩
      · exact Or.inl h
      · refine Or.inr ⟨List.IsChain.of_cons h, Or.inr ?_⟩
        intro he
        cases ops with
        | nil => simp at he
        | cons b ops =>
          simp only [List.head?_cons, Option.some.injEq] at he
          have := (List.isChain_cons_cons.1 h).1
          exact this ⟨rfl, he⟩
    | clear =>
      obtain ⟨m, hm⟩ := hclear2 s
      obtain ⟨n', h1, h2⟩ := hclear m s hm
      rw [runOps, hm]
      simp only [Res.bind_ok]
      have hum : Unif d.nkps n' cap m ∧ ∀ t ∈ m.tests, t.ks ≤ 0 := by
        have hm' := hm
        unfold clearTest at hm'
        obtain ⟨ps', h3, h4⟩ := (Res.bind_eq_ok).1 hm'
        injection h4 with h4
        refine ⟨⟨by rw [← h4]; simp [hu.hk], h2, ?_⟩, ?_⟩
        · intro t ht
          rw [← h4] at ht
          obtain ⟨t', ht', rfl⟩ := List.mem_map.1 ht
          exact hu.hcap t' ht'
        · intro t ht
          rw [← h4] at ht
          obtain ⟨t', ht', rfl⟩ := List.mem_map.1 ht
          exact le_refl _
      apply ih n' m (by omega) hum.1
      rcases hc with h | ⟨h, _⟩
      · exact Or.inl h
      · exact Or.inr ⟨List.IsChain.of_cons h, Or.inl ⟨by omega, hum.2⟩⟩

/-! ### Thresholds -/

theorem half_sub_abs_lt (p x : ℚ) : 1/2 - |p - 1/2| < x ↔ p < x ∨ p > 1 - x := by
  rcases abs_cases (p - 1/2) with ⟨h1, h2⟩ | ⟨h1, h2⟩ <;> rw [h1]
  · constructor
    · intro h; right; linarith
    · rintro (h | h)
      · linarith
      · linarith
  · constructor
    · intro h; left; linarith
    · rintro (h | h)
      · linarith
      · linarith

theorem smallestP_lt_aux (x : ℚ) (ts : List TestS) : ∀ m : ℚ,
    (ts.foldl (fun m t => if 1/2 - |t.ks - 1/2| < m then 1/2 - |t.ks - 1/2| else m) m < x ↔
      m < x ∨ ∃ t ∈ ts, t.ks < x ∨ t.ks > 1 - x) := by
  induction ts with
  | nil => intro m; simp
  | cons t ts ih =>
    intro m
    simp only [List.foldl_cons, List.mem_cons, exists_eq_or_imp]
    rw [ih]
    have := half_sub_abs_lt t.ks x
    split
    · next h =>
      rw [this]
      constructor
      · rintro (h | h)
        · exact Or.inr (Or.inl h)
        · exact Or.inr (Or.inr h)
      · rintro (h1 | h1 | h1)
        · left; rw [← this]; linarith
        · exact Or.inl h1
        · exact Or.inr h1
    · next h =>
      constructor
      · rintro (h | h)
        · exact Or.inl h
        · exact Or.inr (Or.inr h)
      · rintro (h1 | h1 | h1)
        · exact Or.inl h1
        · left; rw [← this] at h1; linarith
        · exact Or.inr h1

theorem smallestP_lt (x : ℚ) (ts : List TestS) (hne : ts ≠ []) :
    smallestP ts < x ↔ ∃ t ∈ ts, t.ks < x ∨ t.ks > 1 - x := by
  unfold smallestP
  rw [smallestP_lt_aux]
  constructor
  · rintro (h | h)
    · cases ts with
      | nil => exact absurd rfl hne
      | cons t ts =>
        refine ⟨t, by simp, ?_⟩
        by_contra hc
        rw [not_or] at hc
        have h1 := hc.1; have h2 := hc.2
        linarith
    · exact h
  · exact Or.inr

theorem needMore_eq (c : Cfg) {k n cap : Nat} {s : TS} (hk : 0 < k) (hu : Unif k n cap s) :
    ∃ b, needMore c s = .ok b ∧
      (b = true ↔ (c.Xtrategy = 1 ∧ (∀ t ∈ s.tests, ¬(t.ks < c.Xfail ∨ t.ks > 1 - c.Xfail)) ∧
          (∃ t ∈ s.tests, t.ks < c.Xweak ∨ t.ks > 1 - c.Xweak) ∧ n < c.Xoff) ∨
        (c.Xtrategy = 2 ∧ (∀ t ∈ s.tests, ¬(t.ks < c.Xfail ∨ t.ks > 1 - c.Xfail)) ∧ n < c.Xoff)) := by
  have hne : s.tests ≠ [] := by
    intro h; have := hu.hk; rw [h] at this; simp at this; omega
  have hF := smallestP_lt c.Xfail s.tests hne
  have hW := smallestP_lt c.Xweak s.tests hne
  have hF' : (∀ t ∈ s.tests, ¬(t.ks < c.Xfail ∨ t.ks > 1 - c.Xfail)) ↔ ¬ smallestP s.tests < c.Xfail := by
    rw [hF]; push_neg; rfl
  unfold needMore
  rw [ps0_unif hu hk]
  simp only [Res.bind_ok]
  rw [hF', ← hW]
  by_cases h1 : c.Xtrategy = 1
  · rw [if_pos h1]
    refine ⟨_, rfl, ?_⟩
    simp [h1]
    tauto
  · rw [if_neg h1]
    by_cases h2 : c.Xtrategy = 2
    · rw [if_pos h2]
      refine ⟨_, rfl, ?_⟩
      simp [h2]
    · rw [if_neg h2]
      exact ⟨_, rfl, by simp [h1, h2]⟩

end Dh
