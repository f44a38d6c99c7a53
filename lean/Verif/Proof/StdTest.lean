import Verif.Model.StdTest
import Mathlib.Tactic.Linarith
set_option linter.unusedSimpArgs false
namespace Dh

theorem storeRun_eq (tf : Nat → Nat → ℚ) (call irun : Nat) : ∀ (ts : List TestS) (j : Nat),
    (∀ t ∈ ts, irun < t.pvalues.length) →
    storeRun tf call irun j ts =
      .ok (ts.mapIdx fun k t => { t with pvalues := t.pvalues.set irun (tf call (j + k)) }) := by
  intro ts
  induction ts with
  | nil => intro j _; rfl
  | cons t ts ih =>
    intro j h
    rw [storeRun, wr, if_pos (h t (by simp))]
    simp only [Res.bind_ok]
    rw [ih (j + 1) (fun t ht => h t (by simp [ht]))]
    simp only [Res.bind_ok, List.mapIdx_cons, Nat.add_zero]
    congr 3
    funext k t
    rw [show j + 1 + k = j + (k + 1) by omega]

/-- The array after `todo` runs. -/
def filled (tf : Nat → Nat → ℚ) (calls j i todo : Nat) (pv : List ℚ) : List ℚ :=
  pv.take i ++ ((List.range todo).map (fun k => tf (calls + k) j) ++ pv.drop (i + todo))

theorem filled_set (tf : Nat → Nat → ℚ) (calls j i todo : Nat) (pv : List ℚ) (h : i < pv.length) :
    filled tf (calls + 1) j (i + 1) todo (pv.set i (tf calls j)) = filled tf calls j i (todo + 1) pv := by
  unfold filled
  have h1 : (pv.set i (tf calls j)).take (i + 1) = pv.take i ++ [tf calls j] := by
    rw [List.take_succ_eq_append_getElem (by simpa using h)]
    simp [List.take_set_of_le]
  have h2 : (pv.set i (tf calls j)).drop (i + 1 + todo) = pv.drop (i + (todo + 1)) := by
    rw [List.drop_set_of_lt (by omega)]
    congr 1; omega
  rw [h1, h2, List.range_succ_eq_map]
  simp only [List.map_cons, List.map_map, List.append_assoc, List.cons_append, List.nil_append, Nat.add_zero]
  congr 3
  apply List.map_congr_left
  intro k _
  simp only [Function.comp]
  rw [show calls + 1 + k = calls + (k + 1) by omega]

theorem runLoop_eq (tf : Nat → Nat → ℚ) : ∀ (todo i : Nat) (s : TS),
    (∀ t ∈ s.tests, i + todo ≤ t.pvalues.length) →
    runLoop tf todo i s = .ok ⟨s.tests.mapIdx fun j t => { t with pvalues := filled tf s.calls j i todo t.pvalues },
      s.calls + todo⟩ := by
  intro todo
  induction todo with
  | zero =>
    intro i s h
    rw [runLoop]
    have : (fun j (t : TestS) => ({ t with pvalues := filled tf s.calls j i 0 t.pvalues } : TestS)) = fun _ t => t := by
      funext j t
      simp [filled]
    rw [this]
    have h2 : s.tests.mapIdx (fun _ t => t) = s.tests := by
      apply List.ext_getElem
      · simp
      · intro n h1 h2; simp
    rw [h2]
    rfl
  | succ todo ih =>
    intro i s h
    rw [runLoop, storeRun_eq tf s.calls i s.tests 0 (fun t ht => by have := h t ht; omega)]
    simp only [Res.bind_ok, Nat.zero_add]
    rw [ih]
    · simp only
      rw [show s.calls + 1 + todo = s.calls + (todo + 1) by omega]
      congr 2
      apply List.ext_getElem
      · simp
      · intro n h1 h2
        simp only [List.getElem_mapIdx]
        rw [filled_set]
        have := h _ (List.getElem_mem (by simpa using h1) : s.tests[n]'(by simpa using h1) ∈ s.tests)
        omega
    · intro t ht
      simp only at ht
      obtain ⟨n, hn, rfl⟩ := List.mem_iff_getElem.1 ht
      simp only [List.getElem_mapIdx, List.length_set]
      have := h _ (List.getElem_mem (by simpa using hn) : s.tests[n]'(by simpa using hn) ∈ s.tests)
      omega

theorem gslSort_perm {F : Type*} [Field F] [LinearOrder F] [IsStrictOrderedRing F] (xs : List F) : (gslSort xs).Perm xs := List.perm_insertionSort _ _

theorem gslSort_eq_of_perm {F : Type*} [Field F] [LinearOrder F] [IsStrictOrderedRing F] {xs ys : List F} (h : xs.Perm ys) : gslSort xs = gslSort ys := by
  apply List.Perm.eq_of_pairwise' (r := (· ≤ ·))
  · exact List.pairwise_insertionSort _ _
  · exact List.pairwise_insertionSort _ _
  · exact ((gslSort_perm xs).trans h).trans (gslSort_perm ys).symm

theorem summary_ok {F : Type*} [Field F] [LinearOrder F] [IsStrictOrderedRing F] (c : Cfg)
    (K Q : Nat → F → F) (pv : List F) (n : Nat) (h : n ≤ pv.length) :
    ∃ p pv', summary c K Q pv n = .ok (p, pv') ∧ pv'.length = pv.length ∧ (pv'.take n).Perm (pv.take n) ∧
      (summary c K Q (pv.take n) n).map Prod.fst = .ok p := by
  have hlen : (gslSort (pv.take n)).length = n := by
    rw [(gslSort_perm _).length_eq, List.length_take]; omega
  have htt : (pv.take n).take n = pv.take n := by rw [List.take_take]; simp
  unfold summary
  split
  · unfold kstestKuiper
    by_cases h1 : n = 1
    · rw [if_pos h1, rd_ok (by omega)]
      refine ⟨_, _, rfl, rfl, List.Perm.refl _, ?_⟩
      rw [if_pos h1, rd_ok (by simp; omega)]
      simp [Res.map]
    · rw [if_neg h1, if_neg (by omega)]
      refine ⟨_, _, rfl, ?_, ?_, ?_⟩
      · simp [hlen]; omega
      · rw [List.take_append_of_le_length (by omega), List.take_of_length_le (by omega)]
        exact gslSort_perm _
      · rw [if_neg h1, if_neg (by simp; omega)]
        simp [Res.map, htt]
  · unfold kstest
    by_cases h0 : n < 1
    · rw [if_pos h0, if_pos h0]
      exact ⟨_, _, rfl, rfl, List.Perm.refl _, rfl⟩
    · rw [if_neg h0]
      by_cases h1 : n = 1
      · rw [if_pos h1, rd_ok (by omega)]
        refine ⟨_, _, rfl, rfl, List.Perm.refl _, ?_⟩
        rw [if_neg h0, if_pos h1, rd_ok (by simp; omega)]
        simp [Res.map]
      · rw [if_neg h1, if_neg (by omega)]
        refine ⟨_, _, rfl, ?_, ?_, ?_⟩
        · simp [hlen]; omega
        · rw [List.take_append_of_le_length (by omega), List.take_of_length_le (by omega)]
          exact gslSort_perm _
        · rw [if_neg h0, if_neg h1, if_neg (by simp; omega)]
          simp [Res.map, htt]

theorem summary_perm {F : Type*} [Field F] [LinearOrder F] [IsStrictOrderedRing F] (c : Cfg)
    (K Q : Nat → F → F) (xs ys : List F) (h : xs.Perm ys) :
    (summary c K Q xs xs.length).map Prod.fst = (summary c K Q ys ys.length).map Prod.fst := by
  have hl := h.length_eq
  have hs := gslSort_eq_of_perm h
  have one : xs.length = 1 → xs = ys := by
    intro h1
    obtain ⟨a, rfl⟩ := List.length_eq_one_iff.1 h1
    exact (List.singleton_perm.1 h)
  unfold summary
  split
  · unfold kstestKuiper
    by_cases h1 : xs.length = 1
    · rw [one h1]
    · rw [if_neg h1, if_neg (show ¬ ys.length = 1 by omega), if_neg (Nat.lt_irrefl _), if_neg (Nat.lt_irrefl _)]
      simp only [Res.map, List.take_length, hs]
      rw [hl]
  · unfold kstest
    by_cases h0 : xs.length < 1
    · rw [if_pos h0, if_pos (show ys.length < 1 by omega)]; rfl
    · by_cases h1 : xs.length = 1
      · rw [one h1]
      · rw [if_neg h0, if_neg (show ¬ ys.length < 1 by omega), if_neg h1, if_neg (show ¬ ys.length = 1 by omega), if_neg (Nat.lt_irrefl _), if_neg (Nat.lt_irrefl _)]
        simp only [Res.map, List.take_length, hs]
        rw [hl]

/-- All `Test`s of the vector have `n` samples and arrays of length `cap`. -/
structure Unif (k n cap : Nat) (s : TS) : Prop where
  hk : s.tests.length = k
  hps : ∀ t ∈ s.tests, t.psamples = n
  hcap : ∀ t ∈ s.tests, t.pvalues.length = cap

theorem summaryLoop_ok (c : Cfg) (K Q : Nat → ℚ → ℚ) (delta n n' cap : Nat) (hn' : (n + delta) % 2 ^ 32 = n')
    (hc : n' ≤ cap) : ∀ (ts : List TestS), (∀ t ∈ ts, t.psamples = n) → (∀ t ∈ ts, t.pvalues.length = cap) →
    ∃ ts', summaryLoop c K Q delta ts = .ok ts' ∧ ts'.length = ts.length ∧
      (∀ t ∈ ts', t.psamples = n') ∧ (∀ t ∈ ts', t.pvalues.length = cap) ∧
      ∀ j, ∀ h : j < ts'.length, ∀ h2 : j < ts.length,
        ((ts'[j]).pvalues.take n').Perm ((ts[j]).pvalues.take n') ∧
        (summary c K Q ((ts[j]).pvalues.take n') n').map Prod.fst = .ok (ts'[j]).ks := by
  intro ts
  induction ts with
  | nil => intro _ _; exact ⟨[], rfl, rfl, by simp, by simp, by simp⟩
  | cons t ts ih =>
    intro h1 h2
    obtain ⟨ts', g1, g2, g3, g4, g5⟩ := ih (fun t ht => h1 t (by simp [ht])) (fun t ht => h2 t (by simp [ht]))
    have e1 := h1 t (by simp)
    have e2 := h2 t (by simp)
    obtain ⟨p, pv', p1, p2, p3, p4⟩ := summary_ok c K Q t.pvalues n' (by omega)
    rw [summaryLoop, e1, hn', p1]
    simp only [Res.bind_ok, g1]
    refine ⟨_, rfl, by simp [g2], ?_, ?_, ?_⟩
    · intro t' ht'
      rcases List.mem_cons.1 ht' with h | h
      · rw [h]
      · exact g3 t' h
    · intro t' ht'
      rcases List.mem_cons.1 ht' with h | h
      · rw [h]; simp only; omega
      · exact g4 t' h
    · intro j hj hj2
      cases j with
      | zero => exact ⟨p3, p4⟩
      | succ j => exact g5 j (by simpa using hj) (by simpa using hj2)

theorem ps0_unif {k n cap : Nat} {s : TS} (h : Unif k n cap s) (hk : 0 < k) : ps0 s = .ok n := by
  unfold ps0
  have := h.hk
  have hp := h.hps
  cases hs : s.tests with
  | nil => rw [hs] at this; simp at this; omega
  | cons t ts => rw [hs] at hp; simp only; rw [hp t (by simp)]

/-- The samples of test `j` are those of the calls `c0, ..., c0+n-1`, and the summary p-value
is that of these samples. -/
structure Acc (c : Cfg) (K Q : Nat → ℚ → ℚ) (tf : Nat → Nat → ℚ) (c0 k n cap : Nat) (s : TS) : Prop where
  u : Unif k n cap s
  hcalls : s.calls = c0 + n
  hsamp : ∀ j, ∀ h : j < s.tests.length,
    ((s.tests[j]).pvalues.take n).Perm ((List.range n).map fun i => tf (c0 + i) j)
  hks : ∀ j, ∀ h : j < s.tests.length,
    (summary c K Q ((List.range n).map fun i => tf (c0 + i) j) n).map Prod.fst = .ok (s.tests[j]).ks

theorem filled_take (tf : Nat → Nat → ℚ) (calls j i todo : Nat) (pv : List ℚ) (h : i + todo ≤ pv.length) :
    (filled tf calls j i todo pv).take (i + todo) = pv.take i ++ (List.range todo).map (fun k => tf (calls + k) j) := by
  unfold filled
  rw [← List.append_assoc, List.take_append_of_le_length (by simp; omega), List.take_of_length_le (by simp; try omega)]

theorem filled_length (tf : Nat → Nat → ℚ) (calls j i todo : Nat) (pv : List ℚ) (h : i + todo ≤ pv.length) :
    (filled tf calls j i todo pv).length = pv.length := by
  unfold filled
  simp; omega

/-- `add_2_test` from an accounted state (or from zero samples) with `imax >= psamples`. -/
theorem add2Test_acc (c : Cfg) (K Q : Nat → ℚ → ℚ) (tf : Nat → Nat → ℚ) (c0 k n cap count : Nat) (s : TS)
    (hk : 0 < k) (hu : Unif k n cap s) (hcalls : s.calls = c0 + n)
    (hsamp : ∀ j, ∀ h : j < s.tests.length,
      ((s.tests[j]).pvalues.take n).Perm ((List.range n).map fun i => tf (c0 + i) j))
    (hw : n + count < 2 ^ 32) (hX : c.Xoff < 2 ^ 32) (hn : n ≤ c.Xoff) (hcap : min (n + count) c.Xoff ≤ cap) :
    ∃ s', add2Test c K Q tf count s = .ok s' ∧ Acc c K Q tf c0 k (min (n + count) c.Xoff) cap s' := by
  obtain ⟨m, hm⟩ : ∃ m, m = min (n + count) c.Xoff := ⟨_, rfl⟩
  rw [← hm] at hcap ⊢
  unfold add2Test
  rw [ps0_unif hu hk]
  simp only [Res.bind_ok]
  rw [Nat.mod_eq_of_lt hw]
  have himax : (if n + count > c.Xoff then c.Xoff else n + count) = m := by
    rw [hm]; split <;> omega
  rw [himax]
  have hnm : n ≤ m := by omega
  rw [runLoop_eq tf (m - n) n s (fun t ht => by rw [hu.hcap t ht]; omega)]
  simp only [Res.bind_ok]
  obtain ⟨ts', g1, g2, g3, g4, g5⟩ := summaryLoop_ok c K Q ((2 ^ 32 + m - n) % 2 ^ 32) n m cap (by omega) hcap
    (s.tests.mapIdx fun j t => { t with pvalues := filled tf s.calls j n (m - n) t.pvalues })
    (by
      intro t ht
      obtain ⟨j, hj, rfl⟩ := List.mem_iff_getElem.1 ht
      simp only [List.getElem_mapIdx]
      exact hu.hps _ (List.getElem_mem _))
    (by
      intro t ht
      obtain ⟨j, hj, rfl⟩ := List.mem_iff_getElem.1 ht
      simp only [List.getElem_mapIdx]
      have := hu.hcap _ (List.getElem_mem (by simpa using hj) : s.tests[j]'(by simpa using hj) ∈ s.tests)
      rw [filled_length _ _ _ _ _ _ (by omega), this])
  rw [g1]
  simp only [Res.bind_ok]
  have hsamp' : ∀ j, ∀ h : j < s.tests.length,
      ((filled tf s.calls j n (m - n) (s.tests[j]).pvalues).take m).Perm ((List.range m).map fun i => tf (c0 + i) j) := by
    intro j hj
    have hl := hu.hcap _ (List.getElem_mem hj)
    have := filled_take tf s.calls j n (m - n) (s.tests[j]).pvalues (by omega)
    rw [show n + (m - n) = m by omega] at this
    rw [this]
    have hr : List.range m = List.range n ++ (List.range (m - n)).map (n + ·) := by
      rw [← List.range_add]; congr 1; omega
    rw [hr, List.map_append, List.map_map]
    refine (hsamp j hj).append ?_
    rw [hcalls]
    have : (fun k => tf (c0 + n + k) j) = ((fun i => tf (c0 + i) j) ∘ fun x => n + x) := by
      funext k; simp only [Function.comp]; rw [Nat.add_assoc]
    rw [this]
  have hlen' : ts'.length = s.tests.length := by rw [g2]; simp
  refine ⟨_, rfl, ⟨by simp only; rw [hlen']; exact hu.hk, g3, g4⟩, by simp only; omega, ?_, ?_⟩
  · intro j hj
    simp only at hj
    have := g5 j hj (by simpa [hlen'] using hj)
    simp only [List.getElem_mapIdx] at this
    exact this.1.trans (hsamp' j (by omega))
  · intro j hj
    simp only at hj
    have := g5 j hj (by simpa [hlen'] using hj)
    simp only [List.getElem_mapIdx] at this
    rw [← this.2]
    have hp := hsamp' j (by omega)
    have h1 := summary_perm c K Q _ _ hp
    have e1 := hp.length_eq
    simp only [List.length_map, List.length_range] at e1
    rw [e1] at h1
    rw [h1]
    simp

/-- `pmax == 0.0` means no summary p-value is positive. -/
theorem pmax_zero (ts : List TestS) : ∀ m : ℚ, 0 ≤ m →
    (0 ≤ ts.foldl (fun m t => if t.ks > m then t.ks else m) m) ∧
    (ts.foldl (fun m t => if t.ks > m then t.ks else m) m = 0 ↔ m = 0 ∧ ∀ t ∈ ts, t.ks ≤ 0) := by
  induction ts with
  | nil => intro m hm; simp [hm]
  | cons t ts ih =>
    intro m hm
    simp only [List.foldl_cons]
    by_cases h : t.ks > m
    · simp only [h, if_true]
      obtain ⟨h1, h2⟩ := ih t.ks (by linarith)
      refine ⟨h1, ?_⟩
      rw [h2]
      constructor
      · rintro ⟨h3, h4⟩; linarith
      · rintro ⟨h3, h4⟩
        have := h4 t (by simp)
        linarith
    · simp only [h, if_false]
      obtain ⟨h1, h2⟩ := ih m hm
      refine ⟨h1, ?_⟩
      rw [h2]
      constructor
      · rintro ⟨h3, h4⟩
        refine ⟨h3, ?_⟩
        intro t' ht'
        rcases List.mem_cons.1 ht' with e | e
        · rw [e]; linarith
        · exact h4 t' e
      · rintro ⟨h3, h4⟩
        exact ⟨h3, fun t' ht' => h4 t' (by simp [ht'])⟩

/-- First call (or any call in a state without positive summary p-value). -/
theorem stdTest_first (c : Cfg) (K Q : Nat → ℚ → ℚ) (tf : Nat → Nat → ℚ) (k n cap : Nat) (s : TS)
    (hk : 0 < k) (hu : Unif k n cap s) (hfirst : ∀ t ∈ s.tests, t.ks ≤ 0)
    (hw : n < 2 ^ 32) (hX : c.Xoff < 2 ^ 32) (hcap : min n c.Xoff ≤ cap) :
    ∃ s', stdTest c K Q tf s = .ok s' ∧ Acc c K Q tf s.calls k (min n c.Xoff) cap s' := by
  unfold stdTest
  simp only
  rw [if_pos (((pmax_zero s.tests 0 (le_refl _)).2).2 ⟨rfl, hfirst⟩), ps0_unif hu hk]
  simp only [Res.bind_ok]
  have := add2Test_acc c K Q tf s.calls k 0 cap n { s with tests := s.tests.map fun t => { t with psamples := 0 } }
    hk ⟨by simp [hu.hk], by simp, ?_⟩ rfl (by simp) (by omega) hX (by omega) (by simpa using hcap)
  · simpa using this
  · intro t ht
    obtain ⟨t', ht', rfl⟩ := List.mem_map.1 ht
    exact hu.hcap t' ht'

/-- A later call. -/
theorem stdTest_more (c : Cfg) (K Q : Nat → ℚ → ℚ) (tf : Nat → Nat → ℚ) (c0 k n cap : Nat) (s : TS)
    (hk : 0 < k) (h : Acc c K Q tf c0 k n cap s) (hpos : ∃ t ∈ s.tests, 0 < t.ks)
    (hw : n + c.Xstep < 2 ^ 32) (hX : c.Xoff < 2 ^ 32) (hn : n ≤ c.Xoff) (hcap : min (n + c.Xstep) c.Xoff ≤ cap) :
    ∃ s', stdTest c K Q tf s = .ok s' ∧ Acc c K Q tf c0 k (min (n + c.Xstep) c.Xoff) cap s' := by
  unfold stdTest
  simp only
  rw [if_neg]
  · exact add2Test_acc c K Q tf c0 k n cap c.Xstep s hk h.u h.hcalls h.hsamp hw hX hn hcap
  · intro h0
    obtain ⟨t, ht, hp⟩ := hpos
    have := (((pmax_zero s.tests 0 (le_refl _)).2).1 h0).2 t ht
    linarith

end Dh
