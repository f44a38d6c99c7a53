import Verif.Props.KuiperPower
import Verif.Props.MonobitPower
import Verif.Props.XtestMean
/-
C139: what sts_runs and rgb_lagged_sums always find.
-/
namespace Dh

open Filter Topology

namespace Spec

/-- All p-values are at least 0.9996; the final p-value of 33 of them or more is below 0.000001 with -k 0 and 1, and that of 12 or more with -k 3. -/
def FailsHigh (ps : List ℝ) : Prop :=
  (∀ p ∈ ps, 0.9996 ≤ p ∧ p ≤ 1) ∧
  (33 ≤ ps.length → ∀ ksTest, ksTest ≠ 2 → ∀ K : Nat → ℝ → ℝ, (∀ d, 0 ≤ d → ksFinish ksTest ps.length d = .ok (K ps.length d)) →
    ∃ p s, kstest K ps ps.length = .ok (p, s) ∧ p < 1e-6) ∧
  (12 ≤ ps.length → ∀ Q : Nat → ℝ → ℝ, (∀ n v, 0 < v → Tendsto (fun q : Nat × Nat => qKsKuiper (kuiperX n v) n q.1 q.2) atTop (𝓝 (Q n v))) →
    ∃ p s, kstestKuiper Q ps ps.length = .ok (p, s) ∧ p < 1e-6)

/-- The number of ones of the cyclic string of bits. -/
def cyclicOnes (r : Nat) (ws : List UInt) : Nat := (List.range (r * ws.length)).countP fun b => cyclicBit r ws b

end Spec

open Spec

/-- C139: p-values of at least 0.9996 throughout are a failure. -/
theorem C139_high (ps : List ℝ) (h : ∀ p ∈ ps, 0.9996 ≤ p ∧ p ≤ 1) : FailsHigh ps := by
  have hall : ps.countP (fun x => decide (0.9996 ≤ x ∧ x ≤ 0.9996 + 0.0004)) = ps.length := by
    refine List.countP_eq_length.2 fun x hxm => ?_
    rw [decide_eq_true_iff, show (0.9996 : ℝ) + 0.0004 = 1 by norm_num]
    exact h x hxm
  refine ⟨h, fun hm ksTest hks K hK => ?_, fun hm Q hQ => ?_⟩
  · have hm' : (33 : ℝ) ≤ ps.length := by exact_mod_cast hm
    have e : ((ps.length : ℝ) - 1) / (ps.length + 1) = 1 - 2 / (ps.length + 1) := by
      field_simp
      ring
    have h2 : 2 / ((ps.length : ℝ) + 1) ≤ 2 / 34 := by
      apply div_le_div_of_nonneg_left <;> linarith
    refine C126_crowded ksTest hks K ps (by omega) hK 0.9996 0.0004 (by norm_num) ps.length (by rw [hall]) (by rw [e]; linarith) ?_
    rw [e]
    have h3 : (0.9407 : ℝ) ≤ 1 - 2 / (ps.length + 1) - 0.0004 := by linarith
    nlinarith
  · have hm' : (12 : ℝ) ≤ ps.length := by exact_mod_cast hm
    have e : ((ps.length : ℝ) - 1) / ps.length = 1 - 1 / ps.length := by
      field_simp
    have h2 : 1 / (ps.length : ℝ) ≤ 1 / 12 := by
      apply div_le_div_of_nonneg_left <;> linarith
    refine C137_crowded Q hQ ps (by omega) 0.9996 0.0004 (by norm_num) ps.length (by rw [hall]) (by rw [e]; linarith) ?_
    rw [e]
    have h3 : (0.9162 : ℝ) ≤ 1 - 1 / ps.length - 0.0004 := by linarith
    nlinarith

theorem exp_neg_8 : Real.exp (-4 ^ 2 / 2) ≤ 0.0004 := by
  rw [show (-4 ^ 2 / 2 : ℝ) = (8 : ℕ) * (-1) by norm_num, Real.exp_nat_mul]
  calc Real.exp (-1) ^ 8 ≤ 0.3678794413 ^ 8 := pow_le_pow_left₀ (Real.exp_pos _).le (by linarith [Real.exp_neg_one_lt_d9]) 8
    _ ≤ 0.0004 := by norm_num

/-- Four deviations, either way. -/
theorem xtest_four (x y σ : ℝ) (hσ : 0 < σ) :
    (y + 4 * σ ≤ x → 0 ≤ xtestEval normalCdf x y σ ∧ xtestEval normalCdf x y σ ≤ 0.0004) ∧
    (x ≤ y - 4 * σ → 0.9996 ≤ xtestEval normalCdf x y σ ∧ xtestEval normalCdf x y σ ≤ 1) := by
  refine ⟨fun h => ⟨(normalCdf_bounds _ _).1, ?_⟩, fun h => ⟨?_, (normalCdf_bounds _ _).2⟩⟩
  · exact (normalCdf_mono σ (by linarith : y - x ≤ -(4 * σ))).trans ((normalCdf_lower 4 σ hσ (by norm_num)).trans exp_neg_8)
  · have := (normalCdf_upper 4 σ hσ (by norm_num)).trans (normalCdf_mono σ (by linarith : 4 * σ ≤ y - x))
    have h8 := exp_neg_8
    rw [xtestEval]
    linarith

theorem stsRunsTest_eq (cdf : ℝ → ℝ → ℝ) (r : Nat) (ws : List UInt) (hr : 0 < r) (hr32 : r ≤ 32) (hw : ∀ x ∈ ws, ∀ i, r ≤ i → x.getLsbD i = false) :
    ∃ q : ℝ, q = (cyclicOnes r ws : ℝ) / (r * ws.length : ℕ) ∧ stsRunsTest cdf r ws = .ok (xtestEval cdf (changes r ws)
      (2 * (r * ws.length : ℕ) * (q * (1 - q))) (2 * Real.sqrt (r * ws.length : ℕ) * (q * (1 - q)))) := by
  obtain ⟨c, h1, h2, h3⟩ := C39_sts_runs r ws hr hr32 hw
  refine ⟨_, rfl, ?_⟩
  rw [stsRunsTest, h1, Res.bind_ok, Res.pure_eq, runsPones, h3, h2, cyclicOnes, changes]
  have e : ((ws.length : ℝ) * r) = ((r * ws.length : ℕ) : ℝ) := by
    push_cast
    ring
  rw [e]
  congr 2 <;> ring

/-- A string with a change has both bits. -/
theorem changes_mixed (r : Nat) (hr : 0 < r) (ws : List UInt) (h : 0 < changes r ws) : 0 < cyclicOnes r ws ∧ cyclicOnes r ws < r * ws.length := by
  obtain ⟨q, hq, hne⟩ := List.countP_pos_iff.1 h
  rw [List.mem_range] at hq
  have hnext : ∃ q' < r * ws.length, cyclicBit r ws q' = cyclicBit r ws (q + 1) := by
    by_cases hlt : q + 1 < r * ws.length
    · exact ⟨q + 1, hlt, rfl⟩
    · refine ⟨0, by omega, ?_⟩
      have := cyclicBit_period r hr ws 0
      rw [Nat.zero_add] at this
      rw [show q + 1 = r * ws.length by omega]
      exact this.symm
  obtain ⟨q', hq', e⟩ := hnext
  rw [← e, bne_iff_ne] at hne
  have hb : ∃ a < r * ws.length, ∃ b < r * ws.length, cyclicBit r ws a = true ∧ cyclicBit r ws b = false := by
    cases h1 : cyclicBit r ws q
    · refine ⟨q', hq', q, hq, ?_, h1⟩
      rw [h1] at hne
      simpa using hne.symm
    · refine ⟨q, hq, q', hq', h1, ?_⟩
      rw [h1] at hne
      simpa using hne.symm
  obtain ⟨a, ha, b, hb, h1, h2⟩ := hb
  refine ⟨List.countP_pos_iff.2 ⟨a, List.mem_range.2 ha, h1⟩, ?_⟩
  refine lt_of_le_of_ne (List.countP_le_length.trans (by rw [List.length_range])) fun hc => ?_
  have := List.countP_eq_length.1 (show (List.range (r * ws.length)).countP (fun b => cyclicBit r ws b) = (List.range (r * ws.length)).length by
    rw [List.length_range]; exact hc) b (List.mem_range.2 hb)
  rw [h2] at this
  exact absurd this (by decide)

/-- C139: a sample of `N` bits in which at least `N/2 + 2 sqrt(N)` differ from the next one (cyclically) has a p-value of at most 0.0004, however many of
them are ones. -/
theorem C139_many (r : Nat) (ws : List UInt) (hr : 0 < r) (hr32 : r ≤ 32) (hw : ∀ x ∈ ws, ∀ i, r ≤ i → x.getLsbD i = false)
    (hl : 0 < ws.length) (h : ((r * ws.length : ℕ) : ℝ) / 2 + 2 * Real.sqrt (r * ws.length : ℕ) ≤ changes r ws) :
    ∃ p, stsRunsTest normalCdf r ws = .ok p ∧ 0 ≤ p ∧ p ≤ 0.0004 := by
  have hN1 : 0 < r * ws.length := Nat.mul_pos hr hl
  have hch : 0 < changes r ws := by
    have : (0 : ℝ) < changes r ws := lt_of_lt_of_le (by
      have : (0 : ℝ) < (r * ws.length : ℕ) := by exact_mod_cast hN1
      have := Real.sqrt_nonneg ((r * ws.length : ℕ) : ℝ)
      linarith) h
    exact_mod_cast this
  obtain ⟨h0, h1⟩ := changes_mixed r hr ws hch
  obtain ⟨q, hq, he⟩ := stsRunsTest_eq normalCdf r ws hr hr32 hw
  refine ⟨_, he, ?_⟩
  generalize r * ws.length = N at *
  have hN0 : (0 : ℝ) < N := by exact_mod_cast (by omega : 0 < N)
  have hq0 : 0 < q := by rw [hq]; exact div_pos (by exact_mod_cast h0) hN0
  have hq1 : q < 1 := by rw [hq, div_lt_one hN0]; exact_mod_cast h1
  have hs := Real.sqrt_pos.2 hN0
  have hqq : 0 < q * (1 - q) := mul_pos hq0 (by linarith)
  refine (xtest_four _ _ _ (by positivity)).1 (le_trans ?_ h)
  have h4 : q * (1 - q) ≤ 1 / 4 := by nlinarith [sq_nonneg (q - 1 / 2)]
  nlinarith [mul_le_mul_of_nonneg_left h4 hN0.le, mul_le_mul_of_nonneg_left h4 hs.le]

/-- C139: and one with too few changes has a p-value of at least 0.9996. -/
theorem C139_few (r : Nat) (ws : List UInt) (hr : 0 < r) (hr32 : r ≤ 32) (hw : ∀ x ∈ ws, ∀ i, r ≤ i → x.getLsbD i = false)
    (h0 : 0 < changes r ws) (h : (changes r ws : ℝ) ≤ 2 * (cyclicOnes r ws / (r * ws.length : ℕ)) * (1 - cyclicOnes r ws / (r * ws.length : ℕ)) *
      ((r * ws.length : ℕ) - 4 * Real.sqrt (r * ws.length : ℕ))) :
    ∃ p, stsRunsTest normalCdf r ws = .ok p ∧ 0.9996 ≤ p ∧ p ≤ 1 := by
  obtain ⟨h0, h1⟩ := changes_mixed r hr ws h0
  obtain ⟨q, hq, he⟩ := stsRunsTest_eq normalCdf r ws hr hr32 hw
  refine ⟨_, he, ?_⟩
  rw [← hq] at h
  generalize r * ws.length = N at *
  have hN0 : (0 : ℝ) < N := by exact_mod_cast (by omega : 0 < N)
  have hq0 : 0 < q := by rw [hq]; exact div_pos (by exact_mod_cast h0) hN0
  have hq1 : q < 1 := by rw [hq, div_lt_one hN0]; exact_mod_cast h1
  have hs := Real.sqrt_pos.2 hN0
  have hqq : 0 < q * (1 - q) := mul_pos hq0 (by linarith)
  refine (xtest_four _ _ _ (by positivity)).2 (h.trans (le_of_eq ?_))
  ring

/-- C139: a run of sts_runs fails if all its samples have too many changes, and if all have too few. -/
theorem C139_runs (r : Nat) (hr : 0 < r) (hr32 : r ≤ 32) (wss : List (List UInt)) (hw : ∀ ws ∈ wss, ∀ x ∈ ws, ∀ i, r ≤ i → x.getLsbD i = false)
    (hl : ∀ ws ∈ wss, 0 < ws.length) :
    ∃ f : List UInt → ℝ, (∀ ws ∈ wss, stsRunsTest normalCdf r ws = .ok (f ws)) ∧
      ((∀ ws ∈ wss, ((r * ws.length : ℕ) : ℝ) / 2 + 2 * Real.sqrt (r * ws.length : ℕ) ≤ changes r ws) → FailsLow (wss.map f)) ∧
      ((∀ ws ∈ wss, 0 < changes r ws ∧ (changes r ws : ℝ) ≤ 2 * (cyclicOnes r ws / (r * ws.length : ℕ)) * (1 - cyclicOnes r ws / (r * ws.length : ℕ)) *
        ((r * ws.length : ℕ) - 4 * Real.sqrt (r * ws.length : ℕ))) → FailsHigh (wss.map f)) := by
  have hex : ∀ ws, ∃ p, ws ∈ wss → stsRunsTest normalCdf r ws = .ok p := by
    intro ws
    by_cases hm : ws ∈ wss
    · obtain ⟨q, -, he⟩ := stsRunsTest_eq normalCdf r ws hr hr32 (hw ws hm)
      exact ⟨_, fun _ => he⟩
    · exact ⟨0, fun h => absurd h hm⟩
  choose f hf using hex
  refine ⟨f, fun ws hm => hf ws hm, fun h => C137_low _ fun p hp => ?_, fun h => C139_high _ fun p hp => ?_⟩
  · obtain ⟨ws, hm, rfl⟩ := List.mem_map.1 hp
    obtain ⟨p, h1, h2⟩ := C139_many r ws hr hr32 (hw ws hm) (hl ws hm) (h ws hm)
    rw [hf ws hm] at h1
    rw [Res.ok.inj h1]
    exact h2
  · obtain ⟨ws, hm, rfl⟩ := List.mem_map.1 hp
    obtain ⟨p, h1, h2⟩ := C139_few r ws hr hr32 (hw ws hm) (h ws hm).1 (h ws hm).2
    rw [hf ws hm] at h1
    rw [Res.ok.inj h1]
    exact h2

/-- C139: rgb_lagged_sums fails if in all samples the deviates that it reads (every `lag+1`-st) have a mean that is off by `2/sqrt(3n)`, always to
the same side: 0.0012 for the default of a million. -/
theorem C139_lagged (lag n : Nat) (hn : 0 < n) (us : List (Nat → ℚ)) :
    ((∀ u ∈ us, (1 : ℝ) / 2 + 2 / Real.sqrt (3 * n) ≤ (((List.range n).map fun t => u ((t + 1) * lag + t)).sum : ℚ) / n) →
      FailsLow (us.map fun u => laggedTest normalCdf u lag n)) ∧
    ((∀ u ∈ us, ((((List.range n).map fun t => u ((t + 1) * lag + t)).sum : ℚ) : ℝ) / n ≤ 1 / 2 - 2 / Real.sqrt (3 * n)) →
      FailsHigh (us.map fun u => laggedTest normalCdf u lag n)) := by
  have hn' : (0 : ℝ) < n := by exact_mod_cast hn
  have hσ : 0 < Real.sqrt ((n : ℝ) / 12) := Real.sqrt_pos.2 (by positivity)
  have e : 4 * Real.sqrt ((n : ℝ) / 12) = 2 / Real.sqrt (3 * n) * n := by
    have h3 : 0 < Real.sqrt (3 * (n : ℝ)) := Real.sqrt_pos.2 (by positivity)
    have h4 : Real.sqrt ((n : ℝ) / 12) = Real.sqrt (3 * n) / 6 := by
      rw [show (n : ℝ) / 12 = 3 * n / 6 ^ 2 by ring, Real.sqrt_div (by positivity), Real.sqrt_sq (by norm_num)]
    rw [h4, div_mul_eq_mul_div, eq_div_iff h3.ne']
    have := Real.mul_self_sqrt (show (0 : ℝ) ≤ 3 * n by positivity)
    linarith
  refine ⟨fun h => C137_low _ fun p hp => ?_, fun h => C139_high _ fun p hp => ?_⟩
  · obtain ⟨u, hm, rfl⟩ := List.mem_map.1 hp
    have := h u hm
    rw [le_div_iff₀ hn'] at this
    simp only [laggedTest, C56_lagged_sums]
    refine (xtest_four _ _ _ hσ).1 ?_
    rw [e]
    linarith
  · obtain ⟨u, hm, rfl⟩ := List.mem_map.1 hp
    have := h u hm
    rw [div_le_iff₀ hn'] at this
    simp only [laggedTest, C56_lagged_sums]
    refine (xtest_four _ _ _ hσ).2 ?_
    rw [e]
    linarith

/-- Words of alternating bits fail sts_runs from a single word per sample on: every bit differs from the next. -/
example (m n : Nat) (hn : 0 < n) : ∃ p, stsRunsTest normalCdf 32 (List.replicate n 0x55555555) = .ok p ∧
    FailsLow (List.replicate m p) := by
  have hb : ∀ k, cyclicBit 32 (List.replicate n 0x55555555) k = (0x55555555 : UInt).getLsbD (k % 32) := by
    intro k
    rw [cyclicBit, List.reverse_replicate, List.getD_eq_getElem _ _ (by rw [List.length_replicate]; exact Nat.mod_lt _ hn), List.getElem_replicate]
  have hall : ∀ i < 32, (0x55555555 : UInt).getLsbD i ≠ (0x55555555 : UInt).getLsbD ((i + 1) % 32) := by decide
  have hch : changes 32 (List.replicate n 0x55555555) = 32 * n := by
    rw [changes, List.length_replicate]
    conv_rhs => rw [← List.length_range (n := 32 * n)]
    refine List.countP_eq_length.2 fun q _ => ?_
    rw [bne_iff_ne, hb, hb, ← Nat.mod_add_mod]
    exact hall (q % 32) (Nat.mod_lt _ (by norm_num))
  obtain ⟨f, h1, h2, -⟩ := C139_runs 32 (by norm_num) le_rfl (List.replicate m (List.replicate n 0x55555555))
    (fun _ _ x _ i hi => BitVec.getLsbD_of_ge x i hi) (fun ws hm => by rw [(List.mem_replicate.1 hm).2, List.length_replicate]; exact hn)
  obtain ⟨q, -, hq⟩ := stsRunsTest_eq normalCdf 32 (List.replicate n 0x55555555) (by norm_num) le_rfl (fun x _ i hi => BitVec.getLsbD_of_ge x i hi)
  refine ⟨_, hq, ?_⟩
  by_cases hm0 : m = 0
  · subst hm0
    exact C137_low _ (by simp)
  have e := h1 _ (List.mem_replicate.2 ⟨hm0, rfl⟩)
  rw [hq] at e
  rw [Res.ok.inj e, ← List.map_replicate]
  refine h2 fun ws hm => ?_
  rw [(List.mem_replicate.1 hm).2, hch, List.length_replicate]
  have hN : (32 : ℝ) ≤ (32 * n : ℕ) := by exact_mod_cast (by omega : 32 ≤ 32 * n)
  generalize ((32 * n : ℕ) : ℝ) = N at *
  have hs := Real.mul_self_sqrt (show (0 : ℝ) ≤ N by linarith)
  have h4 : 4 ≤ Real.sqrt N := Real.le_sqrt_of_sq_le (by linarith)
  nlinarith

/-- A million deviates with the mean 0.502 in every sample. -/
example (us : List (Nat → ℚ)) (h : ∀ u ∈ us, (((List.range 1000000).map fun t => u ((t + 1) * 5 + t)).sum : ℚ) = 502000) :
    FailsLow (us.map fun u => laggedTest normalCdf u 5 1000000) := by
  refine (C139_lagged 5 1000000 (by norm_num) us).1 fun u hu => ?_
  rw [h u hu]
  have : (1000 : ℝ) ≤ Real.sqrt (3 * (1000000 : ℕ)) := Real.le_sqrt_of_sq_le (by norm_num)
  have h2 : 2 / Real.sqrt (3 * (1000000 : ℕ)) ≤ 2 / 1000 := div_le_div_of_nonneg_left (by norm_num) (by norm_num) this
  push_cast at h2 ⊢
  linarith

end Dh
