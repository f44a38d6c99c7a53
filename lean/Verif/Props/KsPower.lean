import Verif.Model.KsFinish
import Verif.Props.Kstest
import Verif.Props.KsDist
import Verif.Props.BirthTest
import Mathlib.Analysis.Complex.ExponentialBounds
/-
C126: p-values that crowd together fail, and a few p-values cannot matter.
-/
namespace Dh
open Spec

/-- In a sorted list the entry at `i` is at most `t` exactly if more than `i` entries are. -/
theorem sorted_le_iff (s : List ℝ) (hs : s.Pairwise (· ≤ ·)) (t : ℝ) (i : Nat) (hi : i < s.length) : s[i] ≤ t ↔ i < s.countP fun x => decide (x ≤ t) := by
  induction s generalizing i with
  | nil => simp at hi
  | cons a l ih =>
    obtain ⟨h1, h2⟩ := List.pairwise_cons.1 hs
    rw [List.countP_cons]
    by_cases ha : a ≤ t
    · rw [if_pos (by simpa using ha)]
      cases i with
      | zero => simpa using ha
      | succ i =>
        rw [List.getElem_cons_succ, ih h2 i (by simpa using hi)]
        omega
    · have h0 : (l.countP fun x => decide (x ≤ t)) = 0 := by
        rw [List.countP_eq_zero]
        intro x hx
        have := h1 x hx
        simp only [decide_eq_true_eq]
        intro h
        linarith
      rw [if_neg (by simpa using ha), h0]
      refine ⟨fun h => ?_, fun h => absurd h (by omega)⟩
      cases i with
      | zero => exact absurd h ha
      | succ i =>
        have hi' : i < l.length := by simpa using hi
        have h3 := h1 (l[i]) (List.getElem_mem hi')
        rw [List.getElem_cons_succ] at h
        linarith

/-- The same for `t ≤`. -/
theorem sorted_ge_iff (s : List ℝ) (hs : s.Pairwise (· ≤ ·)) (t : ℝ) (i : Nat) (hi : i < s.length) : t ≤ s[i] ↔ (s.countP fun x => decide (x < t)) ≤ i := by
  induction s generalizing i with
  | nil => simp at hi
  | cons a l ih =>
    obtain ⟨h1, h2⟩ := List.pairwise_cons.1 hs
    rw [List.countP_cons]
    by_cases ha : a < t
    · rw [if_pos (by simpa using ha)]
      cases i with
      | zero => simpa using ha
      | succ i =>
        rw [List.getElem_cons_succ, ih h2 i (by simpa using hi)]
        omega
    · have h0 : (l.countP fun x => decide (x < t)) = 0 := by
        rw [List.countP_eq_zero]
        intro x hx
        have := h1 x hx
        simp only [decide_eq_true_eq]
        intro h
        linarith
      rw [if_neg (by simpa using ha), h0]
      refine ⟨fun _ => by omega, fun _ => ?_⟩
      cases i with
      | zero => exact not_lt.1 ha
      | succ i =>
        have hi' : i < l.length := by simpa using hi
        have h3 := h1 (l[i]) (List.getElem_mem hi')
        rw [List.getElem_cons_succ]
        linarith

/-- The value of the largest distance, from kstest's point of view. -/
theorem kstest_distance (K : Nat → ℝ → ℝ) (xs : List ℝ) (h : 2 ≤ xs.length) :
    ∃ s D, kstest K xs xs.length = .ok (K xs.length D, s) ∧ s.Perm xs ∧ s.Pairwise (· ≤ ·) ∧ 0 ≤ D ∧
      (∀ j, ∀ hj : j < s.length, |s[j] - ((j + 1 : ℕ) : ℝ) / ((xs.length : ℝ) + 1)| ≤ D) ∧
      ∃ j, ∃ hj : j < s.length, D = |s[j] - ((j + 1 : ℕ) : ℝ) / ((xs.length : ℝ) + 1)| := by
  obtain ⟨s, D, h1, h2, h3, h4, h5, -⟩ := C17_kstest_statistic K xs h
  exact ⟨s, D, h1, h2, h3, h5, fun j hj => h4.2 ⟨j, hj, rfl⟩, h4.1⟩

theorem countP_interval (s : List ℝ) (a l : ℝ) (hl : 0 ≤ l) :
    (s.countP fun x => decide (x < a)) + (s.countP fun x => decide (a ≤ x ∧ x ≤ a + l)) ≤ s.countP fun x => decide (x ≤ a + l) := by
  induction s with
  | nil => simp
  | cons x s ih =>
    rw [List.countP_cons, List.countP_cons, List.countP_cons]
    simp only [decide_eq_true_eq]
    by_cases h1 : x < a
    · rw [if_pos h1, if_neg (show ¬ (a ≤ x ∧ x ≤ a + l) from fun h => by linarith [h.1]), if_pos (show x ≤ a + l by linarith)]
      omega
    · rw [if_neg h1]
      by_cases h2 : a ≤ x ∧ x ≤ a + l
      · rw [if_pos h2, if_pos h2.2]; omega
      · rw [if_neg h2]; omega

/-- C126: if `k` of `n` p-values lie in an interval of length `l`, then the distance that kstest finds is at least half of `(k-1)/(n+1) - l`. -/
theorem C126_distance (K : Nat → ℝ → ℝ) (xs : List ℝ) (h : 2 ≤ xs.length) (a l : ℝ) (hl : 0 ≤ l) (k : Nat)
    (hk : k ≤ xs.countP fun x => decide (a ≤ x ∧ x ≤ a + l)) :
    ∃ s D, kstest K xs xs.length = .ok (K xs.length D, s) ∧ 0 ≤ D ∧ (((k : ℝ) - 1) / (xs.length + 1) - l) / 2 ≤ D := by
  obtain ⟨s, D, h1, h2, h3, h4, h5, -⟩ := kstest_distance K xs h
  refine ⟨s, D, h1, h4, ?_⟩
  have hlen := h2.length_eq
  have hn1 : (0 : ℝ) < xs.length + 1 := by positivity
  by_cases hk0 : k = 0
  · subst hk0
    have : (((0 : Nat) : ℝ) - 1) / (xs.length + 1) ≤ 0 := div_nonpos_of_nonpos_of_nonneg (by norm_num) hn1.le
    linarith
  rw [← h2.countP_eq] at hk
  have hpq := countP_interval s a l hl
  have hq := List.countP_le_length (p := fun x => decide (x ≤ a + l)) (l := s)
  obtain ⟨p, hp⟩ : ∃ p, p = s.countP fun x => decide (x < a) := ⟨_, rfl⟩
  obtain ⟨q, hq'⟩ : ∃ q, q = s.countP fun x => decide (x ≤ a + l) := ⟨_, rfl⟩
  rw [← hp, ← hq'] at hpq
  rw [← hq'] at hq
  have e1 := (sorted_ge_iff s h3 a p (by omega)).2 hp.ge
  have e2 := (sorted_le_iff s h3 (a + l) (q - 1) (by omega)).2 (by omega)
  have d1 := (abs_le.1 (h5 p (by omega))).2
  have d2 := (abs_le.1 (h5 (q - 1) (by omega))).1
  have hc : ((k : ℝ) - 1) / (xs.length + 1) ≤ ((q - 1 + 1 : Nat) : ℝ) / (xs.length + 1) - ((p + 1 : Nat) : ℝ) / (xs.length + 1) := by
    rw [← sub_div]
    refine div_le_div_of_nonneg_right ?_ hn1.le
    have : ((k + p : Nat) : ℝ) ≤ (q : Nat) := by exact_mod_cast (by omega : k + p ≤ q)
    rw [show q - 1 + 1 = q by omega]
    push_cast at this ⊢
    linarith
  linarith

/-- The p-value is below the limit of a failure if the distance is large. -/
theorem ksFinish_small (ksTest n : Nat) (hks : ksTest ≠ 2) (D p : ℝ) (hn : 0 < n) (hD0 : 0 ≤ D) (hD : 7.3 ≤ n * D ^ 2) (h : ksFinish ksTest n D = .ok p) : p < 1e-6 := by
  have hn' : (0 : ℝ) < n := by exact_mod_cast hn
  have hexp : ∀ x : ℝ, x ≤ -14.6 → 2 * Real.exp x < 1e-6 := by
    intro x hx
    have h1 : Real.exp x ≤ Real.exp (-14.6) := Real.exp_le_exp.2 hx
    have h2 : Real.exp (-14.6) < 1 / 2e6 := by
      rw [Real.exp_neg, inv_eq_one_div]
      refine one_div_lt_one_div_of_lt (by norm_num) ?_
      have h3 : Real.exp 14.6 = Real.exp 1 ^ 14 * Real.exp 0.6 := by
        rw [← Real.exp_nat_mul, ← Real.exp_add]; norm_num
      have h4 := Real.quadratic_le_exp_of_nonneg (show (0 : ℝ) ≤ 0.6 by norm_num)
      have h5 := Real.exp_one_gt_d9
      have h6 : (2.718 : ℝ) ^ 14 ≤ Real.exp 1 ^ 14 := by gcongr; linarith
      rw [h3]
      calc (2e6 : ℝ) < 2.718 ^ 14 * (1 + 0.6 + 0.6 ^ 2 / 2) := by norm_num
        _ ≤ _ := mul_le_mul h6 h4 (by norm_num) (by positivity)
    norm_num at h2 ⊢
    linarith
  rw [ksFinish] at h
  split at h
  · injection h with h
    rw [← h, ksAsymptotic]
    refine lt_of_le_of_lt (C75_bounds _).2 (hexp _ ?_)
    have hs := Real.sqrt_nonneg (n : ℝ)
    have h1 : Real.sqrt n * D ≤ (Real.sqrt n + 0.12 + 0.11 / Real.sqrt n) * D := by
      refine mul_le_mul_of_nonneg_right ?_ hD0
      have : 0 ≤ 0.11 / Real.sqrt (n : ℝ) := by positivity
      linarith
    have h2 : (Real.sqrt n * D) ^ 2 ≤ ((Real.sqrt n + 0.12 + 0.11 / Real.sqrt n) * D) ^ 2 := pow_le_pow_left₀ (by positivity) h1 2
    rw [mul_pow, Real.sq_sqrt hn'.le] at h2
    linarith
  · have hs : D * D * n = n * D ^ 2 := by ring
    rw [C76_shortcut ksEasy ksTest n D hks (.inl (by rw [hs]; linarith)), hs] at h
    injection h with h
    rw [← h, ksEasy]
    refine hexp _ ?_
    have h1 : (2 : ℝ) ≤ 2.000071 + 0.331 / Real.sqrt n + 1.409 / n := by
      have h2 : 0 ≤ 0.331 / Real.sqrt (n : ℝ) := by positivity
      have h3 : 0 ≤ 1.409 / (n : ℝ) := by positivity
      linarith
    have := mul_le_mul h1 hD (by norm_num) (by linarith)
    linarith

/-- C126: with -k 0 or 1, if `k` of the `n` p-values of a test lie in an interval of length `l` and `n ((k-1)/(n+1) - l)² ≥ 29.2`, the final p-value is
below 0.000001: the test is FAILED. -/
theorem C126_crowded (ksTest : Nat) (hks : ksTest ≠ 2) (K : Nat → ℝ → ℝ) (xs : List ℝ) (h : 2 ≤ xs.length)
    (hK : ∀ d, 0 ≤ d → ksFinish ksTest xs.length d = .ok (K xs.length d)) (a l : ℝ) (hl : 0 ≤ l) (k : Nat)
    (hk : k ≤ xs.countP fun x => decide (a ≤ x ∧ x ≤ a + l)) (hpos : l ≤ ((k : ℝ) - 1) / (xs.length + 1))
    (hbig : 29.2 ≤ xs.length * (((k : ℝ) - 1) / (xs.length + 1) - l) ^ 2) :
    ∃ p s, kstest K xs xs.length = .ok (p, s) ∧ p < 1e-6 := by
  obtain ⟨s, D, h1, h2, h3⟩ := C126_distance K xs h a l hl k hk
  refine ⟨_, s, h1, ksFinish_small ksTest xs.length hks D _ (by omega) h2 ?_ (hK D h2)⟩
  have h4 : ((((k : ℝ) - 1) / (xs.length + 1) - l) / 2) ^ 2 ≤ D ^ 2 := pow_le_pow_left₀ (by linarith) h3 2
  have h5 := mul_le_mul_of_nonneg_left h4 (Nat.cast_nonneg (α := ℝ) xs.length)
  rw [div_pow] at h5
  linarith

/-- C126: so a test with the default 100 p-values, 56 of which are equal, is FAILED, whatever they are. -/
theorem C126_equal (ksTest : Nat) (hks : ksTest ≠ 2) (K : Nat → ℝ → ℝ) (xs : List ℝ) (h : xs.length = 100)
    (hK : ∀ d, 0 ≤ d → ksFinish ksTest 100 d = .ok (K 100 d)) (c : ℝ) (hk : 56 ≤ xs.countP fun x => decide (x = c)) :
    ∃ p s, kstest K xs 100 = .ok (p, s) ∧ p < 1e-6 := by
  have := C126_crowded ksTest hks K xs (by omega) (by rw [h]; exact hK) c 0 le_rfl 56 (by
    refine le_trans hk (le_of_eq ?_)
    congr 1
    funext x
    rw [decide_eq_decide, add_zero]
    exact ⟨fun e => ⟨e.ge, e.le⟩, fun e => le_antisymm e.2 e.1⟩) (by rw [h]; norm_num) (by rw [h]; norm_num)
  rwa [h] at this

/-- C126: and so is one with the same p-value for every one of 33 samples or more. -/
theorem C126_constant (ksTest : Nat) (hks : ksTest ≠ 2) (K : Nat → ℝ → ℝ) (n : Nat) (hn : 33 ≤ n)
    (hK : ∀ d, 0 ≤ d → ksFinish ksTest n d = .ok (K n d)) (c : ℝ) :
    ∃ p s, kstest K (List.replicate n c) n = .ok (p, s) ∧ p < 1e-6 := by
  have hn' : (33 : ℝ) ≤ n := by exact_mod_cast hn
  have h29 : 29.2 ≤ (n : ℝ) * (((n : ℝ) - 1) / (n + 1) - 0) ^ 2 := by
    rw [sub_zero, div_pow, mul_div_assoc', le_div_iff₀ (by positivity)]
    nlinarith [mul_nonneg (by linarith : (0 : ℝ) ≤ n - 33) (by linarith : (0 : ℝ) ≤ n), mul_nonneg (mul_nonneg (by linarith : (0 : ℝ) ≤ n - 33) (by linarith : (0 : ℝ) ≤ n)) (by linarith : (0 : ℝ) ≤ n)]
  have := C126_crowded ksTest hks K (List.replicate n c) (by rw [List.length_replicate]; omega) (by rw [List.length_replicate]; exact hK) c 0 le_rfl n
    (by rw [List.countP_replicate]; simp) (by rw [List.length_replicate]; exact div_nonneg (by linarith) (by linarith))
    (by rw [List.length_replicate]; exact h29)
  rwa [List.length_replicate] at this

/-- C126 with C124: diehard_birthdays fails every generator of at most 22 bits whose samples all have two repeated spacings or more, as nearly all samples
of a good one have. -/
theorem C126_birthdays (ksTest : Nat) (hks : ksTest ≠ 2) (K : Nat → ℝ → ℝ) (n : Nat) (hn : 33 ≤ n) (hK : ∀ d, 0 ≤ d → ksFinish ksTest n d = .ok (K n d))
    (gammaQ : ℝ → ℝ → ℝ) (e0 : Nat → List ℝ) (he : ∀ k, (e0 k).length = k) (r : Nat) (hr : r ≤ 22) (src : Nat → Src) (ks : Nat → Nat → Nat)
    (hs : ∀ i < n, ∀ t < 100, birthSample ((List.range 512).map fun j => src i (512 * t + j)) = .ok (ks i t) ∧ 2 ≤ ks i t) (fuel : Nat) (hf : 1 ≤ fuel)
    (ps : List ℝ) (hlen : ps.length = n) (hp : ∀ i, ∀ h : i < ps.length, diehardBirthdays gammaQ e0 fuel r (src i) 100 = .ok ps[i]) :
    ∃ p s, kstest K ps n = .ok (p, s) ∧ p < 1e-6 := by
  have h : ps = List.replicate n (gammaQ (1 / 2) (50 * ((1 + 2 ^ (25 - r)) * Real.exp (-2 ^ (25 - r))))) := by
    refine List.ext_getElem (by rw [hlen, List.length_replicate]) fun i h1 h2 => ?_
    have h3 := hp i h1
    rw [C124_diehard_narrow gammaQ e0 he r hr (src i) (ks i) (fun t ht => (hs i (by omega) t ht).1) (fun t ht => (hs i (by omega) t ht).2) fuel hf] at h3
    injection h3 with h3
    rw [List.getElem_replicate, h3]
  rw [h]
  exact C126_constant ksTest hks K n hn hK _

/-- Samples that agree but for `m` of them: sorted, they are interleaved with the distance `m`. -/
theorem sorted_shift (s s' : List ℝ) (hs : s.Pairwise (· ≤ ·)) (hs' : s'.Pairwise (· ≤ ·)) (m : Nat)
    (hm : ∀ t, (s.countP fun x => decide (x ≤ t)) ≤ (s'.countP fun x => decide (x ≤ t)) + m) (i : Nat) (hi : i < s'.length) (him : i + m < s.length) :
    s'[i] ≤ s[i + m] := by
  rw [sorted_le_iff s' hs']
  have h1 := (sorted_le_iff s hs s[i + m] (i + m) him).1 le_rfl
  have := hm s[i + m]
  omega

/-- One side of C126_robust. -/
theorem robust_side (n m : Nat) (s s' : List ℝ) (D D' : ℝ) (hs : s.Pairwise (· ≤ ·)) (hs' : s'.Pairwise (· ≤ ·)) (hn : s.length = n) (hn' : s'.length = n)
    (h01 : ∀ x ∈ s', 0 ≤ x ∧ x ≤ 1) (hm : ∀ t, (s.countP fun x => decide (x ≤ t)) ≤ (s'.countP fun x => decide (x ≤ t)) + m)
    (hm' : ∀ t, (s'.countP fun x => decide (x ≤ t)) ≤ (s.countP fun x => decide (x ≤ t)) + m) (hD : 0 ≤ D)
    (h1 : ∀ j, ∀ hj : j < s.length, |s[j] - ((j + 1 : ℕ) : ℝ) / ((n : ℝ) + 1)| ≤ D)
    (h2 : ∃ j, ∃ hj : j < s'.length, D' = |s'[j] - ((j + 1 : ℕ) : ℝ) / ((n : ℝ) + 1)|) : D' ≤ D + m / ((n : ℝ) + 1) := by
  obtain ⟨j, hj, rfl⟩ := h2
  have hn1 : (0 : ℝ) < n + 1 := by positivity
  have hx := h01 _ (List.getElem_mem hj)
  rw [abs_le]
  constructor
  · by_cases hjm : m ≤ j
    · have e1 := sorted_shift s' s hs' hs m hm' (j - m) (by omega) (by omega)
      have e2 := (abs_le.1 (h1 (j - m) (by omega))).1
      have e3 : (((j - m) + 1 : ℕ) : ℝ) / ((n : ℝ) + 1) = ((j + 1 : ℕ) : ℝ) / ((n : ℝ) + 1) - m / ((n : ℝ) + 1) := by
        rw [← sub_div]
        congr 1
        rw [eq_sub_iff_add_eq]
        exact_mod_cast (by omega : j - m + 1 + m = j + 1)
      have e4 : s'[j - m + m]'(by omega) = s'[j] := by
        congr 1
        omega
      rw [e4] at e1
      linarith
    · have e3 : ((j + 1 : ℕ) : ℝ) / ((n : ℝ) + 1) ≤ m / ((n : ℝ) + 1) := by
        refine div_le_div_of_nonneg_right ?_ hn1.le
        exact_mod_cast (by omega : j + 1 ≤ m)
      linarith [hx.1]
  · by_cases hjm : j + m < n
    · have e1 := sorted_shift s s' hs hs' m hm j hj (by omega)
      have e2 := (abs_le.1 (h1 (j + m) (by omega))).2
      have e3 : (((j + m) + 1 : ℕ) : ℝ) / ((n : ℝ) + 1) = ((j + 1 : ℕ) : ℝ) / ((n : ℝ) + 1) + m / ((n : ℝ) + 1) := by
        rw [← add_div]
        congr 1
        push_cast
        ring
      linarith
    · have e3 : 1 ≤ ((j + 1 : ℕ) : ℝ) / ((n : ℝ) + 1) + m / ((n : ℝ) + 1) := by
        rw [← add_div, le_div_iff₀ hn1, one_mul]
        exact_mod_cast (by omega : n + 1 ≤ j + 1 + m)
      linarith [hx.2]

/-- C126: `m` of `n` p-values, whatever they are changed to, move the distance that kstest finds by at most `m/(n+1)`. -/
theorem C126_robust (K : Nat → ℝ → ℝ) (common bad bad' : List ℝ) (hb : bad.length = bad'.length) (h : 2 ≤ common.length + bad.length)
    (h01 : ∀ x ∈ common ++ (bad ++ bad'), 0 ≤ x ∧ x ≤ 1) (n : Nat) (hn : n = common.length + bad.length) :
    ∃ s D s' D', kstest K (common ++ bad) n = .ok (K n D, s) ∧ kstest K (common ++ bad') n = .ok (K n D', s') ∧ |D' - D| ≤ bad.length / ((n : ℝ) + 1) := by
  have l1 : (common ++ bad).length = n := by rw [List.length_append, hn]
  have l2 : (common ++ bad').length = n := by rw [List.length_append, hn, hb]
  obtain ⟨s, D, a1, a2, a3, a4, a5, a6⟩ := kstest_distance K (common ++ bad) (by omega)
  obtain ⟨s', D', b1, b2, b3, b4, b5, b6⟩ := kstest_distance K (common ++ bad') (by omega)
  rw [l1] at a1 a5 a6
  rw [l2] at b1 b5 b6
  have hm : ∀ t, (s.countP fun x => decide (x ≤ t)) ≤ (s'.countP fun x => decide (x ≤ t)) + bad.length := by
    intro t
    rw [a2.countP_eq, b2.countP_eq, List.countP_append, List.countP_append]
    have := List.countP_le_length (p := fun x => decide (x ≤ t)) (l := bad)
    omega
  have hm' : ∀ t, (s'.countP fun x => decide (x ≤ t)) ≤ (s.countP fun x => decide (x ≤ t)) + bad.length := by
    intro t
    rw [a2.countP_eq, b2.countP_eq, List.countP_append, List.countP_append]
    have := List.countP_le_length (p := fun x => decide (x ≤ t)) (l := bad')
    omega
  have c1 : ∀ x ∈ s, 0 ≤ x ∧ x ≤ 1 := fun x hx => h01 x (by
    have := a2.mem_iff.1 hx
    simp only [List.mem_append] at this ⊢
    tauto)
  have c2 : ∀ x ∈ s', 0 ≤ x ∧ x ≤ 1 := fun x hx => h01 x (by
    have := b2.mem_iff.1 hx
    simp only [List.mem_append] at this ⊢
    tauto)
  have d1 := robust_side n bad.length s s' D D' a3 b3 (by rw [a2.length_eq, l1]) (by rw [b2.length_eq, l2]) c2 hm hm' a4 a5 b6
  have d2 := robust_side n bad.length s' s D' D b3 a3 (by rw [b2.length_eq, l2]) (by rw [a2.length_eq, l1]) c1 hm' hm b4 b5 a6
  refine ⟨s, D, s', D', a1, b1, ?_⟩
  rw [abs_le]
  constructor <;> linarith

/-- There is such a `K` for every -k: the end of kstest always returns for distances from 0 on. -/
theorem ksFinish_total (ksTest n : Nat) (hn : 0 < n) (d : ℝ) (hd : 0 ≤ d) : ∃ p, ksFinish ksTest n d = .ok p := by
  rw [ksFinish]
  split
  · exact ⟨_, rfl⟩
  · by_cases h : ksTest = 2 ∨ (d * d * n ≤ 7.24 ∧ (d * d * n ≤ 3.76 ∨ n ≤ 99))
    · obtain ⟨p, h1, -⟩ := C76_le_one ksEasy ksTest n d hn hd h
      exact ⟨p, h1⟩
    · simp only [not_or, not_and_or, not_le] at h
      exact ⟨_, C76_shortcut ksEasy ksTest n d h.1 (by
        rcases h.2 with h | h
        · exact .inl h
        · exact .inr h)⟩

/-- C126: at the other end, p-values spaced perfectly evenly give 1, but 2 from 5000 of them on if -k is not given. -/
theorem C126_even (ksTest n : Nat) (hn : 2 ≤ n) (K : Nat → ℝ → ℝ) (hK : ∀ d, 0 ≤ d → ksFinish ksTest n d = .ok (K n d)) (xs : List ℝ)
    (h : xs.Perm ((List.range n).map fun i : ℕ => ((i + 1 : ℕ) : ℝ) / (n + 1))) :
    ∃ s, kstest K xs n = .ok (if ksTest = 0 ∧ 5000 ≤ n then 2 else 1, s) := by
  obtain ⟨s, hs⟩ := (C75_even_spacing n hn xs h).1 K
  refine ⟨s, ?_⟩
  have e := hK 0 le_rfl
  rw [ksFinish, (C75_even_spacing n hn xs h).2, C76_small ksEasy ksTest n 0 (by omega) le_rfl (by norm_num)] at e
  have e1 : (1 : ℝ) - n.factorial * max (2 * (0 : ℝ) - 1 / (n : ℝ)) 0 ^ n = 1 := by
    rw [max_eq_right (by have : (0 : ℝ) ≤ 1 / n := by positivity
                         linarith), zero_pow (by omega)]
    ring
  rw [e1] at e
  rw [hs]
  split at e
  · rename_i hc
    rw [if_pos ⟨hc.1, by omega⟩, Res.ok.inj e]
  · rename_i hc
    rw [if_neg (fun h' => hc ⟨h'.1, by omega⟩), Res.ok.inj e]

/-- A hundred p-values of 1/2 each: FAILED, by the program's default settings. -/
example : ∃ K : Nat → ℝ → ℝ, (∀ d, 0 ≤ d → ksFinish 0 100 d = .ok (K 100 d)) ∧
    ∃ p s, kstest K (List.replicate 100 (1 / 2)) 100 = .ok (p, s) ∧ p < 1e-6 := by
  classical
  let K : Nat → ℝ → ℝ := fun n d => if h : 0 < n ∧ 0 ≤ d then (ksFinish_total 0 n h.1 d h.2).choose else 0
  have hK : ∀ d, 0 ≤ d → ksFinish 0 100 d = .ok (K 100 d) := by
    intro d hd
    have e : K 100 d = (ksFinish_total 0 100 (by norm_num) d hd).choose := dif_pos ⟨by norm_num, hd⟩
    rw [e]
    exact (ksFinish_total 0 100 (by norm_num) d hd).choose_spec
  exact ⟨K, hK, C126_constant 0 (by norm_num) K 100 (by norm_num) hK (1 / 2)⟩

end Dh
