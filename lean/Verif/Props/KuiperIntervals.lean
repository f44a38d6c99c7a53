import Verif.Props.Kuiper
import Verif.Props.KuiperPower

/-!
C159: what Kuiper's statistic answers to, and how far a few p-values can move it.  `kstest_kuiper` (libdieharder/kstest.c)
is the second of the two ways in which a test's p-values become one; C126 says the same about `kstest`.
-/

namespace Dh

open Filter Topology

/-- The values in `(a, b]` are those up to `b` less those up to `a`. -/
theorem countP_between (xs : List ℝ) {a b : ℝ} (hab : a ≤ b) :
    (xs.countP fun u => decide (u ≤ b)) = (xs.countP fun u => decide (u ≤ a)) + (xs.countP fun u => decide (a < u ∧ u ≤ b)) := by
  induction xs with
  | nil => rfl
  | cons u t ih =>
    simp only [List.countP_cons, ih, decide_eq_true_eq]
    by_cases h1 : u ≤ a
    · have h2 : u ≤ b := h1.trans hab
      have h3 : ¬(a < u ∧ u ≤ b) := fun h => absurd h.1 (not_lt.2 h1)
      rw [if_pos h2, if_pos h1, if_neg h3]
      omega
    · by_cases h2 : u ≤ b
      · have h3 : a < u ∧ u ≤ b := ⟨not_le.1 h1, h2⟩
        rw [if_pos h2, if_neg h1, if_pos h3]
        omega
      · have h3 : ¬(a < u ∧ u ≤ b) := fun h => h2 h.2
        rw [if_neg h2, if_neg h1, if_neg h3]
        omega

/-- Two samples that differ in `m` of their values differ by at most `m` in any interval. -/
theorem edf_moved (common bad bad' : List ℝ) (hb : bad.length = bad'.length) (hn : 0 < common.length + bad.length) (x y : ℝ) :
    (Spec.edf (common ++ bad') x - Spec.edf (common ++ bad') y) - (Spec.edf (common ++ bad) x - Spec.edf (common ++ bad) y)
      ≤ (bad.length : ℝ) / ((common.length + bad.length : ℕ) : ℝ) := by
  have hnR : (0 : ℝ) < ((common.length + bad.length : ℕ) : ℝ) := by exact_mod_cast hn
  have l1 : (common ++ bad).length = common.length + bad.length := List.length_append
  have l2 : (common ++ bad').length = common.length + bad.length := by rw [List.length_append, hb]
  unfold Spec.edf
  rw [l1, l2, ← sub_div, ← sub_div, ← sub_div]
  refine div_le_div_of_nonneg_right ?_ hnR.le
  simp only [List.countP_append, Nat.cast_add]
  rcases le_total x y with h | h
  · have e1 := countP_between bad h
    have e2 := countP_between bad' h
    have e3 := List.countP_le_length (p := fun u => decide (x < u ∧ u ≤ y)) (l := bad)
    have e1' : ((bad.countP fun u => decide (u ≤ y) : ℕ) : ℝ) = (bad.countP fun u => decide (u ≤ x) : ℕ) + (bad.countP fun u => decide (x < u ∧ u ≤ y) : ℕ) := by exact_mod_cast e1
    have e2' : ((bad'.countP fun u => decide (u ≤ y) : ℕ) : ℝ) = (bad'.countP fun u => decide (u ≤ x) : ℕ) + (bad'.countP fun u => decide (x < u ∧ u ≤ y) : ℕ) := by exact_mod_cast e2
    have e3' : ((bad.countP fun u => decide (x < u ∧ u ≤ y) : ℕ) : ℝ) ≤ bad.length := by exact_mod_cast e3
    have e4 : (0 : ℝ) ≤ (bad'.countP fun u => decide (x < u ∧ u ≤ y) : ℕ) := Nat.cast_nonneg _
    linarith
  · have e1 := countP_between bad h
    have e2 := countP_between bad' h
    have e3 := List.countP_le_length (p := fun u => decide (y < u ∧ u ≤ x)) (l := bad')
    rw [← hb] at e3
    have e1' : ((bad.countP fun u => decide (u ≤ x) : ℕ) : ℝ) = (bad.countP fun u => decide (u ≤ y) : ℕ) + (bad.countP fun u => decide (y < u ∧ u ≤ x) : ℕ) := by exact_mod_cast e1
    have e2' : ((bad'.countP fun u => decide (u ≤ x) : ℕ) : ℝ) = (bad'.countP fun u => decide (u ≤ y) : ℕ) + (bad'.countP fun u => decide (y < u ∧ u ≤ x) : ℕ) := by exact_mod_cast e2
    have e3' : ((bad'.countP fun u => decide (y < u ∧ u ≤ x) : ℕ) : ℝ) ≤ bad.length := by exact_mod_cast e3
    have e4 : (0 : ℝ) ≤ (bad.countP fun u => decide (y < u ∧ u ≤ x) : ℕ) := Nat.cast_nonneg _
    linarith

/-- One side of C159_robust. -/
theorem kuiper_moved (common bad bad' : List ℝ) (hb : bad.length = bad'.length) (hn : 0 < common.length + bad.length) (V V' : ℝ)
    (h : IsLUB (Spec.kuiperGaps (common ++ bad)) V) (h' : IsLUB (Spec.kuiperGaps (common ++ bad')) V') :
    V' ≤ V + (bad.length : ℝ) / ((common.length + bad.length : ℕ) : ℝ) := by
  refine h'.2 ?_
  rintro d ⟨x, y, hx, hy, rfl⟩
  have e1 := h.1 ⟨x, y, hx, hy, rfl⟩
  have e2 := edf_moved common bad bad' hb hn x y
  linarith

/-- C159: `kstest_kuiper` answers to every interval.  If `k` of the `n` p-values lie in `(a, b]`, the statistic is at
least the difference between `k/n` and the length of the interval, less `1/n`: too many p-values in a short interval
and too few in a long one both count, wherever the interval lies. -/
theorem C159_interval (Q : Nat → ℝ → ℝ) (xs : List ℝ) (h : 2 ≤ xs.length) (hx : ∀ x ∈ xs, 0 ≤ x ∧ x < 1) (a b : ℝ) (ha : 0 ≤ a)
    (hab : a ≤ b) (hb : b < 1) :
    ∃ s W, kstestKuiper Q xs xs.length = .ok (Q xs.length W, s) ∧
      |((xs.countP fun u => decide (a < u ∧ u ≤ b) : ℕ) : ℝ) / (xs.length : ℝ) - (b - a)| ≤ W + 1 / (xs.length : ℝ) := by
  obtain ⟨s, V, W, m, hrun, -, -, hV, -, -, -, hVW⟩ := C111_statistic Q xs h hx
  refine ⟨s, W, hrun, le_trans ?_ hVW⟩
  have g1 := hV.1 ⟨b, a, ⟨ha.trans hab, hb⟩, ⟨ha, lt_of_le_of_lt hab hb⟩, rfl⟩
  have g2 := hV.1 ⟨a, b, ⟨ha, lt_of_le_of_lt hab hb⟩, ⟨ha.trans hab, hb⟩, rfl⟩
  have e : Spec.edf xs b = Spec.edf xs a + ((xs.countP fun u => decide (a < u ∧ u ≤ b) : ℕ) : ℝ) / (xs.length : ℝ) := by
    unfold Spec.edf
    rw [countP_between xs hab, Nat.cast_add, add_div]
  rw [abs_le]
  constructor <;> linarith

/-- C159: with -k 3, if the share of the p-values in `(a, b]` and the length of the interval differ by `1/n + w` or
more and `n w² ≥ 9.6721`, the final p-value is below 0.000001.  C137 says so for too many p-values; here are too few
as well. -/
theorem C159_fails (Q : Nat → ℝ → ℝ) (hQ : ∀ n v, 0 < v → Tendsto (fun q : Nat × Nat => qKsKuiper (kuiperX n v) n q.1 q.2) atTop (𝓝 (Q n v)))
    (xs : List ℝ) (h : 2 ≤ xs.length) (hx : ∀ x ∈ xs, 0 ≤ x ∧ x < 1) (a b w : ℝ) (ha : 0 ≤ a) (hab : a ≤ b) (hb : b < 1) (hw : 0 ≤ w)
    (hd : 1 / (xs.length : ℝ) + w ≤ |((xs.countP fun u => decide (a < u ∧ u ≤ b) : ℕ) : ℝ) / (xs.length : ℝ) - (b - a)|)
    (hbig : 9.6721 ≤ xs.length * w ^ 2) : ∃ p s, kstestKuiper Q xs xs.length = .ok (p, s) ∧ p < 1e-6 := by
  obtain ⟨s, W, h1, h2⟩ := C159_interval Q xs h hx a b ha hab hb
  refine ⟨_, s, h1, ?_⟩
  have h3 : w ≤ W := by linarith
  have hn : (0 : ℝ) < xs.length := by exact_mod_cast (by omega : 0 < xs.length)
  have hsq := Real.sqrt_pos.2 hn
  have hW0 : 0 ≤ W := hw.trans h3
  have hx1 : 3.11 ≤ Real.sqrt xs.length * W := by
    have h4 : w ^ 2 ≤ W ^ 2 := pow_le_pow_left₀ hw h3 2
    refine abs_le_of_sq_le_sq' ?_ (mul_nonneg hsq.le hW0) |>.2
    rw [mul_pow, Real.sq_sqrt hn.le]
    calc (3.11 : ℝ) ^ 2 ≤ 9.6721 := by norm_num
      _ ≤ _ := hbig.trans (mul_le_mul_of_nonneg_left h4 hn.le)
  have hW : 0 < W := by
    by_contra hc
    have : W = 0 := le_antisymm (not_lt.1 hc) hW0
    rw [this, mul_zero] at hx1
    norm_num at hx1
  have hx2 : 3.11 ≤ kuiperX xs.length W := by
    rw [kuiperX]
    refine hx1.trans (mul_le_mul_of_nonneg_right ?_ hW0)
    have : 0 < 0.24 / Real.sqrt xs.length := by positivity
    linarith
  obtain ⟨p, hp1, hp2, -⟩ := C116_below (x := kuiperX xs.length W) (by linarith) xs.length (by omega)
  rw [tendsto_nhds_unique (hQ xs.length W hW) hp1]
  exact hp2.trans (C137_tail hx2)

/-- C159: changing `m` of the `n` p-values, to whatever values, moves Kuiper's statistic by at most `m/n`, and the
statistic that `kstest_kuiper` forms by at most `(m+1)/n`. -/
theorem C159_robust (Q : Nat → ℝ → ℝ) (common bad bad' : List ℝ) (hb : bad.length = bad'.length)
    (h : 2 ≤ common.length + bad.length) (h01 : ∀ x ∈ common ++ (bad ++ bad'), 0 ≤ x ∧ x < 1) (n : Nat)
    (hn : n = common.length + bad.length) :
    ∃ s V W s' V' W', kstestKuiper Q (common ++ bad) n = .ok (Q n W, s) ∧ kstestKuiper Q (common ++ bad') n = .ok (Q n W', s') ∧
      IsLUB (Spec.kuiperGaps (common ++ bad)) V ∧ IsLUB (Spec.kuiperGaps (common ++ bad')) V' ∧
      |V' - V| ≤ (bad.length : ℝ) / n ∧ |W' - W| ≤ ((bad.length : ℝ) + 1) / n := by
  have l1 : (common ++ bad).length = n := by rw [List.length_append, hn]
  have l2 : (common ++ bad').length = n := by rw [List.length_append, hn, hb]
  obtain ⟨s, V, W, m, r1, -, -, v1, -, -, w1, w2⟩ := C111_statistic Q (common ++ bad) (by omega) (fun x hx => h01 x (by
    simp only [List.mem_append] at hx ⊢
    tauto))
  obtain ⟨s', V', W', m', r2, -, -, v2, -, -, w3, w4⟩ := C111_statistic Q (common ++ bad') (by omega) (fun x hx => h01 x (by
    simp only [List.mem_append] at hx ⊢
    tauto))
  rw [l1] at r1 w2
  rw [l2] at r2 w4
  have k1 := kuiper_moved common bad bad' hb (by omega) V V' v1 v2
  have k2 := kuiper_moved common bad' bad hb.symm (by omega) V' V v2 v1
  rw [← hb] at k2
  rw [← hn] at k1 k2
  refine ⟨s, V, W, s', V', W', r1, r2, v1, v2, ?_, ?_⟩
  · rw [abs_le]
    constructor <;> linarith
  · rw [add_div, abs_le]
    constructor <;> linarith

/-- Ten p-values, seven of them in `(0.4, 0.5]`: the statistic is at least 0.5. -/
example (Q : Nat → ℝ → ℝ) : ∃ s W, kstestKuiper Q [0.1, 0.41, 0.42, 0.43, 0.44, 0.45, 0.46, 0.47, 0.6, 0.9] 10 = .ok (Q 10 W, s) ∧ 0.5 ≤ W := by
  obtain ⟨s, W, h1, h2⟩ := C159_interval Q [0.1, 0.41, 0.42, 0.43, 0.44, 0.45, 0.46, 0.47, 0.6, 0.9] (by simp) (by
    intro x hx
    simp only [List.mem_cons, List.not_mem_nil, or_false] at hx
    rcases hx with rfl | rfl | rfl | rfl | rfl | rfl | rfl | rfl | rfl | rfl <;> norm_num) 0.4 0.5 (by norm_num) (by norm_num) (by norm_num)
  refine ⟨s, W, h1, ?_⟩
  have h3 := (abs_le.1 h2).2
  norm_num [List.countP_cons] at h3
  linarith

/-- 100 p-values, none of them in `(0.3, 0.63]`. -/
example (Q : Nat → ℝ → ℝ) (hQ : ∀ n v, 0 < v → Tendsto (fun q : Nat × Nat => qKsKuiper (kuiperX n v) n q.1 q.2) atTop (𝓝 (Q n v)))
    (xs : List ℝ) (h : xs.length = 100) (hx : ∀ x ∈ xs, (0 ≤ x ∧ x ≤ 0.3) ∨ (0.63 < x ∧ x < 1)) :
    ∃ p s, kstestKuiper Q xs xs.length = .ok (p, s) ∧ p < 1e-6 := by
  have h0 : (xs.countP fun u => decide ((0.3 : ℝ) < u ∧ u ≤ 0.63)) = 0 := by
    refine List.countP_eq_zero.2 fun x hm hc => ?_
    have hc := decide_eq_true_iff.1 hc
    rcases hx x hm with h | h <;> linarith [hc.1, hc.2, h.1, h.2]
  refine C159_fails Q hQ xs (by omega) (fun x hm => ?_) 0.3 0.63 0.32 (by norm_num) (by norm_num) (by norm_num) (by norm_num) ?_ ?_
  · rcases hx x hm with h | h <;> constructor <;> linarith [h.1, h.2]
  · rw [h0, h]
    norm_num [abs_of_neg]
  · rw [h]
    norm_num

/-- One of five p-values changed. -/
example (Q : Nat → ℝ → ℝ) : ∃ s V W s' V' W', kstestKuiper Q ([0.1, 0.3, 0.5, 0.7] ++ [0.9]) 5 = .ok (Q 5 W, s) ∧
    kstestKuiper Q ([0.1, 0.3, 0.5, 0.7] ++ [0]) 5 = .ok (Q 5 W', s') ∧
    IsLUB (Spec.kuiperGaps ([0.1, 0.3, 0.5, 0.7] ++ [0.9])) V ∧ IsLUB (Spec.kuiperGaps ([0.1, 0.3, 0.5, 0.7] ++ [0])) V' ∧
    |V' - V| ≤ (1 : ℕ) / (5 : ℕ) ∧ |W' - W| ≤ ((1 : ℕ) + 1) / (5 : ℕ) :=
  C159_robust Q [0.1, 0.3, 0.5, 0.7] [0.9] [0] rfl (by simp) (by
    intro x hx
    simp only [List.cons_append, List.nil_append, List.mem_cons, List.not_mem_nil, or_false] at hx
    rcases hx with rfl | rfl | rfl | rfl | rfl | rfl <;> norm_num) 5 rfl

end Dh
