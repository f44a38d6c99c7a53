import Verif.Props.KuiperTail
import Verif.Props.KsPower
/-
C137: what the Kuiper test over the p-values (-k 3) always finds.
-/
namespace Dh

open Spec Filter Topology

theorem le_exp_quarter {t : ℝ} (ht : 9.66 ≤ t) : t ≤ Real.exp (0.24 * t) := by
  have h1 := Real.exp_one_gt_d9
  have h2 : (1.1 : ℝ) ≤ Real.exp 0.1 := by
    have := Real.add_one_le_exp (0.1 : ℝ)
    linarith
  have h3 : 1 + 0.24 * (t - 10) ≤ Real.exp (0.24 * (t - 10)) := by
    have := Real.add_one_le_exp (0.24 * (t - 10))
    linarith
  have e : Real.exp (0.24 * t) = Real.exp 1 ^ 2 * Real.exp 0.1 ^ 4 * Real.exp (0.24 * (t - 10)) := by
    rw [← Real.exp_nat_mul, ← Real.exp_nat_mul, ← Real.exp_add, ← Real.exp_add]
    congr 1
    norm_num
    ring
  have h4 : (10.8 : ℝ) ≤ Real.exp 1 ^ 2 * Real.exp 0.1 ^ 4 := by
    calc (10.8 : ℝ) ≤ 2.7182818283 ^ 2 * 1.1 ^ 4 := by norm_num
      _ ≤ _ := mul_le_mul (pow_le_pow_left₀ (by norm_num) h1.le 2) (pow_le_pow_left₀ (by norm_num) h2 4) (by positivity) (by positivity)
  rw [e]
  calc t ≤ 10.8 * (1 + 0.24 * (t - 10)) := by linarith
    _ ≤ _ := mul_le_mul h4 h3 (by linarith) (by positivity)

theorem exp_neg_17 : Real.exp (-17) < 4.2e-8 := by
  rw [show (-17 : ℝ) = (17 : ℕ) * (-1) by norm_num, Real.exp_nat_mul]
  have h1 := Real.exp_neg_one_lt_d9
  have h0 := Real.exp_pos (-1)
  calc Real.exp (-1) ^ 17 ≤ 0.3678794413 ^ 17 := pow_le_pow_left₀ h0.le (by linarith) 17
    _ < 4.2e-8 := by norm_num

theorem kuiperQ_le {x : ℝ} (hx : 3.11 ≤ x) (M : Nat) : kuiperQ x M ≤ 4 * Real.exp (-17) / (1 - Real.exp (-17)) * (1 - Real.exp (-17) ^ M) := by
  have hr := exp_neg_17
  have hr0 := Real.exp_pos (-17)
  induction M with
  | zero => rw [kuiperQ, pow_zero, sub_self, mul_zero]
  | succ M ih =>
    rw [kuiperQ]
    have hM : (1 : ℝ) ≤ (M : ℝ) + 1 := by
      have := M.cast_nonneg (α := ℝ)
      linarith
    obtain ⟨t, ht⟩ : ∃ t, t = (((M + 1) * (M + 1) : Nat) : ℝ) * (x * x) := ⟨_, rfl⟩
    have hxx : 9.66 ≤ x * x := by nlinarith
    have ht' : ((M : ℝ) + 1) * 9.66 ≤ t := by
      rw [ht]
      push_cast
      have : ((M : ℝ) + 1) * 1 ≤ (M + 1) * (M + 1) := mul_le_mul_of_nonneg_left hM (by linarith)
      nlinarith
    have h1 : t ≤ Real.exp (0.24 * t) := le_exp_quarter (by linarith)
    have h2 : (4 * t - 1) * Real.exp (-2 * t) ≤ 4 * Real.exp (-17) ^ (M + 1) := by
      have h3 : (4 * t - 1) * Real.exp (-2 * t) ≤ 4 * Real.exp (0.24 * t) * Real.exp (-2 * t) :=
        mul_le_mul_of_nonneg_right (by linarith) (Real.exp_pos _).le
      refine h3.trans ?_
      rw [mul_assoc, ← Real.exp_add, ← Real.exp_nat_mul]
      refine mul_le_mul_of_nonneg_left (Real.exp_le_exp.2 ?_) (by norm_num)
      push_cast
      linarith
    have e : (4 * (((M + 1) * (M + 1) : Nat) : ℝ) * (x * x) - 1) * Real.exp (-2 * (((M + 1) * (M + 1) : Nat) : ℝ) * (x * x)) = (4 * t - 1) * Real.exp (-2 * t) := by
      rw [ht, mul_assoc, mul_assoc]
    rw [e]
    have e2 : 4 * Real.exp (-17) / (1 - Real.exp (-17)) * (1 - Real.exp (-17) ^ (M + 1)) =
        4 * Real.exp (-17) / (1 - Real.exp (-17)) * (1 - Real.exp (-17) ^ M) + 4 * Real.exp (-17) ^ (M + 1) := by
      have : 1 - Real.exp (-17) ≠ 0 := by linarith
      field_simp
      ring
    rw [e2]
    linarith

/-- C137: the tail of Kuiper's limit distribution is below a millionth from 3.11 on. -/
theorem C137_tail {x : ℝ} (hx : 3.11 ≤ x) : kuiperSf x < 1e-6 := by
  have hr := exp_neg_17
  have hr0 := Real.exp_pos (-17)
  have h := C116_distribution.1 x (by linarith)
  have hC : 8 * Real.exp (-17) / (1 - Real.exp (-17)) < 1e-6 := by
    rw [div_lt_iff₀ (by linarith)]
    linarith
  refine lt_of_le_of_lt (le_of_tendsto' h fun M => ?_) hC
  have h1 := kuiperQ_le hx M
  have h2 : 4 * Real.exp (-17) / (1 - Real.exp (-17)) * (1 - Real.exp (-17) ^ M) ≤ 4 * Real.exp (-17) / (1 - Real.exp (-17)) := by
    refine mul_le_of_le_one_right (div_nonneg (by linarith) (by linarith)) ?_
    have := pow_pos hr0 M
    linarith
  have e : 8 * Real.exp (-17) / (1 - Real.exp (-17)) = 2 * (4 * Real.exp (-17) / (1 - Real.exp (-17))) := by ring
  rw [e]
  linarith

/-- C137: with -k 3, if `k` of the `n` p-values of a test lie in an interval of length `l`, then the statistic is at least `(k-1)/n - l`. -/
theorem C137_statistic (Q : Nat → ℝ → ℝ) (xs : List ℝ) (h : 2 ≤ xs.length) (a l : ℝ) (hl : 0 ≤ l) (k : Nat)
    (hk : k ≤ xs.countP fun x => decide (a ≤ x ∧ x ≤ a + l)) :
    ∃ s W, kstestKuiper Q xs xs.length = .ok (Q xs.length W, s) ∧ 0 ≤ W ∧ ((k : ℝ) - 1) / xs.length - l ≤ W := by
  obtain ⟨s, lo, hi, h1, h2, h3, hg, hle, -⟩ := C17_kuiper_statistic Q xs h
  have h0 : 0 ≤ hi - lo := by
    have a1 := hg.2 (Or.inl rfl)
    have a2 := hle.2 (Or.inl rfl)
    linarith
  refine ⟨s, hi - lo, h1, h0, ?_⟩
  have hlen := h2.length_eq
  have hn : (0 : ℝ) < xs.length := by exact_mod_cast (by omega : 0 < xs.length)
  by_cases hk0 : k = 0
  · subst hk0
    have : (((0 : Nat) : ℝ) - 1) / xs.length ≤ 0 := div_nonpos_of_nonpos_of_nonneg (by norm_num) hn.le
    linarith
  rw [← h2.countP_eq] at hk
  have hpq := countP_interval s a l hl
  obtain ⟨p, hp⟩ : ∃ p, p = s.countP fun x => decide (x < a) := ⟨_, rfl⟩
  have hq := List.countP_le_length (p := fun x => decide (x ≤ a + l)) (l := s)
  have b1 : p < s.length := by omega
  have b2 : p + k - 1 < s.length := by omega
  have c1 : a ≤ s[p] := (sorted_ge_iff s h3 a p b1).2 (by omega)
  have c2 : s[p + k - 1] ≤ a + l := (sorted_le_iff s h3 (a + l) (p + k - 1) b2).2 (by omega)
  have d1 := hg.2 (Or.inr ⟨p, b1, rfl⟩)
  have d2 := hle.2 (Or.inr ⟨p + k - 1, b2, rfl⟩)
  have e : ((p + k - 1 : Nat) : ℝ) / xs.length = p / xs.length + ((k : ℝ) - 1) / xs.length := by
    rw [← add_div]
    congr 1
    rw [Nat.add_sub_assoc (by omega), Nat.cast_add, Nat.cast_sub (by omega), Nat.cast_one]
  rw [e] at d2
  linarith

/-- C137: with -k 3, if `k` of the `n` p-values of a test lie in an interval of length `l` and `n ((k-1)/n - l)² ≥ 9.6721`, the final p-value is below
0.000001 (and possibly negative). -/
theorem C137_crowded (Q : Nat → ℝ → ℝ) (hQ : ∀ n v, 0 < v → Tendsto (fun q : Nat × Nat => qKsKuiper (kuiperX n v) n q.1 q.2) atTop (𝓝 (Q n v)))
    (xs : List ℝ) (h : 2 ≤ xs.length) (a l : ℝ) (hl : 0 ≤ l) (k : Nat) (hk : k ≤ xs.countP fun x => decide (a ≤ x ∧ x ≤ a + l))
    (hpos : l ≤ ((k : ℝ) - 1) / xs.length) (hbig : 9.6721 ≤ xs.length * (((k : ℝ) - 1) / xs.length - l) ^ 2) :
    ∃ p s, kstestKuiper Q xs xs.length = .ok (p, s) ∧ p < 1e-6 := by
  obtain ⟨s, W, h1, h2, h3⟩ := C137_statistic Q xs h a l hl k hk
  refine ⟨_, s, h1, ?_⟩
  have hn : (0 : ℝ) < xs.length := by exact_mod_cast (by omega : 0 < xs.length)
  have hsq := Real.sqrt_pos.2 hn
  have hx1 : 3.11 ≤ Real.sqrt xs.length * W := by
    have h4 : (((k : ℝ) - 1) / xs.length - l) ^ 2 ≤ W ^ 2 := pow_le_pow_left₀ (by linarith) h3 2
    refine abs_le_of_sq_le_sq' ?_ (mul_nonneg hsq.le h2) |>.2
    rw [mul_pow, Real.sq_sqrt hn.le]
    calc (3.11 : ℝ) ^ 2 ≤ 9.6721 := by norm_num
      _ ≤ _ := hbig.trans (mul_le_mul_of_nonneg_left h4 hn.le)
  have hW : 0 < W := by
    by_contra hc
    have : W = 0 := le_antisymm (not_lt.1 hc) h2
    rw [this, mul_zero] at hx1
    norm_num at hx1
  have hx2 : 3.11 ≤ kuiperX xs.length W := by
    rw [kuiperX]
    refine hx1.trans (mul_le_mul_of_nonneg_right ?_ h2)
    have : 0 < 0.24 / Real.sqrt xs.length := by positivity
    linarith
  obtain ⟨p, hp1, hp2, -⟩ := C116_below (x := kuiperX xs.length W) (by linarith) xs.length (by omega)
  rw [tendsto_nhds_unique (hQ xs.length W hW) hp1]
  exact hp2.trans (C137_tail hx2)

namespace Spec

/-- All p-values are at most 0.0004; the final p-value of 33 of them or more is below 0.000001 with -k 0 and 1, and that of 12 or more with -k 3. -/
def FailsLow (ps : List ℝ) : Prop :=
  (∀ p ∈ ps, 0 ≤ p ∧ p ≤ 0.0004) ∧
  (33 ≤ ps.length → ∀ ksTest, ksTest ≠ 2 → ∀ K : Nat → ℝ → ℝ, (∀ d, 0 ≤ d → ksFinish ksTest ps.length d = .ok (K ps.length d)) →
    ∃ p s, kstest K ps ps.length = .ok (p, s) ∧ p < 1e-6) ∧
  (12 ≤ ps.length → ∀ Q : Nat → ℝ → ℝ, (∀ n v, 0 < v → Tendsto (fun q : Nat × Nat => qKsKuiper (kuiperX n v) n q.1 q.2) atTop (𝓝 (Q n v))) →
    ∃ p s, kstestKuiper Q ps ps.length = .ok (p, s) ∧ p < 1e-6)

end Spec

/-- C137: p-values of at most 0.0004 throughout are a failure, with -k 3 from 12 psamples on. -/
theorem C137_low (ps : List ℝ) (h : ∀ p ∈ ps, 0 ≤ p ∧ p ≤ 0.0004) : Spec.FailsLow ps := by
  have hall : ps.countP (fun x => decide (0 ≤ x ∧ x ≤ 0 + 0.0004)) = ps.length := by
    refine List.countP_eq_length.2 fun x hxm => ?_
    rw [decide_eq_true_iff, zero_add]
    exact h x hxm
  refine ⟨h, fun hm ksTest hks K hK => ?_, fun hm Q hQ => ?_⟩
  · have hm' : (33 : ℝ) ≤ ps.length := by exact_mod_cast hm
    have e : ((ps.length : ℝ) - 1) / (ps.length + 1) = 1 - 2 / (ps.length + 1) := by
      field_simp
      ring
    have h2 : 2 / ((ps.length : ℝ) + 1) ≤ 2 / 34 := by
      apply div_le_div_of_nonneg_left <;> linarith
    refine C126_crowded ksTest hks K ps (by omega) hK 0 0.0004 (by norm_num) ps.length (by rw [hall]) (by rw [e]; linarith) ?_
    rw [e]
    have h3 : (0.9407 : ℝ) ≤ 1 - 2 / (ps.length + 1) - 0.0004 := by linarith
    nlinarith
  · have hm' : (12 : ℝ) ≤ ps.length := by exact_mod_cast hm
    have e : ((ps.length : ℝ) - 1) / ps.length = 1 - 1 / ps.length := by
      field_simp
    have h2 : 1 / (ps.length : ℝ) ≤ 1 / 12 := by
      apply div_le_div_of_nonneg_left <;> linarith
    refine C137_crowded Q hQ ps (by omega) 0 0.0004 (by norm_num) ps.length (by rw [hall]) (by rw [e]; linarith) ?_
    rw [e]
    have h3 : (0.9162 : ℝ) ≤ 1 - 1 / ps.length - 0.0004 := by linarith
    nlinarith

/-- With -k 3, 33 equal p-values among 100 are a failure, whatever the others are. -/
example (rest : List ℝ) (hr : rest.length = 67) : ∃ Q : Nat → ℝ → ℝ,
    (∀ n v, 0 < v → Tendsto (fun q : Nat × Nat => qKsKuiper (kuiperX n v) n q.1 q.2) atTop (𝓝 (Q n v))) ∧
    ∃ p s, kstestKuiper Q (List.replicate 33 0.3 ++ rest) 100 = .ok (p, s) ∧ p < 1e-6 := by
  refine ⟨fun n v => Spec.kuiperSf (kuiperX n v) + deriv Spec.kuiperSf (kuiperX n v) / (3 * Real.sqrt n), fun n v hv => (C116_value (kuiperX_pos n hv) n).2, ?_⟩
  have hl : (List.replicate 33 (0.3 : ℝ) ++ rest).length = 100 := by rw [List.length_append, List.length_replicate, hr]
  have := C137_crowded (fun n v => Spec.kuiperSf (kuiperX n v) + deriv Spec.kuiperSf (kuiperX n v) / (3 * Real.sqrt n))
    (fun n v hv => (C116_value (kuiperX_pos n hv) n).2) (List.replicate 33 0.3 ++ rest) (by omega) 0.3 0 le_rfl 33
    (by
      rw [List.countP_append, List.countP_replicate, if_pos (by rw [decide_eq_true_iff]; exact ⟨le_rfl, by norm_num⟩)]
      omega) (by rw [hl]; norm_num) (by rw [hl]; norm_num)
  rwa [hl] at this

end Dh
