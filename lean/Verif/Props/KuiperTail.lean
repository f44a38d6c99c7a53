import Verif.Model.KuiperTail
import Verif.Spec.KuiperLimit
import Verif.Proof.KuiperSeries
import Verif.Props.Kstest
/-
Property C116: the tail function of the Kuiper test.
-/
namespace Dh
open Filter Topology Real Ku

theorem kuiperQ_sum (x : ℝ) : ∀ M, kuiperQ x M = -∑ n ∈ Finset.range M, a1 n x
  | 0 => by simp [kuiperQ]
  | M + 1 => by
    rw [kuiperQ, kuiperQ_sum x M, Finset.sum_range_succ, a1]
    push_cast
    rw [show -2 * (((M : ℝ) + 1) * ((M : ℝ) + 1)) * (x * x) = -2 * ((M : ℝ) + 1) ^ 2 * x ^ 2 by ring]
    ring

theorem kuiperP_sum (x : ℝ) : ∀ M, 4 * x * kuiperP x M = ∑ n ∈ Finset.range M, a2 n x
  | 0 => by simp [kuiperP]
  | M + 1 => by
    rw [kuiperP, mul_add, kuiperP_sum x M, Finset.sum_range_succ, a2]
    push_cast
    rw [show -2 * (((M : ℝ) + 1) * ((M : ℝ) + 1)) * (x * x) = -2 * ((M : ℝ) + 1) ^ 2 * x ^ 2 by ring]
    ring

theorem kuiperSf_eq {x : ℝ} (hx : 0 < x) : Spec.kuiperSf x = KQ x := by
  have h := theta1 hx
  have e : Real.sqrt (2 * π) = 2 * Real.sqrt (π / 2) := by
    rw [show 2 * π = 2 ^ 2 * (π / 2) by ring, Real.sqrt_mul (by norm_num), Real.sqrt_sq (by norm_num)]
  have e2 : B1 x = ∑' m : ℕ, π ^ 2 * ((m : ℝ) + 1) ^ 2 / x ^ 3 * Real.exp (-(π ^ 2 * ((m : ℝ) + 1) ^ 2 / (2 * x ^ 2))) := by
    rw [B1]
    refine tsum_congr fun n => ?_
    rw [b1, div_eq_mul_inv (π ^ 2 * ((n : ℝ) + 1) ^ 2)]
    congr 2
    field_simp
  rw [Spec.kuiperSf, ← e2, e, KQ]
  linarith

theorem kuiperSf_deriv {x : ℝ} (hx : 0 < x) : HasDerivAt Spec.kuiperSf (-2 * A2 x) x := by
  refine (KQ_deriv hx).congr_of_eventuallyEq ?_
  filter_upwards [Ioi_mem_nhds hx] with y hy using kuiperSf_eq hy

theorem qKs_tendsto {x : ℝ} (hx : 0 < x) (count : Nat) : Tendsto (fun p : Nat × Nat => qKsKuiper x count p.1 p.2) atTop
    (𝓝 (KQ x - 2 * A2 x / (3 * Real.sqrt count))) := by
  have h1 := (a_summable hx).2.1.hasSum.tendsto_sum_nat
  have h2 := (a_summable hx).2.2.hasSum.tendsto_sum_nat
  have e : (fun p : Nat × Nat => qKsKuiper x count p.1 p.2) = fun p : Nat × Nat =>
      -2 * (∑ n ∈ Finset.range p.1, a1 n x) - 2 * (∑ n ∈ Finset.range p.2, a2 n x) / (3 * Real.sqrt count) := by
    funext p
    rw [qKsKuiper, kuiperQ_sum, ← kuiperP_sum]
    ring
  rw [e, ← prod_atTop_atTop_eq]
  exact ((h1.comp tendsto_fst).const_mul (-2)).sub (((h2.comp tendsto_snd).const_mul 2).div_const _)

/-- **C116.** The value of `q_ks_kuiper` (the loops carried to the limit) is the tail of Kuiper's limit distribution plus its derivative
over `3 sqrt(count)`: the tail at `x + 1/(3 sqrt(count))` to first order. -/
theorem C116_value {x : ℝ} (hx : 0 < x) (count : Nat) : DifferentiableAt ℝ Spec.kuiperSf x ∧
    Tendsto (fun p : Nat × Nat => qKsKuiper x count p.1 p.2) atTop
      (𝓝 (Spec.kuiperSf x + deriv Spec.kuiperSf x / (3 * Real.sqrt count))) := by
  refine ⟨(kuiperSf_deriv hx).differentiableAt, ?_⟩
  rw [kuiperSf_eq hx, (kuiperSf_deriv hx).deriv]
  convert qKs_tendsto hx count using 2
  ring

/-- **C116.** The first loop computes a true tail function: it decreases from 1 to 0. -/
theorem C116_distribution : (∀ x, 0 < x → Tendsto (fun M => 2 * kuiperQ x M) atTop (𝓝 (Spec.kuiperSf x))) ∧
    StrictAntiOn Spec.kuiperSf (Set.Ioi 0) ∧ Tendsto Spec.kuiperSf (𝓝[>] 0) (𝓝 1) ∧ Tendsto Spec.kuiperSf atTop (𝓝 0) ∧
    ∀ x, 0 < x → 0 < Spec.kuiperSf x ∧ Spec.kuiperSf x < 1 := by
  refine ⟨fun x hx => ?_, ?_, ?_, ?_, fun x hx => ?_⟩
  · have h1 := (a_summable hx).2.1.hasSum.tendsto_sum_nat
    rw [kuiperSf_eq hx]
    refine (h1.const_mul (-2)).congr fun M => ?_
    rw [kuiperQ_sum]
    ring
  · intro x hx y hy h
    rw [kuiperSf_eq hx, kuiperSf_eq hy]
    exact KQ_anti hx hy h
  · refine KQ_tendsto_one.congr' ?_
    filter_upwards [self_mem_nhdsWithin] with x hx using (kuiperSf_eq hx).symm
  · refine KQ_tendsto.congr' ?_
    filter_upwards [eventually_gt_atTop 0] with x hx using (kuiperSf_eq hx).symm
  · rw [kuiperSf_eq hx]
    exact ⟨KQ_pos hx, KQ_lt_one hx⟩

/-- **C116.** The returned value is below the tail, so below 1. -/
theorem C116_below {x : ℝ} (hx : 0 < x) (count : Nat) (hc : 0 < count) :
    ∃ p, Tendsto (fun q : Nat × Nat => qKsKuiper x count q.1 q.2) atTop (𝓝 p) ∧ p < Spec.kuiperSf x ∧ p < 1 := by
  have h : 0 < 2 * A2 x / (3 * Real.sqrt count) :=
    div_pos (by linarith [A2_pos hx]) (mul_pos (by norm_num) (Real.sqrt_pos.2 (by exact_mod_cast hc)))
  refine ⟨_, qKs_tendsto hx count, ?_, ?_⟩
  · rw [kuiperSf_eq hx]
    linarith
  · linarith [KQ_lt_one hx]

/-- **C116.** But it is negative for large statistics: whenever `x` is at least 1.99 and at least `0.89 sqrt(count)`. -/
theorem C116_negative {x : ℝ} (count : Nat) (hc : 0 < count) (h1 : 1.99 ≤ x) (h2 : 0.89 * Real.sqrt count ≤ x) :
    ∃ p, Tendsto (fun q : Nat × Nat => qKsKuiper x count q.1 q.2) atTop (𝓝 p) ∧ p < 0 := by
  have hx : 0 < x := by linarith
  have hs : 0 < Real.sqrt count := Real.sqrt_pos.2 (by exact_mod_cast hc)
  refine ⟨_, qKs_tendsto hx count, ?_⟩
  set s := Real.sqrt count
  have hsum : Summable fun n => 3 * s * (-a1 n x) - a2 n x := ((a_summable hx).2.1.neg.mul_left (3 * s)).sub (a_summable hx).2.2
  have hneg : ∀ n, 3 * s * (-a1 n x) - a2 n x < 0 := by
    intro n
    have hn : (0 : ℝ) ≤ n := n.cast_nonneg
    rw [a1, a2]
    set E := Real.exp (-2 * ((n : ℝ) + 1) ^ 2 * x ^ 2)
    have hE : 0 < E := Real.exp_pos _
    set M := ((n : ℝ) + 1) ^ 2 with hM
    have hM1 : 1 ≤ M := by rw [hM]; nlinarith
    have hX : 15.84 ≤ 4 * x ^ 2 := by nlinarith
    have hMX : 15.84 ≤ 4 * M * x ^ 2 := by nlinarith
    have e : 3 * s * (-((1 - 4 * M * x ^ 2) * E)) - 4 * x * (M * (4 * M * x ^ 2 - 3)) * E =
        (3 * s * (4 * M * x ^ 2 - 1) - 4 * x * (M * (4 * M * x ^ 2 - 3))) * E := by ring
    rw [e]
    refine mul_neg_of_neg_of_pos ?_ hE
    have k1 : 4 * M * x ^ 2 - 3 ≤ M * (4 * M * x ^ 2 - 3) := by nlinarith
    have k2 : 4 * (0.89 * s) * (4 * M * x ^ 2 - 3) ≤ 4 * x * (M * (4 * M * x ^ 2 - 3)) :=
      mul_le_mul (by linarith) k1 (by linarith) (by linarith)
    nlinarith [mul_pos hs (by linarith : 0 < 4 * M * x ^ 2)]
  have ht : ∑' n, (3 * s * (-a1 n x) - a2 n x) < 0 := by
    have := (hsum.neg).tsum_pos (fun n => by linarith [hneg n]) 0 (by linarith [hneg 0])
    rw [tsum_neg] at this
    linarith
  rw [((a_summable hx).2.1.neg.mul_left (3 * s)).tsum_sub (a_summable hx).2.2, tsum_mul_left, tsum_neg] at ht
  change 3 * s * (-A1 x) - A2 x < 0 at ht
  rw [KQ, sub_neg, lt_div_iff₀ (by positivity)]
  linarith

/-- **C116.** So `kstest_kuiper` returns a negative p-value for a sample of at least 5 equal values. -/
theorem C116_constant (Q : Nat → ℝ → ℝ)
    (hQ : ∀ n v, 0 < v → Tendsto (fun q : Nat × Nat => qKsKuiper (kuiperX n v) n q.1 q.2) atTop (𝓝 (Q n v)))
    (n : Nat) (hn : 5 ≤ n) (c : ℝ) : ∃ p s, kstestKuiper Q (List.replicate n c) n = .ok (p, s) ∧ p < 0 := by
  obtain ⟨s, lo, hi, hrun, hp, -, hg, hl, -⟩ := C17_kuiper_statistic Q (List.replicate n c) (by simp; omega)
  rw [List.length_replicate] at hrun hg hl
  refine ⟨_, _, hrun, ?_⟩
  have hs : s = List.replicate n c := List.perm_replicate.1 hp
  have hlen : s.length = n := by rw [hs, List.length_replicate]
  have n5 : (5 : ℝ) ≤ n := by exact_mod_cast hn
  have h0 : c ≤ hi := hg.2 (Or.inr ⟨0, by omega, by simp [hs]⟩)
  have h1 : lo ≤ c - ((n - 1 : Nat) : ℝ) / n := hl.2 (Or.inr ⟨n - 1, by omega, by simp [hs]⟩)
  rw [Nat.cast_sub (by omega), Nat.cast_one] at h1
  set r := Real.sqrt n with hr
  have hr2 : r * r = n := Real.mul_self_sqrt (by linarith)
  have hr0 : 0 < r := Real.sqrt_pos.2 (by linarith)
  have hr5 : 2.236 ≤ r := by
    rw [hr]
    refine Real.le_sqrt_of_sq_le ?_
    norm_num
    linarith
  set y := 1 / r with hy
  have hy0 : 0 < y := by positivity
  have hyr : y * r = 1 := by rw [hy]; field_simp
  have hy2 : y * y ≤ 1 / 5 := by
    have : y * y * n = 1 := by rw [← hr2]; linear_combination (y * r + 1) * hyr
    nlinarith
  have hy1 : y ≤ 0.4473 := by nlinarith
  have hW : 1 - y * y ≤ hi - lo := by
    have : ((n : ℝ) - 1) / n = 1 - y * y := by
      rw [hy, ← hr2]
      field_simp
    linarith
  have hf : 0.89 ≤ (1 + 0.155 * y + 0.24 * (y * y)) * (1 - y * y) := by nlinarith
  have hx : 0.89 * r ≤ kuiperX n (hi - lo) := by
    have e : kuiperX n (hi - lo) = r * ((1 + 0.155 * y + 0.24 * (y * y)) * (hi - lo)) := by
      rw [kuiperX, ← hr, hy]
      field_simp
    rw [e, mul_comm 0.89]
    refine mul_le_mul_of_nonneg_left (hf.trans (mul_le_mul_of_nonneg_left hW (by positivity))) hr0.le
  obtain ⟨p, hp1, hp2⟩ := C116_negative (x := kuiperX n (hi - lo)) n (by omega) (by linarith) hx
  exact lt_of_eq_of_lt (tendsto_nhds_unique (hQ n (hi - lo) (by nlinarith)) hp1) hp2

/-- **C116.** For the argument 0 the first loop counts down and is not left: every term is -1, every sum an integer. -/
theorem C116_zero_diverges (M : Nat) : kuiperQ 0 M = -(M : ℝ) ∧ kuiperQ 0 (M + 1) ≠ kuiperQ 0 M := by
  have h : ∀ M : Nat, kuiperQ 0 M = -(M : ℝ) := by
    intro M
    induction M with
    | zero => simp [kuiperQ]
    | succ M ih =>
      rw [kuiperQ, ih]
      simp
      ring
  refine ⟨h M, ?_⟩
  rw [h, h]
  push_cast
  intro hc
  linarith

/-- **C116.** That argument occurs: for the sample 0, 1/n, ..., (n-1)/n. -/
theorem C116_grid (Q : Nat → ℝ → ℝ) (n : Nat) (hn : 2 ≤ n) :
    ∃ s, kstestKuiper Q ((List.range n).map fun j : Nat => (j : ℝ) / n) n = .ok (Q n 0, s) ∧ kuiperX n 0 = 0 := by
  obtain ⟨s, lo, hi, hrun, hp, hs, hg, hl, -⟩ := C17_kuiper_statistic Q ((List.range n).map fun j : Nat => (j : ℝ) / n) (by simpa using hn)
  rw [List.length_map, List.length_range] at hrun hg hl
  have n0 : (0 : ℝ) < n := by exact_mod_cast (by omega : 0 < n)
  have e : s = (List.range n).map fun j : Nat => (j : ℝ) / n := by
    refine hp.eq_of_pairwise (fun a b _ _ h1 h2 => le_antisymm h1 h2) hs ?_
    rw [List.pairwise_map]
    refine List.pairwise_lt_range.imp fun {a b} hab => ?_
    exact div_le_div_of_nonneg_right (by exact_mod_cast hab.le) n0.le
  have z : ∀ d : ℝ, (d = 0 ∨ ∃ j, ∃ h : j < s.length, d = s[j] - (j : ℝ) / n) → d = 0 := by
    rintro d (h | ⟨j, hj, rfl⟩)
    · exact h
    · subst e
      simp
  rw [z hi hg.1, z lo hl.1, sub_zero] at hrun
  exact ⟨s, hrun, by simp [kuiperX]⟩

theorem kuiperX_pos (n : Nat) {v : ℝ} (hv : 0 < v) : 0 < kuiperX n v := by
  rw [kuiperX]
  have := Real.sqrt_nonneg n
  have : 0 ≤ 0.24 / Real.sqrt n := by positivity
  nlinarith

/-- The hypothesis of `C116_constant` can be met: five values 1/2 have a negative p-value. -/
example : ∃ Q : Nat → ℝ → ℝ, ∃ p s, kstestKuiper Q [1/2, 1/2, 1/2, 1/2, 1/2] 5 = .ok (p, s) ∧ p < 0 := by
  refine ⟨fun n v => Spec.kuiperSf (kuiperX n v) + deriv Spec.kuiperSf (kuiperX n v) / (3 * Real.sqrt n), ?_⟩
  exact C116_constant _ (fun n v hv => (C116_value (kuiperX_pos n hv) n).2) 5 le_rfl (1 / 2)

/-- One iteration of each loop. -/
example : qKsKuiper 1 4 1 1 = 14 / 3 * Real.exp (-2) := by
  have : Real.sqrt (4 : ℕ) = 2 := by
    rw [show ((4 : ℕ) : ℝ) = 2 ^ 2 by norm_num]
    exact Real.sqrt_sq (by norm_num)
  rw [qKsKuiper, this]
  simp [kuiperQ, kuiperP]
  ring

end Dh
