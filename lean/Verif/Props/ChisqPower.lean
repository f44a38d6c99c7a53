import Mathlib.Analysis.SpecialFunctions.Gaussian.GaussianIntegral
import Mathlib.Analysis.Complex.ExponentialBounds
import Mathlib.Data.Int.CardIntervalMod
import Verif.Model.VtestP
import Verif.Props.ByteMean
import Verif.Props.Kstest
/-
C138: what the chi-square tests always find.
-/
namespace Dh

open MeasureTheory Set

namespace Spec

/-- The regularised upper incomplete gamma function: the probability that a gamma variable of shape `a` exceeds `x`. -/
noncomputable def gammaTail (a x : ℝ) : ℝ := (∫ t in Ioi x, t ^ (a - 1) * Real.exp (-t)) / Real.Gamma a

end Spec

open Spec

theorem gamma_integrable {a r : ℝ} (ha : 0 < a) (hr : 0 < r) : IntegrableOn (fun t : ℝ => t ^ (a - 1) * Real.exp (-(r * t))) (Ioi 0) := by
  have := integrableOn_rpow_mul_exp_neg_mul_rpow (p := 1) (s := a - 1) (b := r) (by linarith) one_pos hr
  refine this.congr_fun (fun t _ => ?_) measurableSet_Ioi
  simp only [Real.rpow_one, neg_mul]

theorem gamma_integrable_one {a : ℝ} (ha : 0 < a) : IntegrableOn (fun t : ℝ => t ^ (a - 1) * Real.exp (-t)) (Ioi 0) := by
  have := gamma_integrable ha one_pos
  simpa only [one_mul] using this

theorem gamma_nonneg (a r : ℝ) : ∀ t ∈ Ioi (0 : ℝ), 0 ≤ t ^ (a - 1) * Real.exp (-(r * t)) :=
  fun _ ht => mul_nonneg (Real.rpow_nonneg (le_of_lt ht) _) (Real.exp_pos _).le

/-- C138: the tail is a probability, decreasing from 1. -/
theorem C138_tail {a : ℝ} (ha : 0 < a) : gammaTail a 0 = 1 ∧ (∀ x, 0 ≤ x → 0 ≤ gammaTail a x) ∧ ∀ x y, 0 ≤ x → x ≤ y → gammaTail a y ≤ gammaTail a x := by
  have hG := Real.Gamma_pos_of_pos ha
  refine ⟨?_, fun x hx => ?_, fun x y hx hxy => ?_⟩
  · have := Real.integral_rpow_mul_exp_neg_mul_Ioi ha one_pos
    simp only [one_mul, div_one, Real.one_rpow] at this
    rw [gammaTail, this, div_self hG.ne']
  · refine div_nonneg (setIntegral_nonneg measurableSet_Ioi fun t ht => ?_) hG.le
    exact mul_nonneg (Real.rpow_nonneg (hx.trans (le_of_lt ht)) _) (Real.exp_pos _).le
  · refine div_le_div_of_nonneg_right (setIntegral_mono_set ((gamma_integrable_one ha).mono_set (Ioi_subset_Ioi hx)) ?_ (Ioi_subset_Ioi hxy).eventuallyLE) hG.le
    filter_upwards [self_mem_ae_restrict measurableSet_Ioi] with t ht
    exact mul_nonneg (Real.rpow_nonneg (hx.trans (le_of_lt ht)) _) (Real.exp_pos _).le

/-- C138: Chernoff's bounds for both ends. -/
theorem C138_chernoff {a x : ℝ} (ha : 0 < a) (hx : 0 ≤ x) (θ : ℝ) (h0 : 0 ≤ θ) :
    (θ < 1 → gammaTail a x ≤ Real.exp (-(θ * x)) * (1 / (1 - θ)) ^ a) ∧ 1 - gammaTail a x ≤ Real.exp (θ * x) * (1 / (1 + θ)) ^ a := by
  have hG := Real.Gamma_pos_of_pos ha
  refine ⟨fun h1 => ?_, ?_⟩
  · have hr : 0 < 1 - θ := by linarith
    rw [gammaTail, div_le_iff₀ hG, mul_assoc, ← Real.integral_rpow_mul_exp_neg_mul_Ioi ha hr]
    have hi := gamma_integrable ha hr
    calc ∫ t in Ioi x, t ^ (a - 1) * Real.exp (-t) ≤ ∫ t in Ioi x, Real.exp (-(θ * x)) * (t ^ (a - 1) * Real.exp (-((1 - θ) * t))) := by
          refine setIntegral_mono_on ((gamma_integrable_one ha).mono_set (Ioi_subset_Ioi hx)) ((hi.mono_set (Ioi_subset_Ioi hx)).const_mul _) measurableSet_Ioi fun t ht => ?_
          have ht' : x < t := ht
          rw [mul_left_comm, ← Real.exp_add]
          refine mul_le_mul_of_nonneg_left (Real.exp_le_exp.2 ?_) (Real.rpow_nonneg (by linarith) _)
          nlinarith
      _ = Real.exp (-(θ * x)) * ∫ t in Ioi x, t ^ (a - 1) * Real.exp (-((1 - θ) * t)) := integral_const_mul _ _
      _ ≤ _ := by
          refine mul_le_mul_of_nonneg_left (setIntegral_mono_set hi ?_ (Ioi_subset_Ioi hx).eventuallyLE) (Real.exp_pos _).le
          filter_upwards [self_mem_ae_restrict measurableSet_Ioi] with t ht using gamma_nonneg a _ t ht
  · have hr : 0 < 1 + θ := by linarith
    have hi := gamma_integrable ha hr
    have h1 := gamma_integrable_one ha
    have hsplit : (∫ t in Ioc 0 x, t ^ (a - 1) * Real.exp (-t)) + ∫ t in Ioi x, t ^ (a - 1) * Real.exp (-t) = Real.Gamma a := by
      have e := Real.integral_rpow_mul_exp_neg_mul_Ioi ha one_pos
      simp only [one_mul, div_one, Real.one_rpow] at e
      rw [← e, ← Ioc_union_Ioi_eq_Ioi hx, setIntegral_union (Set.Ioc_disjoint_Ioi le_rfl) measurableSet_Ioi (h1.mono_set Ioc_subset_Ioi_self)
        (h1.mono_set (Ioi_subset_Ioi hx))]
    have e1 : 1 - gammaTail a x = (∫ t in Ioc 0 x, t ^ (a - 1) * Real.exp (-t)) / Real.Gamma a := by
      rw [gammaTail, eq_div_iff hG.ne', sub_mul, one_mul, div_mul_cancel₀ _ hG.ne', ← hsplit]
      ring
    rw [e1, div_le_iff₀ hG, mul_assoc, ← Real.integral_rpow_mul_exp_neg_mul_Ioi ha hr]
    calc ∫ t in Ioc 0 x, t ^ (a - 1) * Real.exp (-t) ≤ ∫ t in Ioc 0 x, Real.exp (θ * x) * (t ^ (a - 1) * Real.exp (-((1 + θ) * t))) := by
          refine setIntegral_mono_on (h1.mono_set Ioc_subset_Ioi_self) ((hi.mono_set Ioc_subset_Ioi_self).const_mul _) measurableSet_Ioc fun t ht => ?_
          rw [mul_left_comm, ← Real.exp_add]
          refine mul_le_mul_of_nonneg_left (Real.exp_le_exp.2 ?_) (Real.rpow_nonneg (le_of_lt ht.1) _)
          nlinarith [ht.1, ht.2]
      _ = Real.exp (θ * x) * ∫ t in Ioc 0 x, t ^ (a - 1) * Real.exp (-((1 + θ) * t)) := integral_const_mul _ _
      _ ≤ _ := by
          refine mul_le_mul_of_nonneg_left (setIntegral_mono_set hi ?_ Ioc_subset_Ioi_self.eventuallyLE) (Real.exp_pos _).le
          filter_upwards [self_mem_ae_restrict measurableSet_Ioi] with t ht using gamma_nonneg a _ t ht

theorem pearson_sum_ge (cs : List (ℚ × ℚ)) (h : ∀ c ∈ cs, 0 < c.2) (c : ℚ × ℚ) (hc : c ∈ cs) : pearson c ≤ (cs.map pearson).sum :=
  List.single_le_sum (fun q hq => by
    obtain ⟨d, hd, rfl⟩ := List.mem_map.1 hq
    exact div_nonneg (sq_nonneg _) (h d hd).le) _ (List.mem_map_of_mem hc)

theorem usedCells_pos (cutoff : ℚ) (hc : 0 < cutoff) (cs : List (ℚ × ℚ)) : ∀ c ∈ usedCells cutoff cs, 0 < c.2 := by
  intro c hcm
  rw [usedCells] at hcm
  rcases List.mem_append.1 hcm with h | h
  · have := (List.mem_filter.1 h).2
    simp only [decide_eq_true_eq] at this
    linarith
  · split_ifs at h with h'
    · rw [List.mem_singleton.1 h]
      linarith [h'.2]
    · simp at h

theorem bigCells_used (cutoff : ℚ) (cs : List (ℚ × ℚ)) (c : ℚ × ℚ) (hc : c ∈ cs) (hb : cutoff ≤ c.2) : c ∈ usedCells cutoff cs := by
  rw [usedCells]
  exact List.mem_append_left _ (List.mem_filter.2 ⟨hc, by simpa using hb⟩)

/-- The bound for `θ = 1/2`. -/
theorem vtestPvalue_le (w : Vtest) (hf : 0 < w.ndof) (c : ℝ) (hc0 : 0 ≤ c) (hc : c ≤ (w.chisq : ℝ)) :
    vtestPvalue gammaTail w ≤ Real.exp (w.ndof / 2 * Real.log 2 - c / 4) := by
  have hf' : (0 : ℝ) < (w.ndof : ℝ) / 2 := by
    have : (0 : ℝ) < w.ndof := by exact_mod_cast hf
    linarith
  refine ((C138_tail hf').2.2 (c / 2) _ (by linarith) (by linarith)).trans (((C138_chernoff hf' (by linarith) (1 / 2) (by norm_num)).1 (by norm_num)).trans (le_of_eq ?_))
  rw [show (1 : ℝ) / (1 - 1 / 2) = 2 by norm_num, Real.rpow_def_of_pos (by norm_num), ← Real.exp_add]
  congr 1
  ring

/-- C138: one cell of a `Vtest` that is far from its expectation bounds the p-value, whatever the other cells hold. -/
theorem C138_cell (v : Vtest) (hx : v.x.length = v.nvec) (hy : v.y.length = v.nvec) (hc : 0 < v.cutoff) (i : Nat) (hi : i < v.nvec)
    (hyi : v.cutoff ≤ v.y.getD i 0) (c : ℚ) (hc0 : 0 ≤ c) (hfar : c * v.y.getD i 0 ≤ (v.x.getD i 0 - v.y.getD i 0) ^ 2) :
    ∃ w, vtestEval v = .ok w ∧ c ≤ w.chisq ∧ (0 < w.ndof → vtestPvalue gammaTail w ≤ Real.exp (w.ndof / 2 * Real.log 2 - c / 4)) := by
  obtain ⟨w, h1, h2, -⟩ := C16_vtest_eval v hx hy hc
  have hmem : (v.x.getD i 0, v.y.getD i 0) ∈ v.x.zip v.y := by
    rw [List.getD_eq_getElem _ _ (by omega), List.getD_eq_getElem _ _ (by omega)]
    exact List.mem_iff_getElem.2 ⟨i, by rw [List.length_zip]; omega, by rw [List.getElem_zip]⟩
  have hge : c ≤ w.chisq := by
    rw [h2]
    refine le_trans ?_ (pearson_sum_ge _ (usedCells_pos _ hc _) _ (bigCells_used _ _ _ hmem hyi))
    rw [pearson, le_div_iff₀ (by linarith)]
    exact hfar
  exact ⟨w, h1, hge, fun hf => vtestPvalue_le w hf c (by exact_mod_cast hc0) (by exact_mod_cast hge)⟩

theorem exp_neg_14 : Real.exp (-14) < 1e-6 := by
  rw [show (-14 : ℝ) = (14 : ℕ) * (-1) by norm_num, Real.exp_nat_mul]
  calc Real.exp (-1) ^ 14 ≤ 0.3678794413 ^ 14 := pow_le_pow_left₀ (Real.exp_pos _).le (by linarith [Real.exp_neg_one_lt_d9]) 14
    _ < 1e-6 := by norm_num

/-- C138: dab_bytedistrib (at least 1280 samples) fails as soon as one byte value in one of the nine positions is counted 56.93 standard deviations (that is,
`sqrt(3240 n/256)`) too often or too rarely. -/
theorem C138_bytedistrib (r : Nat) (src : Src) (n : Nat) (hr : 8 ≤ r) (h32 : r ≤ 32) (hn : 1280 ≤ n) (i j v : Nat) (hi : i < 3) (hj : j < 3) (hv : v < 256)
    (hfar : 3240 * ((n : ℝ) / 256) ≤ (((List.range n).countP fun t => decide (sampledByte r (src (3 * t + i)) j = v) : ℕ) - (n : ℝ) / 256) ^ 2) :
    ∃ w, byteStat r src n = .ok w ∧ vtestPvalue gammaTail w < 1e-6 ∧
      ∀ K, kstest K [vtestPvalue gammaTail w] 1 = .ok (vtestPvalue gammaTail w, [vtestPvalue gammaTail w]) := by
  obtain ⟨w, h1, h2, h3⟩ := byteStat_eval r src n hr h32
  refine ⟨w, h1, ?_, fun K => rfl⟩
  have hnq : (5 : ℚ) ≤ n / 256 := by
    have : (1280 : ℚ) ≤ n := by exact_mod_cast hn
    rw [le_div_iff₀ (by norm_num)]
    linarith
  have hge : (3240 : ℚ) ≤ w.chisq := by
    rw [h3]
    refine le_trans ?_ (pearson_sum_ge _ (usedCells_pos 5 (by norm_num) _)
      (((List.range n).countP fun t => decide (sampledByte r (src (3 * t + i)) j = v) : ℕ), (n : ℚ) / 256)
      (bigCells_used _ _ _ (List.mem_map.2 ⟨v * 9 + i * 3 + j, List.mem_range.2 (by omega), ?_⟩) hnq))
    · rw [pearson, le_div_iff₀ (by linarith)]
      have h' : ((3240 * ((n : ℚ) / 256) : ℚ) : ℝ) ≤ ((((List.range n).countP fun t => decide (sampledByte r (src (3 * t + i)) j = v) : ℕ) - (n : ℚ) / 256) ^ 2 : ℚ) := by
        push_cast
        exact hfar
      exact_mod_cast h'
    · have e1 : (v * 9 + i * 3 + j) % 9 / 3 = i := by omega
      have e2 : (v * 9 + i * 3 + j) % 3 = j := by omega
      have e3 : (v * 9 + i * 3 + j) / 9 = v := by omega
      rw [e1, e2, e3]
  refine (vtestPvalue_le w (by omega) 3240 (by norm_num) (by exact_mod_cast hge)).trans_lt ?_
  rw [h2]
  have hl := Real.log_two_lt_d9
  have h14 : Real.exp (((2295 : ℕ) : ℝ) / 2 * Real.log 2 - 3240 / 4) ≤ Real.exp (-14) := by
    refine Real.exp_le_exp.2 ?_
    push_cast
    linarith
  exact h14.trans_lt exp_neg_14

/-- C138: it also fails if the bytes are too even: every one of the 2304 counts within `sqrt(0.678 n/256)` of its expectation. -/
theorem C138_too_even (r : Nat) (src : Src) (n : Nat) (hr : 8 ≤ r) (h32 : r ≤ 32) (hn : 1280 ≤ n)
    (h : ∀ i < 3, ∀ j < 3, ∀ v < 256,
      (((List.range n).countP fun t => decide (sampledByte r (src (3 * t + i)) j = v) : ℕ) - (n : ℚ) / 256) ^ 2 ≤ 0.678 * ((n : ℚ) / 256)) :
    ∃ w, byteStat r src n = .ok w ∧ 1 - 1e-6 < vtestPvalue gammaTail w := by
  obtain ⟨w, h1, h2, h3⟩ := byteStat_eval r src n hr h32
  refine ⟨w, h1, ?_⟩
  have hnq : (5 : ℚ) ≤ n / 256 := by
    have : (1280 : ℚ) ≤ n := by exact_mod_cast hn
    rw [le_div_iff₀ (by norm_num)]
    linarith
  have hle : w.chisq ≤ 1562.2 := by
    rw [h3, usedCells_large _ (fun c hc => by obtain ⟨_, _, rfl⟩ := List.mem_map.1 hc; exact hnq), List.map_map]
    refine (List.sum_le_card_nsmul _ (0.678 : ℚ) fun q hq => ?_).trans ?_
    · obtain ⟨c, hc, rfl⟩ := List.mem_map.1 hq
      have hc' := List.mem_range.1 hc
      rw [Function.comp, pearson, div_le_iff₀ (by linarith)]
      exact h (c % 9 / 3) (by omega) (c % 3) (by omega) (c / 9) (by omega)
    · rw [List.length_map, List.length_range, nsmul_eq_mul]
      norm_num
  have hge : 0 ≤ w.chisq := by
    rw [h3]
    refine List.sum_nonneg fun q hq => ?_
    obtain ⟨d, hd, rfl⟩ := List.mem_map.1 hq
    exact div_nonneg (sq_nonneg _) (usedCells_pos 5 (by norm_num) _ d hd).le
  have hle' : (w.chisq : ℝ) ≤ 1562.2 := by
    have : (w.chisq : ℝ) ≤ ((1562.2 : ℚ) : ℝ) := by exact_mod_cast hle
    norm_num at this ⊢
    exact this
  have hge' : (0 : ℝ) ≤ w.chisq := by exact_mod_cast hge
  have hch := (C138_chernoff (a := (w.ndof : ℝ) / 2) (x := (w.chisq : ℝ) / 2) (by rw [h2]; norm_num) (by linarith) 1 (by norm_num)).2
  have hb : Real.exp (1 * ((w.chisq : ℝ) / 2)) * (1 / (1 + 1)) ^ ((w.ndof : ℝ) / 2) ≤ Real.exp (-14) := by
    rw [h2, Real.rpow_def_of_pos (by norm_num), ← Real.exp_add, show (1 : ℝ) / (1 + 1) = 2⁻¹ by norm_num, Real.log_inv]
    refine Real.exp_le_exp.2 ?_
    have := Real.log_two_gt_d9
    push_cast
    linarith
  have h14 := exp_neg_14
  rw [vtestPvalue]
  linarith

/-- C138: so it does on a byte that never occurs in one position (from 829440 samples on, the default being 51200000), and on one that always does (from 1280). -/
theorem C138_missing_byte (r : Nat) (src : Src) (n : Nat) (hr : 8 ≤ r) (h32 : r ≤ 32) (i j v : Nat) (hi : i < 3) (hj : j < 3) (hv : v < 256)
    (h : (829440 ≤ n ∧ ∀ t < n, sampledByte r (src (3 * t + i)) j ≠ v) ∨ (1280 ≤ n ∧ ∀ t < n, sampledByte r (src (3 * t + i)) j = v)) :
    ∃ w, byteStat r src n = .ok w ∧ vtestPvalue gammaTail w < 1e-6 := by
  rcases h with ⟨hn, h⟩ | ⟨hn, h⟩
  · obtain ⟨w, h1, h2, -⟩ := C138_bytedistrib r src n hr h32 (by omega) i j v hi hj hv (by
      have e : (List.range n).countP (fun t => decide (sampledByte r (src (3 * t + i)) j = v)) = 0 := by
        refine List.countP_eq_zero.2 fun t ht => ?_
        rw [decide_eq_true_iff]
        exact h t (List.mem_range.1 ht)
      rw [e, Nat.cast_zero]
      have hn' : (829440 : ℝ) ≤ n := by exact_mod_cast hn
      nlinarith)
    exact ⟨w, h1, h2⟩
  · obtain ⟨w, h1, h2, -⟩ := C138_bytedistrib r src n hr h32 hn i j v hi hj hv (by
      have e : (List.range n).countP (fun t => decide (sampledByte r (src (3 * t + i)) j = v)) = n := by
        conv_rhs => rw [← List.length_range (n := n)]
        refine List.countP_eq_length.2 fun t ht => ?_
        rw [decide_eq_true_iff]
        exact h t (List.mem_range.1 ht)
      rw [e]
      have hn' : (1280 : ℝ) ≤ n := by exact_mod_cast hn
      nlinarith)
    exact ⟨w, h1, h2⟩

/-- A generator whose words are never divisible by 256 fails dab_bytedistrib as run by default. -/
example : ∃ w, byteStat 32 (fun k => BitVec.ofNat 32 (256 * (k * 2654435761) + 1 + k % 255)) 51200000 = .ok w ∧ vtestPvalue gammaTail w < 1e-6 := by
  refine C138_missing_byte 32 _ 51200000 (by norm_num) le_rfl 0 0 0 (by norm_num) (by norm_num) (by norm_num) (Or.inl ⟨by norm_num, fun t _ h => ?_⟩)
  rw [sampledByte, show byteOffset 32 0 = 0 from rfl, field, BitVec.toNat_ofNat, pow_zero, Nat.div_one] at h
  omega

/-- A generator that counts is too even. -/
example (m : Nat) (hm : 5 ≤ m) : ∃ w, byteStat 32 (fun k => BitVec.ofNat 32 (k / 3 % 256 * 0x01001001)) (256 * m) = .ok w ∧
    1 - 1e-6 < vtestPvalue gammaTail w := by
  refine C138_too_even 32 _ (256 * m) (by norm_num) le_rfl (by omega) fun i hi j hj v hv => ?_
  have e : ((List.range (256 * m)).countP fun t => decide (sampledByte 32 (BitVec.ofNat 32 ((3 * t + i) / 3 % 256 * 0x01001001)) j = v)) = m := by
    have hc := Nat.count_modEq_card (256 * m) (r := 256) (by norm_num) v
    rw [Nat.count] at hc
    rw [if_neg (by omega), Nat.mul_div_cancel_left _ (by norm_num), Nat.add_zero] at hc
    refine Eq.trans (List.countP_congr fun t _ => ?_) hc
    rw [decide_eq_true_iff, decide_eq_true_iff]
    rw [show (3 * t + i) / 3 = t by omega, sampledByte, field, BitVec.toNat_ofNat, Nat.ModEq]
    obtain ⟨x, hx⟩ : ∃ x, x = t % 256 := ⟨_, rfl⟩
    rw [← hx, Nat.mod_eq_of_lt hv]
    have hx' : x < 256 := by omega
    have h0 : ∀ x < 256, ∀ j < 3, x * 0x01001001 % 2 ^ 32 / 2 ^ byteOffset 32 j % 2 ^ 8 = x := by decide +kernel
    rw [h0 x hx' j hj]
  rw [e]
  push_cast
  have : (0 : ℚ) ≤ m := Nat.cast_nonneg m
  rw [show (256 * (m : ℚ)) / 256 = m by ring]
  norm_num

end Dh
