import Mathlib.Probability.Distributions.Gaussian.Real
import Mathlib.Analysis.Complex.ExponentialBounds
import Verif.Props.Invariant
/-
C130: what a run of sts_monobit finds.
-/
namespace Dh

namespace Spec

/-- The normal distribution function with deviation `σ`, which `gsl_cdf_gaussian_P` computes. -/
noncomputable def normalCdf (x σ : ℝ) : ℝ := (ProbabilityTheory.gaussianReal 0 (σ ^ 2).toNNReal).real (Set.Iic x)

/-- The number of ones minus the number of zeros among the bits of the first `n` words. -/
def excess (r : Nat) (src : Nat → UInt) (n : Nat) : ℤ :=
  ((List.range (r * n)).countP (fun k => lsbStream r src k) : ℤ) - ((List.range (r * n)).countP (fun k => !lsbStream r src k) : ℤ)

end Spec

open Spec ProbabilityTheory

theorem normalCdf_bounds (x σ : ℝ) : 0 ≤ normalCdf x σ ∧ normalCdf x σ ≤ 1 :=
  ⟨MeasureTheory.measureReal_nonneg, MeasureTheory.measureReal_le_one⟩

theorem normalCdf_lower (x σ : ℝ) (hσ : 0 < σ) (hx : 0 ≤ x) : normalCdf (-(x * σ)) σ ≤ Real.exp (-x ^ 2 / 2) := by
  have h := measure_le_le_exp_mul_mgf (μ := gaussianReal 0 (σ ^ 2).toNNReal) (X := fun y => y) (t := -(x / σ)) (-(x * σ))
    (neg_nonpos.2 (div_nonneg hx hσ.le)) (integrable_exp_mul_gaussianReal _)
  rw [mgf_fun_id_gaussianReal, ← Real.exp_add, Real.coe_toNNReal _ (sq_nonneg σ)] at h
  refine h.trans (le_of_eq ?_)
  congr 1
  show -(-(x / σ)) * -(x * σ) + (0 * -(x / σ) + σ ^ 2 * (-(x / σ)) ^ 2 / 2) = -x ^ 2 / 2
  field_simp
  ring

theorem normalCdf_upper (x σ : ℝ) (hσ : 0 < σ) (hx : 0 ≤ x) : 1 - Real.exp (-x ^ 2 / 2) ≤ normalCdf (x * σ) σ := by
  have h := measure_ge_le_exp_mul_mgf (μ := gaussianReal 0 (σ ^ 2).toNNReal) (X := fun y => y) (t := x / σ) (x * σ)
    (div_nonneg hx hσ.le) (integrable_exp_mul_gaussianReal _)
  rw [mgf_fun_id_gaussianReal, ← Real.exp_add, Real.coe_toNNReal _ (sq_nonneg σ)] at h
  have e : -(x / σ) * (x * σ) + (0 * (x / σ) + σ ^ 2 * (x / σ) ^ 2 / 2) = -x ^ 2 / 2 := by
    field_simp
    ring
  have h2 : (gaussianReal 0 (σ ^ 2).toNNReal).real (Set.Iic (x * σ))ᶜ ≤ (gaussianReal 0 (σ ^ 2).toNNReal).real {ω | x * σ ≤ ω} := by
    apply MeasureTheory.measureReal_mono
    · intro y hy
      simp only [Set.mem_compl_iff, Set.mem_Iic, not_le] at hy
      exact hy.le
    · exact MeasureTheory.measure_ne_top _ _
  rw [MeasureTheory.probReal_compl_eq_one_sub measurableSet_Iic] at h2
  have h3 : Real.exp (-(x / σ) * (x * σ) + (0 * (x / σ) + σ ^ 2 * (x / σ) ^ 2 / 2)) = Real.exp (-x ^ 2 / 2) := by rw [e]
  have h4 : (gaussianReal 0 (σ ^ 2).toNNReal).real {ω | x * σ ≤ ω} ≤ Real.exp (-(x / σ) * (x * σ) + (0 * (x / σ) + σ ^ 2 * (x / σ) ^ 2 / 2)) := h
  rw [normalCdf]
  linarith

theorem normalCdf_mono (σ : ℝ) {x y : ℝ} (h : x ≤ y) : normalCdf x σ ≤ normalCdf y σ :=
  MeasureTheory.measureReal_mono (Set.Iic_subset_Iic.2 h) (MeasureTheory.measure_ne_top _ _)

theorem monobitTest_excess (cdf : ℝ → ℝ → ℝ) (r : Nat) (hr0 : 0 < r) (hr : r ≤ 32) (src : Src) (hs : ∀ n, (src n).toNat < 2 ^ r) (n : Nat)
    (hn : r * n < 2 ^ 32) : monobitTest cdf r src n = cdf (-(excess r src n)) (Real.sqrt (r * n)) := by
  rw [monobitTest, xtestEval, C38_monobit r hr0 hr src hs n hn, Nat.mod_eq_of_lt hn]
  push_cast [excess]
  ring_nf

/-- C130: a run of sts_monobit is FAILED if enough of its samples have too many ones (or, for `sign = -1`, too many zeros): `k` of `m` samples with an
excess of at least `c` times the square root of the number of bits, where `m ((k-1)/(m+1) - l)² ≥ 29.2` for an `l ≥ e^(-c²/2)`. -/
theorem C130_bias (ksTest : Nat) (hks : ksTest ≠ 2) (K : Nat → ℝ → ℝ) (m : Nat) (hm : 2 ≤ m)
    (hK : ∀ d, 0 ≤ d → ksFinish ksTest m d = .ok (K m d)) (r : Nat) (hr0 : 0 < r) (hr : r ≤ 32) (srcs : Nat → Src) (hs : ∀ i n, (srcs i n).toNat < 2 ^ r)
    (n : Nat) (hn0 : 0 < n) (hn : r * n < 2 ^ 32) (sign : ℤ) (hsign : sign = 1 ∨ sign = -1) (c l : ℝ) (hc : 0 ≤ c) (hcl : Real.exp (-c ^ 2 / 2) ≤ l) (k : Nat)
    (hk : k ≤ (List.range m).countP fun i => decide (c * Real.sqrt (r * n) ≤ (sign * excess r (srcs i) n : ℤ)))
    (hpos : l ≤ ((k : ℝ) - 1) / (m + 1)) (hbig : 29.2 ≤ m * (((k : ℝ) - 1) / (m + 1) - l) ^ 2) :
    ∃ p s, kstest K ((List.range m).map fun i => monobitTest normalCdf r (srcs i) n) m = .ok (p, s) ∧ p < 1e-6 := by
  have hl0 : 0 ≤ l := (Real.exp_pos _).le.trans hcl
  have hN : (0 : ℝ) < r * n := by positivity
  have hσ : 0 < Real.sqrt (r * n) := Real.sqrt_pos.2 hN
  have hlen : ((List.range m).map fun i => monobitTest normalCdf r (srcs i) n).length = m := by simp
  have hcount : ∀ a : ℝ, (∀ i, c * Real.sqrt (r * n) ≤ (sign * excess r (srcs i) n : ℤ) → a ≤ monobitTest normalCdf r (srcs i) n ∧
      monobitTest normalCdf r (srcs i) n ≤ a + l) → k ≤ ((List.range m).map fun i => monobitTest normalCdf r (srcs i) n).countP
        fun x => decide (a ≤ x ∧ x ≤ a + l) := by
    intro a ha
    rw [List.countP_map]
    refine hk.trans (List.countP_mono_left fun i _ hi => ?_)
    rw [decide_eq_true_iff] at hi
    simp only [Function.comp_apply, decide_eq_true_iff]
    exact ha i hi
  have main : ∀ a : ℝ, (∀ i, c * Real.sqrt (r * n) ≤ (sign * excess r (srcs i) n : ℤ) → a ≤ monobitTest normalCdf r (srcs i) n ∧
      monobitTest normalCdf r (srcs i) n ≤ a + l) →
      ∃ p s, kstest K ((List.range m).map fun i => monobitTest normalCdf r (srcs i) n) m = .ok (p, s) ∧ p < 1e-6 := by
    intro a ha
    have := C126_crowded ksTest hks K ((List.range m).map fun i => monobitTest normalCdf r (srcs i) n) (by rw [hlen]; exact hm) (by rw [hlen]; exact hK) a l hl0 k
      (hcount a ha) (by rw [hlen]; exact hpos) (by rw [hlen]; exact hbig)
    rwa [hlen] at this
  rcases hsign with rfl | rfl
  · refine main 0 fun i hi => ?_
    rw [monobitTest_excess normalCdf r hr0 hr (srcs i) (hs i) n hn]
    refine ⟨(normalCdf_bounds _ _).1, ?_⟩
    rw [one_mul] at hi
    rw [zero_add]
    exact (normalCdf_mono _ (neg_le_neg hi)).trans ((normalCdf_lower c _ hσ hc).trans hcl)
  · refine main (1 - l) fun i hi => ?_
    rw [monobitTest_excess normalCdf r hr0 hr (srcs i) (hs i) n hn]
    refine ⟨?_, by rw [sub_add_cancel]; exact (normalCdf_bounds _ _).2⟩
    push_cast at hi
    rw [neg_one_mul] at hi
    have := (normalCdf_upper c _ hσ hc).trans (normalCdf_mono _ hi)
    linarith

/-- C130: of the default 100 samples it is enough that 70 have an excess of twice the square root: of 3200000 bits, 50.06 percent. -/
theorem C130_default (ksTest : Nat) (hks : ksTest ≠ 2) (K : Nat → ℝ → ℝ) (hK : ∀ d, 0 ≤ d → ksFinish ksTest 100 d = .ok (K 100 d)) (srcs : Nat → Src)
    (sign : ℤ) (hsign : sign = 1 ∨ sign = -1) (hk : 70 ≤ (List.range 100).countP fun i => decide (3578 ≤ sign * excess 32 (srcs i) 100000)) :
    ∃ p s, kstest K ((List.range 100).map fun i => monobitTest normalCdf 32 (srcs i) 100000) 100 = .ok (p, s) ∧ p < 1e-6 := by
  have he : Real.exp (-2 ^ 2 / 2) ≤ 0.1354 := by
    rw [show (-2 ^ 2 / 2 : ℝ) = -1 + -1 by norm_num, Real.exp_add]
    have := Real.exp_neg_one_lt_d9
    have h0 := Real.exp_pos (-1)
    nlinarith
  have hsq : 2 * Real.sqrt ((32 : ℕ) * (100000 : ℕ)) ≤ 3578 := by
    have : Real.sqrt ((32 : ℕ) * (100000 : ℕ)) ≤ 1789 := by
      rw [Real.sqrt_le_left (by norm_num)]
      norm_num
    linarith
  refine C130_bias ksTest hks K 100 (by norm_num) hK 32 (by norm_num) le_rfl srcs (fun i n => (srcs i n).isLt) 100000 (by norm_num) (by norm_num) sign hsign 2 0.1354
    (by norm_num) he 70 (hk.trans (List.countP_mono_left fun i _ hi => ?_)) (by norm_num) (by norm_num)
  rw [decide_eq_true_iff] at hi ⊢
  refine hsq.trans ?_
  exact_mod_cast hi

/-- C130: and a source that is balanced too well is FAILED, too: if of every two successive words one is the complement of the other, every sample of an
even number of words has the same p-value. -/
theorem C130_balanced (ksTest : Nat) (hks : ksTest ≠ 2) (K : Nat → ℝ → ℝ) (m : Nat) (hm : 33 ≤ m) (hK : ∀ d, 0 ≤ d → ksFinish ksTest m d = .ok (K m d))
    (cdf : ℝ → ℝ → ℝ) (srcs : Nat → Src) (n : Nat) (hn : 32 * (2 * n) < 2 ^ 32) (h : ∀ i, ∀ t < n, srcs i (2 * t + 1) = ~~~(srcs i (2 * t))) :
    ∃ p s, kstest K ((List.range m).map fun i => monobitTest cdf 32 (srcs i) (2 * n)) m = .ok (p, s) ∧ p < 1e-6 := by
  have hp : ∀ x : UInt, popcount x + popcount (~~~x) = 32 := by
    intro x
    rw [popcount, popcount]
    have := List.length_eq_countP_add_countP (fun b => x.getLsbD b) (l := List.range 32)
    rw [List.length_range] at this
    refine Eq.trans ?_ this.symm
    congr 1
    apply List.countP_congr
    intro i hi
    rw [List.mem_range] at hi
    rw [BitVec.getLsbD_not]
    simp [hi]
  have hsum : ∀ i, ∀ j ≤ n, ((List.range (2 * j)).map fun k => popcount (srcs i k)).sum = 32 * j := by
    intro i j
    induction j with
    | zero => intro _; rfl
    | succ j ih =>
      intro hj
      rw [Nat.mul_succ, List.range_succ, List.range_succ, List.map_append, List.map_append, List.sum_append, List.sum_append, ih (by omega)]
      simp only [List.map_cons, List.map_nil, List.sum_cons, List.sum_nil]
      have := hp (srcs i (2 * j))
      rw [← h i j (by omega)] at this
      omega
  have hst : ∀ i, stsMonobit 32 (srcs i) (2 * n) = 0 := by
    intro i
    rw [stsMonobit, monobitSum_eq, Nat.mod_eq_of_lt hn]
    simp only [Nat.zero_add]
    rw [hsum i n le_rfl]
    push_cast
    ring
  have e : ((List.range m).map fun i => monobitTest cdf 32 (srcs i) (2 * n)) =
      List.replicate m (cdf 0 (Real.sqrt ((32 * (2 * n) % 2 ^ 32 : ℕ) : ℝ))) := by
    rw [List.eq_replicate_iff]
    refine ⟨by simp, fun b hb => ?_⟩
    obtain ⟨i, -, rfl⟩ := List.mem_map.1 hb
    rw [monobitTest, hst i, xtestEval]
    simp
  rw [e]
  exact C126_constant ksTest hks K m hm hK _

/-- A stuck generator has the greatest excess. -/
theorem excess_allOnes : excess 32 (fun _ => BitVec.allOnes 32) 100000 = 3200000 := by
  have h : ∀ k, lsbStream 32 (fun _ => BitVec.allOnes 32) k = true := by
    intro k
    rw [lsbStream, BitVec.getLsbD_allOnes]
    simp only [decide_eq_true_eq]
    omega
  rw [excess]
  simp only [h]
  rw [List.countP_eq_length.2 (by simp), List.countP_eq_zero.2 (by simp), List.length_range]
  norm_num

/-- The hypotheses can be met: 70 samples of a generator stuck at ones and 30 of one stuck at zero, and a counter of which every second word is
complemented. -/
example : ∃ K : Nat → ℝ → ℝ, (∀ d, 0 ≤ d → ksFinish 0 100 d = .ok (K 100 d)) ∧
    (∃ p s, kstest K ((List.range 100).map fun i => monobitTest normalCdf 32 (if i < 70 then fun _ => BitVec.allOnes 32 else fun _ => 0) 100000) 100 = .ok (p, s) ∧
      p < 1e-6) ∧
    ∃ p s, kstest K ((List.range 100).map fun i => monobitTest normalCdf 32
      (fun t => if t % 2 = 0 then BitVec.ofNat 32 (i + t) else ~~~(BitVec.ofNat 32 (i + (t - 1)))) (2 * 50000)) 100 = .ok (p, s) ∧ p < 1e-6 := by
  classical
  let K : Nat → ℝ → ℝ := fun n d => if h : 0 < n ∧ 0 ≤ d then (ksFinish_total 0 n h.1 d h.2).choose else 0
  have hK : ∀ d, 0 ≤ d → ksFinish 0 100 d = .ok (K 100 d) := by
    intro d hd
    have e : K 100 d = (ksFinish_total 0 100 (by norm_num) d hd).choose := dif_pos ⟨by norm_num, hd⟩
    rw [e]
    exact (ksFinish_total 0 100 (by norm_num) d hd).choose_spec
  refine ⟨K, hK, C130_default 0 (by norm_num) K hK _ 1 (Or.inl rfl) ?_, C130_balanced 0 (by norm_num) K 100 (by norm_num) hK _ _ 50000 (by norm_num) ?_⟩
  · refine le_trans (b := (List.range 100).countP fun i => decide (i < 70)) (by decide +kernel) (List.countP_mono_left fun i _ hi => ?_)
    rw [decide_eq_true_iff] at hi ⊢
    rw [if_pos hi, excess_allOnes]
    norm_num
  · intro i t _
    show (if (2 * t + 1) % 2 = 0 then _ else _) = ~~~(if 2 * t % 2 = 0 then _ else _)
    rw [if_neg (show ¬ (2 * t + 1) % 2 = 0 by omega), if_pos (show 2 * t % 2 = 0 by omega), Nat.add_sub_cancel]

end Dh
