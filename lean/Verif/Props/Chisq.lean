import Verif.Model.Chisq
import Verif.Props.MinDist
import Verif.Proof.Tally
import Mathlib.Probability.Moments.Variance
import Mathlib.Probability.Independence.InfinitePi
import Mathlib.Algebra.Field.GeomSum
import Mathlib.Probability.Distributions.Poisson.Basic
/-
C77, C78, C79, C80: the chi-square functions.
-/
namespace Dh

/-! ### C77: what the functions compute -/

namespace Spec

/-- Pearson's statistic of the counts `o` against the expectations `e` over the cells below `K`. -/
noncomputable def pearson (o e : ℕ → ℝ) (K : Nat) : ℝ := ∑ k ∈ Finset.range K, (o k - e k) ^ 2 / e k

end Spec

theorem expectLoop_spec (pdf : Nat → ℝ) (nsamp K : Nat) : ∀ (todo k : Nat) (e : List ℝ), k + todo = K → e.length = K →
    ∃ e', expectLoop pdf nsamp todo k e = .ok e' ∧ e'.length = K ∧
      ∀ i, e'.getD i 0 = if k ≤ i ∧ i < K then nsamp * pdf i else e.getD i 0 := by
  intro todo
  induction todo with
  | zero => intro k e hk he; exact ⟨e, rfl, he, fun i => by rw [if_neg (by omega)]⟩
  | succ todo ih =>
    intro k e hk he
    obtain ⟨f, h1, h2, h3⟩ := ih (k + 1) (e.set k (nsamp * pdf k)) (by omega) (by simpa using he)
    refine ⟨f, by rw [expectLoop, wr, if_pos (by omega), Res.bind_ok, h1], h2, fun i => ?_⟩
    rw [h3, getD_set _ _ _ _ (by omega)]
    by_cases hi : i = k
    · subst hi
      rw [if_neg (by omega), if_pos rfl, if_pos (by omega)]
    · rw [if_neg (c := i = k) hi]
      by_cases h : k + 1 ≤ i ∧ i < K
      · rw [if_pos h, if_pos (by omega)]
      · rw [if_neg h, if_neg (by omega)]

theorem poissonLoop_spec (o : List Nat) (e : List ℝ) (K : Nat) (ho : K ≤ o.length) (he : e.length = K) :
    ∀ (todo k : Nat) (c : ℝ), k + todo = K →
    poissonLoop o e todo k c =
      .ok (c + ∑ t ∈ Finset.range todo, ((o.getD (k + t) 0 : ℝ) - e.getD (k + t) 0) ^ 2 / e.getD (k + t) 0) := by
  intro todo
  induction todo with
  | zero => intro k c _; rw [poissonLoop, Finset.sum_range_zero, add_zero]
  | succ todo ih =>
    intro k c hk
    rw [poissonLoop, rd_dflt 0 (show k < o.length by omega), Res.bind_ok, rd_dflt 0 (show k < e.length by omega), Res.bind_ok,
      ih (k + 1) _ (by omega), Finset.sum_range_succ', add_assoc, add_comm (_ / _) (Finset.sum _ _), add_zero, sq]
    congr 3
    refine Finset.sum_congr rfl fun t _ => ?_
    rw [show k + 1 + t = k + (t + 1) by omega]

theorem expect_pearson (pdf : Nat → ℝ) (gammaQ : ℝ → ℝ → ℝ) (e0 : List ℝ) (o : List Nat) (K nsamp : Nat) (he : e0.length = K)
    (ho : K ≤ o.length) :
    (do
      let expected ← expectLoop pdf nsamp K 0 e0
      let chisq ← poissonLoop o expected K 0 0
      .ok (gammaQ ((K - 1 : ℝ) / 2) (chisq / 2)) : Res ℝ) =
      .ok (gammaQ ((K - 1 : ℝ) / 2) (Spec.pearson (fun k => o.getD k 0) (fun k => nsamp * pdf k) K / 2)) := by
  obtain ⟨f, h1, h2, h3⟩ := expectLoop_spec pdf nsamp K K 0 e0 (by omega) he
  rw [h1, Res.bind_ok, poissonLoop_spec o f K ho h2 K 0 0 (by omega), Res.bind_ok, zero_add]
  congr 3
  refine Finset.sum_congr rfl fun k hk => ?_
  rw [Nat.zero_add, h3, if_pos ⟨Nat.zero_le _, Finset.mem_range.1 hk⟩]

/-- **C77.** `chisq_poisson` returns the tail probability for Pearson's statistic of the first `kmax` cells of a Poisson distribution,
with `kmax - 1` degrees of freedom. -/
theorem C77_poisson (gammaQ : ℝ → ℝ → ℝ) (e0 : List ℝ) (o : List Nat) (lambda : ℝ) (kmax nsamp : Nat) (he : e0.length = kmax)
    (ho : kmax ≤ o.length) :
    chisqPoisson gammaQ e0 o lambda kmax nsamp = .ok (gammaQ ((kmax - 1 : ℝ) / 2)
      (Spec.pearson (fun k => o.getD k 0) (fun k => nsamp * (lambda ^ k / k.factorial * Real.exp (-lambda))) kmax / 2)) :=
  expect_pearson (fun k => poissonPdf k lambda) gammaQ e0 o kmax nsamp he ho

/-- **C77.** `chisq_geometric`: cell `k` is the event that the first success is trial `k+1`. -/
theorem C77_geometric (gammaQ : ℝ → ℝ → ℝ) (e0 : List ℝ) (o : List Nat) (p : ℝ) (kmax nsamp : Nat) (he : e0.length = kmax)
    (ho : kmax ≤ o.length) :
    chisqGeometric gammaQ e0 o p kmax nsamp = .ok (gammaQ ((kmax - 1 : ℝ) / 2)
      (Spec.pearson (fun k => o.getD k 0) (fun k => nsamp * (p * (1 - p) ^ k)) kmax / 2)) := by
  rw [chisqGeometric, expect_pearson (fun k => geometricPdf (k + 1) p) gammaQ e0 o kmax nsamp he ho]
  simp only [geometricPdf, Nat.add_sub_cancel, if_neg (Nat.succ_ne_zero _)]

theorem binomialLoop_spec (o : List ℝ) (p : ℝ) (nmax nsamp : Nat) (ho : nmax < o.length) : ∀ (todo n : Nat) (c : ℝ) (d : UInt),
    n + todo = nmax + 1 →
    binomialLoop o p nmax nsamp todo n c d =
      .ok (c + ∑ k ∈ (Finset.Ico n (nmax + 1)).filter (fun k => 10 < o.getD k 0),
        (o.getD k 0 - nsamp * (nmax.choose k * p ^ k * (1 - p) ^ (nmax - k))) ^ 2 / (nsamp * (nmax.choose k * p ^ k * (1 - p) ^ (nmax - k))),
        d + BitVec.ofNat 32 ((Finset.Ico n (nmax + 1)).filter (fun k => 10 < o.getD k 0)).card) := by
  intro todo
  induction todo with
  | zero =>
    intro n c d h
    rw [show n = nmax + 1 by omega, binomialLoop, Finset.Ico_self, Finset.filter_empty, Finset.sum_empty, Finset.card_empty, add_zero]
    simp
  | succ todo ih =>
    intro n c d h
    have hI : Finset.Ico n (nmax + 1) = insert n (Finset.Ico (n + 1) (nmax + 1)) := by
      ext x; simp only [Finset.mem_Ico, Finset.mem_insert]; omega
    have hn : n ∉ (Finset.Ico (n + 1) (nmax + 1)).filter (fun k => 10 < o.getD k 0) := by simp
    rw [binomialLoop, rd_dflt 0 (show n < o.length by omega), Res.bind_ok, hI, Finset.filter_insert]
    by_cases hc : 10 < o.getD n 0
    · rw [if_pos hc, if_pos hc]
      simp only
      rw [ih _ _ _ (by omega), Finset.sum_insert hn, Finset.card_insert_of_notMem hn, binomialPdf, if_neg (by omega), ← sq, add_assoc]
      congr 2
      rw [← BitVec.ofNat_add_ofNat, BitVec.add_assoc]
      congr 1
      exact BitVec.add_comm _ _
    · rw [if_neg hc, if_neg hc, ih _ _ _ (by omega)]

/-- **C77.** `chisq_binomial` uses only the cells with more than ten observations; it takes one degree of freedom less than there are
such cells, and 2^32 - 1 if there are none. -/
theorem C77_binomial (gammaQ : ℝ → ℝ → ℝ) (o : List ℝ) (p : ℝ) (kmax nsamp : Nat) (hk : kmax + 1 < 2 ^ 32) (ho : kmax < o.length)
    (S : Finset ℕ) (hS : ∀ k, k ∈ S ↔ k ≤ kmax ∧ 10 < o.getD k 0) :
    chisqBinomial gammaQ o p kmax nsamp = .ok (gammaQ ((if S = ∅ then 2 ^ 32 - 1 else (S.card : ℝ) - 1) / 2)
      ((∑ k ∈ S, (o.getD k 0 - nsamp * (kmax.choose k * p ^ k * (1 - p) ^ (kmax - k))) ^ 2 /
        (nsamp * (kmax.choose k * p ^ k * (1 - p) ^ (kmax - k)))) / 2)) := by
  have hS' : (Finset.Ico 0 (kmax + 1)).filter (fun k => 10 < o.getD k 0) = S := by
    ext k
    rw [Finset.mem_filter, hS, Finset.mem_Ico]
    exact ⟨fun h => ⟨by omega, h.2⟩, fun h => ⟨by omega, h.2⟩⟩
  have hcard : S.card ≤ kmax + 1 := by
    rw [← hS']
    exact (Finset.card_filter_le _ _).trans (by simp)
  rw [chisqBinomial, binomialLoop_spec o p kmax nsamp ho (kmax + 1) 0 0 0 (by omega), hS', Res.bind_ok]
  simp only
  rw [zero_add]
  congr 3
  split
  · rename_i h
    rw [h, Finset.card_empty, show ((0 : UInt) + BitVec.ofNat 32 0 - 1).toNat = 2 ^ 32 - 1 by decide]
    norm_num
  · rename_i h
    have h0 : 0 < S.card := Finset.card_pos.2 (Finset.nonempty_iff_ne_empty.2 h)
    have : ((0 : UInt) + BitVec.ofNat 32 S.card - 1).toNat = S.card - 1 := by
      rw [show (1 : UInt) = BitVec.ofNat 32 1 from rfl, show (0 : UInt) = BitVec.ofNat 32 0 from rfl, BitVec.ofNat_add_ofNat]
      simp only [BitVec.toNat_sub, BitVec.toNat_ofNat]
      omega
    rw [this, Nat.cast_sub (by omega), Nat.cast_one]

/-- **C77.** The expectations of `chisq_poisson` and `chisq_geometric` add up to less than the number of samples: the tail from `kmax` on
belongs to no cell. -/
theorem C77_truncated (lambda p : ℝ) (kmax : Nat) (hl : 0 < lambda) (hp : 0 < p) (hp1 : p < 1) :
    ∑ k ∈ Finset.range kmax, lambda ^ k / k.factorial * Real.exp (-lambda) < 1 ∧
    ∑ k ∈ Finset.range kmax, p * (1 - p) ^ k = 1 - (1 - p) ^ kmax := by
  constructor
  · rw [← Finset.sum_mul, Real.exp_neg, ← div_eq_mul_inv, div_lt_one (Real.exp_pos _)]
    have h := Real.sum_le_exp_of_nonneg hl.le (kmax + 1)
    rw [Finset.sum_range_succ] at h
    have : 0 < lambda ^ kmax / kmax.factorial := by positivity
    linarith
  · rw [← Finset.mul_sum, geom_sum_eq (by linarith)]
    have : 1 - p - 1 = -p := by ring
    rw [this]
    field_simp
    ring

/-- **C77.** Pearson's statistic in terms of the total count `T` and the total expectation `E`: the usual shortcut `Σ o²/e - N` needs
`T = E = N`. -/
theorem C77_identity (o e : ℕ → ℝ) (K : Nat) (he : ∀ k < K, e k ≠ 0) :
    Spec.pearson o e K = ∑ k ∈ Finset.range K, o k ^ 2 / e k - 2 * ∑ k ∈ Finset.range K, o k + ∑ k ∈ Finset.range K, e k := by
  rw [Spec.pearson, Finset.mul_sum, ← Finset.sum_sub_distrib, ← Finset.sum_add_distrib]
  refine Finset.sum_congr rfl fun k hk => ?_
  have := he k (Finset.mem_range.1 hk)
  field_simp
  ring

/-- Two cells of a geometric distribution with `p = 1/2`: expectations 8 and 4 of 16 samples, counts 10 and 3. -/
example (gammaQ : ℝ → ℝ → ℝ) : chisqGeometric gammaQ [0, 0] [10, 3] (1 / 2) 2 16 = .ok (gammaQ (1 / 2) (3 / 8)) := by
  rw [C77_geometric gammaQ [0, 0] [10, 3] (1 / 2) 2 16 rfl (by simp), Spec.pearson]
  norm_num [Finset.sum_range_succ]

/-- With small counts `chisq_binomial` claims 4294967295 degrees of freedom. -/
example (gammaQ : ℝ → ℝ → ℝ) : chisqBinomial gammaQ [3, 10, 4] (1 / 2) 2 17 = .ok (gammaQ (4294967295 / 2) 0) := by
  rw [C77_binomial gammaQ [3, 10, 4] (1 / 2) 2 17 (by norm_num) (by simp) ∅ (by
    intro k
    constructor
    · intro h; simp at h
    · rintro ⟨h1, h2⟩
      have : k = 0 ∨ k = 1 ∨ k = 2 := by omega
      rcases this with rfl | rfl | rfl <;> norm_num at h2)]
  norm_num

/-! ### C78: the mean of Pearson's statistic -/

section
open MeasureTheory ProbabilityTheory

variable {Ω : Type*} [MeasurableSpace Ω] {μ : Measure Ω} [IsProbabilityMeasure μ]

/-- Pairwise independent trials with values in the natural numbers, each with the law `p`. -/
structure Spec.Trials (μ : Measure Ω) (X : ℕ → Ω → ℕ) (p : ℕ → ℝ) : Prop where
  meas : ∀ i, Measurable (X i)
  indep : ∀ i j, i ≠ j → IndepFun (X i) (X j) μ
  law : ∀ i k, μ.real {ω | X i ω = k} = p k

/-- The number of the first `n` trials with value `k`. -/
def Spec.cellCount (X : ℕ → Ω → ℕ) (n k : ℕ) (ω : Ω) : ℕ := ((Finset.range n).filter fun i => X i ω = k).card

theorem cell_second_moment {X : ℕ → Ω → ℕ} {p : ℕ → ℝ} (h : Spec.Trials μ X p) (n k : ℕ) :
    Integrable (fun ω => ((Spec.cellCount X n k ω : ℝ) - n * p k) ^ 2) μ ∧
    ∫ ω, ((Spec.cellCount X n k ω : ℝ) - n * p k) ^ 2 ∂μ = n * p k * (1 - p k) := by
  let Y : ℕ → Ω → ℝ := fun i => {ω | X i ω = k}.indicator 1
  have hA : ∀ i, MeasurableSet {ω | X i ω = k} := fun i => h.meas i (measurableSet_singleton k)
  have hY : ∀ i, MemLp (Y i) 2 μ := fun i => (memLp_const (1 : ℝ)).indicator (hA i)
  have hEY : ∀ i, ∫ ω, Y i ω ∂μ = p k := fun i => by
    show ∫ ω, {ω | X i ω = k}.indicator 1 ω ∂μ = p k
    rw [integral_indicator_one (hA i), h.law]
  have hYY : ∀ i, Y i ^ 2 = Y i := fun i => by
    ext ω
    by_cases hω : X i ω = k <;> simp [Y, Set.indicator, hω]
  have hVar : ∀ i, Var[Y i; μ] = p k * (1 - p k) := fun i => by
    rw [variance_eq_sub (hY i), hYY, hEY]; ring
  have hS : ∀ ω, (Spec.cellCount X n k ω : ℝ) = (∑ i ∈ Finset.range n, Y i) ω := by
    intro ω
    rw [Spec.cellCount, Finset.card_filter, Finset.sum_apply]
    push_cast
    refine Finset.sum_congr rfl fun i _ => ?_
    by_cases hω : X i ω = k <;> simp [Y, Set.indicator, hω]
  have hind : Set.Pairwise (↑(Finset.range n) : Set ℕ) fun i j => IndepFun (Y i) (Y j) μ := by
    intro i _ j _ hij
    have hf : Measurable fun x : ℕ => if x = k then (1 : ℝ) else 0 := measurable_of_countable _
    have := (h.indep i j hij).comp hf hf
    have e : ∀ i, (fun x : ℕ => if x = k then (1 : ℝ) else 0) ∘ X i = Y i := fun i => by
      ext ω
      by_cases hω : X i ω = k <;> simp [Y, Set.indicator, hω]
    rwa [e, e] at this
  have hM : MemLp (∑ i ∈ Finset.range n, Y i) 2 μ := memLp_finset_sum' _ fun i _ => hY i
  have hE : ∫ ω, (∑ i ∈ Finset.range n, Y i) ω ∂μ = n * p k := by
    simp only [Finset.sum_apply]
    rw [integral_finset_sum _ fun i _ => (hY i).integrable (by norm_num)]
    simp only [hEY, Finset.sum_const, Finset.card_range, nsmul_eq_mul]
  have hV := IndepFun.variance_sum (fun i (_ : i ∈ Finset.range n) => hY i) hind
  rw [variance_eq_integral hM.aemeasurable, hE] at hV
  simp only [hVar, Finset.sum_const, Finset.card_range, nsmul_eq_mul] at hV
  simp only [hS]
  refine ⟨?_, by rw [hV]; ring⟩
  exact (hM.sub (memLp_const _)).integrable_sq

/-- **C78.** For independent trials with the expected law the mean of Pearson's statistic over the cells below `K` is `K` minus the
probability of these cells.  (A chi-square variable has its number of degrees of freedom as mean.) -/
theorem C78_mean {X : ℕ → Ω → ℕ} {p : ℕ → ℝ} (h : Spec.Trials μ X p) (n K : ℕ) (hn : 0 < n) (hp : ∀ k < K, 0 < p k) :
    ∫ ω, Spec.pearson (fun k => Spec.cellCount X n k ω) (fun k => n * p k) K ∂μ = K - ∑ k ∈ Finset.range K, p k := by
  unfold Spec.pearson
  rw [integral_finset_sum _ fun k _ => ((cell_second_moment h n k).1.div_const _)]
  have : ∀ k ∈ Finset.range K, ∫ ω, ((Spec.cellCount X n k ω : ℝ) - n * p k) ^ 2 / (n * p k) ∂μ = 1 - p k := by
    intro k hk
    have hk := hp k (Finset.mem_range.1 hk)
    have hn' : (0 : ℝ) < n := by exact_mod_cast hn
    rw [integral_div, (cell_second_moment h n k).2]
    field_simp
  rw [Finset.sum_congr rfl this, Finset.sum_sub_distrib]
  simp

/-- **C78.** If the cells exhaust the law the mean is the number of degrees of freedom of `chisq_pearson`. -/
theorem C78_exhaustive {X : ℕ → Ω → ℕ} {p : ℕ → ℝ} (h : Spec.Trials μ X p) (n K : ℕ) (hn : 0 < n) (hp : ∀ k < K, 0 < p k)
    (hsum : ∑ k ∈ Finset.range K, p k = 1) :
    ∫ ω, Spec.pearson (fun k => Spec.cellCount X n k ω) (fun k => n * p k) K ∂μ = K - 1 := by
  rw [C78_mean h n K hn hp, hsum]

/-- **C78, failure.** For trials with exactly the Poisson (or geometric) law, the mean of the statistic of `chisq_poisson`
(`chisq_geometric`) exceeds the number of degrees of freedom it is judged by, by the probability of the tail. -/
theorem C78_poisson_bias {X : ℕ → Ω → ℕ} (lambda : ℝ) (hl : 0 < lambda)
    (h : Spec.Trials μ X fun k => lambda ^ k / k.factorial * Real.exp (-lambda)) (n K : ℕ) (hn : 0 < n) :
    (K - 1 : ℝ) < ∫ ω, Spec.pearson (fun k => Spec.cellCount X n k ω) (fun k => n * (lambda ^ k / k.factorial * Real.exp (-lambda))) K ∂μ := by
  rw [C78_mean h n K hn fun k _ => by positivity]
  linarith [(C77_truncated lambda (1 / 2) K hl (by norm_num) (by norm_num)).1]

theorem C78_geometric_bias {X : ℕ → Ω → ℕ} (p : ℝ) (hp : 0 < p) (hp1 : p < 1)
    (h : Spec.Trials μ X fun k => p * (1 - p) ^ k) (n K : ℕ) (hn : 0 < n) :
    ∫ ω, Spec.pearson (fun k => Spec.cellCount X n k ω) (fun k => n * (p * (1 - p) ^ k)) K ∂μ = (K - 1 : ℝ) + (1 - p) ^ K := by
  have h1 : 0 < 1 - p := by linarith
  rw [C78_mean h n K hn fun k _ => by positivity, (C77_truncated 1 p K one_pos hp hp1).2]
  ring

/-- Poisson trials exist; with mean 2 and the five cells 0..4 the mean of the statistic is `5 - 7 e^-2`, which is more than 4. -/
example : ∃ (Ω : Type) (_ : MeasurableSpace Ω) (μ : Measure Ω) (_ : IsProbabilityMeasure μ) (X : ℕ → Ω → ℕ),
    Spec.Trials μ X (fun k => (2 : ℝ) ^ k / k.factorial * Real.exp (-2)) ∧
    ∫ ω, Spec.pearson (fun k => Spec.cellCount X 100 k ω) (fun k => (100 : ℕ) * (2 ^ k / k.factorial * Real.exp (-2))) 5 ∂μ =
      5 - 7 * Real.exp (-2) := by
  have hT : Spec.Trials (Measure.infinitePi fun _ : ℕ => poissonMeasure 2) (fun i (ω : ℕ → ℕ) => ω i)
      (fun k => (2 : ℝ) ^ k / k.factorial * Real.exp (-2)) := by
    refine ⟨fun i => measurable_pi_apply i, fun i j hij => ?_, fun i k => ?_⟩
    · exact (iIndepFun_infinitePi (P := fun _ : ℕ => poissonMeasure 2) (X := fun _ x => x) (fun i => measurable_id)).indepFun hij
    · have h := Measure.infinitePi_map_eval (fun _ : ℕ => poissonMeasure 2) i
      have h2 := map_measureReal_apply (μ := Measure.infinitePi fun _ : ℕ => poissonMeasure 2) (measurable_pi_apply i)
        (measurableSet_singleton k)
      rw [h, poissonMeasure_real_singleton] at h2
      refine Eq.trans h2.symm ?_
      push_cast
      ring
  refine ⟨ℕ → ℕ, inferInstance, _, inferInstance, _, hT, ?_⟩
  rw [C78_mean hT 100 5 (by norm_num) fun k _ => by positivity]
  norm_num [Finset.sum_range_succ, Nat.factorial]
  ring

end

/-! ### C79: the G-test -/

theorem gtestLoop_spec (o : List Nat) (e : ℝ) : ∀ (todo k : Nat) (c : ℝ), k + todo ≤ o.length →
    gtestLoop o e todo k c = .ok (c + ∑ t ∈ Finset.range todo, 2 * ((o.getD (k + t) 0 : ℝ) * Real.log ((o.getD (k + t) 0 : ℝ) / e))) := by
  intro todo
  induction todo with
  | zero => intro k c _; rw [gtestLoop, Finset.sum_range_zero, add_zero]
  | succ todo ih =>
    intro k c hk
    have e1 : ∀ t, k + 1 + t = k + (t + 1) := fun t => by omega
    rw [gtestLoop, rd_dflt 0 (show k < o.length by omega), Res.bind_ok, Finset.sum_range_succ', add_zero]
    split
    · rename_i h
      rw [ih (k + 1) _ (by omega), h]
      simp only [e1, Nat.cast_zero, zero_mul, mul_zero, add_zero]
    · rw [ih (k + 1) _ (by omega)]
      simp only [e1]
      congr 1
      ring

/-- **C79.** If the counts add up to the number of items, `chisq_uint_uniform_gtest` returns the tail probability of the corrected
likelihood ratio statistic `G = 2 Σ o ln(o/e)`. -/
theorem C79_gtest (gammaQ : ℝ → ℝ → ℝ) (o : List Nat) (N K : Nat) (hK : 0 < K) (hK2 : K ≤ 46340) (ho : K ≤ o.length) (hN : 0 < N)
    (hsum : ∑ k ∈ Finset.range K, o.getD k 0 = N) :
    ∃ G, chisqGtest gammaQ o N K = .ok (gammaQ ((K - 1 : ℝ) / 2) (G / (1 + (K + 1 : ℝ) / (6 * N) + K ^ 2 / (6 * N ^ 2)) / 2)) ∧
      G = 2 * ∑ k ∈ Finset.range K, (o.getD k 0 : ℝ) * Real.log (o.getD k 0 / (N / K)) ∧
      0 ≤ G ∧ (G = 0 ↔ ∀ k < K, (o.getD k 0 : ℝ) = N / K) := by
  have hK' : (0 : ℝ) < K := by exact_mod_cast hK
  have hN' : (0 : ℝ) < N := by exact_mod_cast hN
  have he : (0 : ℝ) < (N : ℝ) / K := by positivity
  -- `x ln(x/e) ≥ x - e`, with equality only for `x = e`
  have key : ∀ x : ℝ, 0 ≤ x → x - N / K ≤ x * Real.log (x / (N / K)) ∧ (x * Real.log (x / (N / K)) = x - N / K → x = N / K) := by
    intro x hx
    rcases hx.eq_or_lt with h0 | h0
    · rw [← h0]
      refine ⟨by rw [zero_mul]; linarith, fun h => ?_⟩
      rw [zero_mul] at h; linarith
    · have hy : 0 < N / K / x := by positivity
      have hinv : Real.log (x / (N / K)) = - Real.log (N / K / x) := by rw [← Real.log_inv, inv_div]
      have e1 : x * (N / K / x - 1) = N / K - x := by field_simp
      constructor
      · have := mul_le_mul_of_nonneg_left (Real.log_le_sub_one_of_pos hy) h0.le
        rw [hinv]; linarith
      · intro h
        by_contra hne
        have h1 : N / K / x ≠ 1 := by
          intro h2; apply hne
          field_simp at h2
          field_simp
          linarith
        have := mul_lt_mul_of_pos_left (Real.log_lt_sub_one_of_pos hy h1) h0
        rw [hinv] at h; linarith
  have hs : ∑ k ∈ Finset.range K, ((o.getD k 0 : ℝ) - N / K) = 0 := by
    rw [Finset.sum_sub_distrib, Finset.sum_const, Finset.card_range, nsmul_eq_mul, mul_div_cancel₀ _ hK'.ne', sub_eq_zero]
    exact_mod_cast hsum
  have hle : ∑ k ∈ Finset.range K, ((o.getD k 0 : ℝ) - N / K) ≤
      ∑ k ∈ Finset.range K, (o.getD k 0 : ℝ) * Real.log (o.getD k 0 / (N / K)) :=
    Finset.sum_le_sum fun k _ => (key _ (Nat.cast_nonneg _)).1
  rw [hs] at hle
  have hov : ¬ 2 ^ 31 ≤ K * K := by
    have : K * K ≤ 46340 * 46340 := Nat.mul_le_mul hK2 hK2
    omega
  refine ⟨_, ?_, rfl, by linarith, ?_⟩
  · rw [chisqGtest]
    simp only
    rw [gtestLoop_spec o _ K 0 0 (by omega), Res.bind_ok, if_neg hov]
    simp only [Nat.zero_add, zero_add]
    rw [← Finset.mul_sum, abs_of_nonneg (div_nonneg (by linarith) (by positivity))]
    congr 4
    ring
  · constructor
    · intro h k hk
      have h0 : ∑ k ∈ Finset.range K, ((o.getD k 0 : ℝ) * Real.log (o.getD k 0 / (N / K)) - ((o.getD k 0 : ℝ) - N / K)) = 0 := by
        rw [Finset.sum_sub_distrib, hs]; linarith
      have := (Finset.sum_eq_zero_iff_of_nonneg fun k _ => sub_nonneg.2 (key (o.getD k 0) (Nat.cast_nonneg _)).1).1 h0 k
        (Finset.mem_range.2 hk)
      exact (key _ (Nat.cast_nonneg _)).2 (by linarith)
    · intro h
      rw [Finset.sum_eq_zero fun k hk => ?_, mul_zero]
      rw [h k (Finset.mem_range.1 hk), div_self he.ne', Real.log_one, mul_zero]

/-- **C79, failure.** From 46341 cells on the correction overflows in `int`. -/
theorem C79_overflow (gammaQ : ℝ → ℝ → ℝ) (o : List Nat) (N K : Nat) (hK : 46341 ≤ K) : chisqGtest gammaQ o N K = .ub := by
  have h : 2 ^ 31 ≤ K * K := by
    have : 46341 * 46341 ≤ K * K := Nat.mul_le_mul hK hK
    omega
  rw [chisqGtest]
  simp only
  by_cases ho : K ≤ o.length
  · rw [gtestLoop_spec o _ K 0 0 (by omega), Res.bind_ok, if_pos h]
  · have : ∀ (todo k : Nat) (c : ℝ), k ≤ o.length → o.length < k + todo → gtestLoop o (N / K) todo k c = .ub := by
      intro todo
      induction todo with
      | zero => intro k c h1 h2; omega
      | succ todo ih =>
        intro k c h1 h2
        rw [gtestLoop]
        by_cases hk : k < o.length
        · rw [rd_dflt 0 hk, Res.bind_ok]
          split <;> exact ih _ _ (by omega) (by omega)
        · rw [rd_ub (by omega), Res.bind_ub]
    rw [this K 0 0 (by omega) (by omega), Res.bind_ub]

/-- Counts 1 and 3: `G = 2 (ln(1/2) + 3 ln(3/2))`, not 0. -/
example (gammaQ : ℝ → ℝ → ℝ) : ∃ G, 0 < G ∧ chisqGtest gammaQ [1, 3] 4 2 = .ok (gammaQ (1 / 2) (G / (7 / 6) / 2)) := by
  obtain ⟨G, h1, -, h3, h4⟩ := C79_gtest gammaQ [1, 3] 4 2 (by norm_num) (by norm_num) (by simp) (by norm_num) (by simp [Finset.sum_range_succ])
  refine ⟨G, lt_of_le_of_ne h3 fun h => ?_, by rw [h1]; norm_num⟩
  have := h4.1 h.symm 0 (by norm_num)
  norm_num at this

/-! ### C80: the two-dimensional table -/

namespace Spec

/-- Pearson's statistic of independence of a table with `R` rows and `C` columns. -/
noncomputable def pearson2d (x : ℕ → ℕ → ℝ) (R C : Nat) (N : ℝ) : ℝ :=
  ∑ i ∈ Finset.range R, ∑ j ∈ Finset.range C,
    (x i j - (∑ l ∈ Finset.range C, x i l) * (∑ l ∈ Finset.range R, x l j) / N) ^ 2 /
      ((∑ l ∈ Finset.range C, x i l) * (∑ l ∈ Finset.range R, x l j) / N)

end Spec

theorem sum2d_spec (obs : List UInt) (step : Nat) : ∀ (todo p : Nat) (s : UInt),
    (∀ t < todo, p + t * step < obs.length) →
    s.toNat + ∑ t ∈ Finset.range todo, (obs.getD (p + t * step) 0).toNat < 2 ^ 32 →
    ∃ s', sum2d obs step todo p s = .ok s' ∧ s'.toNat = s.toNat + ∑ t ∈ Finset.range todo, (obs.getD (p + t * step) 0).toNat := by
  intro todo
  induction todo with
  | zero => intro p s _ _; exact ⟨s, rfl, by simp⟩
  | succ todo ih =>
    intro p s hp hs
    have e : ∀ t, p + step + t * step = p + (t + 1) * step := fun t => by ring
    rw [Finset.sum_range_succ'] at hs ⊢
    simp only [zero_mul, add_zero] at hs ⊢
    have h0 : (s + obs.getD p 0).toNat = s.toNat + (obs.getD p 0).toNat := by
      rw [BitVec.toNat_add, Nat.mod_eq_of_lt (by omega)]
    obtain ⟨s', h1, h2⟩ := ih (p + step) (s + obs.getD p 0) (fun t ht => by rw [e]; exact hp (t + 1) (by omega)) (by
      simp only [e]; rw [h0]; omega)
    refine ⟨s', ?_, ?_⟩
    · have := hp 0 (by omega)
      rw [zero_mul, add_zero] at this
      rw [sum2d, rd_dflt 0 this, Res.bind_ok, h1]
    · rw [h2, h0]; simp only [e]; omega

/-- **C80.** For a table of `R x C` counts with total `N` (below 2^32), `chisq2d` returns the tail probability of Pearson's statistic of
independence with `(R-1)(C-1)` degrees of freedom.  (With an empty row or column the C code divides zero by zero.) -/
theorem C80_chisq2d (gammaQ : ℝ → ℝ → ℝ) (obs : List UInt) (x : ℕ → ℕ → ℕ) (R C N : Nat) (hR : 0 < R) (hC : 0 < C)
    (hlen : obs.length = R * C) (hx : ∀ i < R, ∀ j < C, (obs.getD (i * C + j) 0).toNat = x i j)
    (hN : ∑ i ∈ Finset.range R, ∑ j ∈ Finset.range C, x i j = N) (hN32 : N < 2 ^ 32) (hd : (R - 1) * (C - 1) < 2 ^ 32)
    (hR32 : R < 2 ^ 32) (hC32 : C < 2 ^ 32) :
    chisq2d gammaQ obs R C N = .ok (gammaQ ((R - 1 : ℝ) * (C - 1) / 2) (Spec.pearson2d (fun i j => x i j) R C N / 2)) := by
  have hidx : ∀ i < R, ∀ j < C, i * C + j < obs.length := by
    intro i hi j hj
    rw [hlen]
    calc i * C + j < i * C + C := by omega
      _ = (i + 1) * C := by ring
      _ ≤ R * C := Nat.mul_le_mul_right _ hi
  have hrow : ∀ i < R, ∑ j ∈ Finset.range C, x i j ≤ N := fun i hi => by
    rw [← hN]; exact Finset.single_le_sum (f := fun i => ∑ j ∈ Finset.range C, x i j) (fun _ _ => Nat.zero_le _) (Finset.mem_range.2 hi)
  have hcol : ∀ j < C, ∑ i ∈ Finset.range R, x i j ≤ N := fun j hj => by
    rw [← hN, Finset.sum_comm]
    exact Finset.single_le_sum (f := fun j => ∑ i ∈ Finset.range R, x i j) (fun _ _ => Nat.zero_le _) (Finset.mem_range.2 hj)
  have hs1 : ∀ i < R, ∃ s, sum2d obs 1 C (i * C) 0 = .ok s ∧ s.toNat = ∑ j ∈ Finset.range C, x i j := by
    intro i hi
    have e : ∑ t ∈ Finset.range C, (obs.getD (i * C + t * 1) 0).toNat = ∑ j ∈ Finset.range C, x i j :=
      Finset.sum_congr rfl fun j hj => by rw [mul_one, hx i hi j (Finset.mem_range.1 hj)]
    obtain ⟨s, h1, h2⟩ := sum2d_spec obs 1 C (i * C) 0 (fun t ht => by rw [mul_one]; exact hidx i hi t ht) (by
      rw [e]; have := hrow i hi; simp; omega)
    exact ⟨s, h1, by rw [h2, e]; simp⟩
  have hs2 : ∀ j < C, ∃ s, sum2d obs C R j 0 = .ok s ∧ s.toNat = ∑ i ∈ Finset.range R, x i j := by
    intro j hj
    have e : ∑ t ∈ Finset.range R, (obs.getD (j + t * C) 0).toNat = ∑ i ∈ Finset.range R, x i j :=
      Finset.sum_congr rfl fun i hi => by rw [add_comm, hx i (Finset.mem_range.1 hi) j hj]
    obtain ⟨s, h1, h2⟩ := sum2d_spec obs C R j 0 (fun t ht => by rw [add_comm]; exact hidx t ht j hj) (by
      rw [e]; have := hcol j hj; simp; omega)
    exact ⟨s, h1, by rw [h2, e]; simp⟩
  let f : ℕ → ℕ → ℝ := fun i j => ((x i j : ℝ) - (∑ l ∈ Finset.range C, (x i l : ℝ)) * (∑ l ∈ Finset.range R, (x l j : ℝ)) / N) ^ 2 /
      ((∑ l ∈ Finset.range C, (x i l : ℝ)) * (∑ l ∈ Finset.range R, (x l j : ℝ)) / N)
  have hJ : ∀ i < R, ∀ (todo j : Nat) (c : ℝ), j + todo = C →
      chisq2dJ obs R C N i todo j c = .ok (c + ∑ t ∈ Finset.range todo, f i (j + t)) := by
    intro i hi todo
    induction todo with
    | zero => intro j c _; rw [chisq2dJ, Finset.sum_range_zero, add_zero]
    | succ todo ih =>
      intro j c hj
      obtain ⟨s1, a1, a2⟩ := hs1 i hi
      obtain ⟨s2, b1, b2⟩ := hs2 j (by omega)
      have e1 : ∀ t, j + 1 + t = j + (t + 1) := fun t => by omega
      rw [chisq2dJ, a1, Res.bind_ok, b1, Res.bind_ok]
      simp only
      rw [rd_dflt 0 (hidx i hi j (by omega)), Res.bind_ok, hx i hi j (by omega), ih (j + 1) _ (by omega), Finset.sum_range_succ', a2, b2]
      simp only [e1]
      congr 1
      simp only [f]
      push_cast
      rw [add_zero]
      ring
  have hI : ∀ (todo i : Nat) (c : ℝ), i + todo = R →
      chisq2dI obs R C N todo i c = .ok (c + ∑ s ∈ Finset.range todo, ∑ t ∈ Finset.range C, f (i + s) t) := by
    intro todo
    induction todo with
    | zero => intro i c _; rw [chisq2dI, Finset.sum_range_zero, add_zero]
    | succ todo ih =>
      intro i c hi
      have e1 : ∀ t, i + 1 + t = i + (t + 1) := fun t => by omega
      rw [chisq2dI, hJ i (by omega) C 0 c (by omega), Res.bind_ok, ih (i + 1) _ (by omega), Finset.sum_range_succ']
      simp only [e1, zero_add, add_zero]
      congr 1
      ring
  rw [chisq2d]
  rw [hI R 0 0 (by omega), Res.bind_ok]
  have hdof : ((BitVec.ofNat 32 R - 1) * (BitVec.ofNat 32 C - 1) : UInt).toNat = (R - 1) * (C - 1) := by
    have e : ∀ n, 0 < n → n < 2 ^ 32 → (BitVec.ofNat 32 n - 1 : UInt).toNat = n - 1 := by
      intro n h0 h1
      rw [show (1 : UInt) = BitVec.ofNat 32 1 from rfl]
      simp only [BitVec.toNat_sub, BitVec.toNat_ofNat]
      omega
    rw [BitVec.toNat_mul, e R hR hR32, e C hC hC32, Nat.mod_eq_of_lt hd]
  rw [hdof, Nat.cast_mul, Nat.cast_sub hR, Nat.cast_sub hC, Nat.cast_one, zero_add]
  simp only [zero_add]
  rfl

/-- **C80.** Transposing the table does not change the statistic. -/
theorem C80_transpose (x : ℕ → ℕ → ℝ) (R C : Nat) (N : ℝ) : Spec.pearson2d (fun i j => x j i) C R N = Spec.pearson2d x R C N := by
  unfold Spec.pearson2d
  rw [Finset.sum_comm]
  refine Finset.sum_congr rfl fun i _ => Finset.sum_congr rfl fun j _ => ?_
  rw [mul_comm (∑ l ∈ Finset.range R, x l j)]

/-- **C80.** With no empty row or column the statistic is zero exactly for independent tables. -/
theorem C80_zero (x : ℕ → ℕ → ℝ) (R C : Nat) (N : ℝ) (hN : 0 < N) (hr : ∀ i < R, 0 < ∑ l ∈ Finset.range C, x i l)
    (hc : ∀ j < C, 0 < ∑ l ∈ Finset.range R, x l j) :
    0 ≤ Spec.pearson2d x R C N ∧ (Spec.pearson2d x R C N = 0 ↔
      ∀ i < R, ∀ j < C, x i j * N = (∑ l ∈ Finset.range C, x i l) * ∑ l ∈ Finset.range R, x l j) := by
  have he : ∀ i < R, ∀ j < C, 0 < (∑ l ∈ Finset.range C, x i l) * (∑ l ∈ Finset.range R, x l j) / N := fun i hi j hj =>
    div_pos (mul_pos (hr i hi) (hc j hj)) hN
  have hnn : ∀ i ∈ Finset.range R, ∀ j ∈ Finset.range C, 0 ≤
      (x i j - (∑ l ∈ Finset.range C, x i l) * (∑ l ∈ Finset.range R, x l j) / N) ^ 2 /
      ((∑ l ∈ Finset.range C, x i l) * (∑ l ∈ Finset.range R, x l j) / N) := fun i hi j hj =>
    div_nonneg (sq_nonneg _) (he i (Finset.mem_range.1 hi) j (Finset.mem_range.1 hj)).le
  have hnn' := fun i hi => Finset.sum_nonneg (hnn i hi)
  refine ⟨Finset.sum_nonneg hnn', ?_⟩
  rw [Spec.pearson2d, Finset.sum_eq_zero_iff_of_nonneg hnn']
  constructor
  · intro h i hi j hj
    have h1 := h i (Finset.mem_range.2 hi)
    rw [Finset.sum_eq_zero_iff_of_nonneg (hnn i (Finset.mem_range.2 hi))] at h1
    have h2 := h1 j (Finset.mem_range.2 hj)
    rw [div_eq_zero_iff, or_iff_left (he i hi j hj).ne', sq_eq_zero_iff, sub_eq_zero, eq_div_iff hN.ne'] at h2
    exact h2
  · intro h i hi
    refine Finset.sum_eq_zero fun j hj => ?_
    have h2 := h i (Finset.mem_range.1 hi) j (Finset.mem_range.1 hj)
    rw [← eq_div_iff hN.ne'] at h2
    rw [← h2, sub_self, zero_pow two_ne_zero, zero_div]

/-- The table with rows `1 2` and `3 6` is independent, so that the statistic is 0 with one degree of freedom. -/
example (gammaQ : ℝ → ℝ → ℝ) : chisq2d gammaQ [1, 2, 3, 6] 2 2 12 = .ok (gammaQ (1 / 2) 0) := by
  rw [C80_chisq2d gammaQ [1, 2, 3, 6] (fun i j => (2 * i + 1) * (j + 1)) 2 2 12 (by norm_num) (by norm_num) rfl
    (by decide) (by decide) (by norm_num) (by norm_num) (by norm_num) (by norm_num)]
  norm_num [Spec.pearson2d, Finset.sum_range_succ]

end Dh
