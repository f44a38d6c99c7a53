import Mathlib.Probability.Independence.Basic
import Mathlib.MeasureTheory.Constructions.Pi
import Mathlib.MeasureTheory.Measure.Lebesgue.VolumeOfBalls
/-
Independent uniform points of the unit cube: how likely two of `n` points are close to each other.
-/
namespace Dh
open MeasureTheory ProbabilityTheory

variable {Ω : Type*} [MeasurableSpace Ω] {μ : Measure Ω} [IsProbabilityMeasure μ]

namespace Spec

/-- Point number `t` in `d` dimensions, made of `d` consecutive values. -/
noncomputable def unitPoint (d : ℕ) (u : ℕ → ℝ) (t : ℕ) : EuclideanSpace ℝ (Fin d) := WithLp.toLp 2 fun k : Fin d => u (d * t + k)

end Spec
open Spec

theorem pair_law {U : ℕ → Ω → ℝ} (hm : ∀ i, Measurable (U i)) (hi : iIndepFun U μ) (hl : ∀ i, μ.map (U i) = volume.restrict (Set.Icc 0 1))
    (d i j : ℕ) (hij : i ≠ j) :
    IndepFun (fun ω (k : Fin d) => U (d * i + k) ω) (fun ω (k : Fin d) => U (d * j + k) ω) μ ∧
      ∀ t, μ.map (fun ω (k : Fin d) => U (d * t + k) ω) = volume.restrict (Set.univ.pi fun _ => Set.Icc 0 1) := by
  constructor
  · have hdisj : Disjoint (Finset.univ.image fun k : Fin d => d * i + (k : ℕ)) (Finset.univ.image fun k : Fin d => d * j + (k : ℕ)) := by
      rw [Finset.disjoint_left]
      intro x h1 h2
      obtain ⟨k, -, rfl⟩ := Finset.mem_image.1 h1
      obtain ⟨l, -, h⟩ := Finset.mem_image.1 h2
      have h3 : (d * i + (k : ℕ)) / d = i := by rw [Nat.mul_add_div (by have := k.2; omega), Nat.div_eq_of_lt k.2, Nat.add_zero]
      have h4 : (d * j + (l : ℕ)) / d = j := by rw [Nat.mul_add_div (by have := l.2; omega), Nat.div_eq_of_lt l.2, Nat.add_zero]
      rw [h, h3] at h4
      exact hij h4
    have h := hi.indepFun_finset _ _ hdisj hm
    let re : ∀ t : ℕ, ((Finset.univ.image fun k : Fin d => d * t + (k : ℕ)) → ℝ) → Fin d → ℝ := fun t f k =>
      f ⟨d * t + (k : ℕ), Finset.mem_image.2 ⟨k, Finset.mem_univ _, rfl⟩⟩
    have hre : ∀ t, Measurable (re t) := fun t => measurable_pi_lambda _ fun k => measurable_pi_apply _
    exact h.comp (hre i) (hre j)
  · intro t
    have hinj : Function.Injective fun k : Fin d => d * t + (k : ℕ) := fun a b h => by
      have h' : d * t + (a : ℕ) = d * t + (b : ℕ) := h
      exact Fin.ext (by omega)
    have h := (iIndepFun_iff_map_fun_eq_pi_map fun k => (hm _).aemeasurable).1 (hi.precomp hinj)
    simp only [hl] at h
    rw [h, volume_pi, Measure.restrict_pi_pi]

theorem pair_close {U : ℕ → Ω → ℝ} (hm : ∀ i, Measurable (U i)) (hi : iIndepFun U μ) (hl : ∀ i, μ.map (U i) = volume.restrict (Set.Icc 0 1))
    (d i j : ℕ) (hij : i ≠ j) (r : ℝ) :
    μ {ω | dist (unitPoint d (fun k => U k ω) i) (unitPoint d (fun k => U k ω) j) ≤ r} ≤ volume (Metric.closedBall (0 : EuclideanSpace ℝ (Fin d)) r) := by
  obtain ⟨h1, h2⟩ := pair_law hm hi hl d i j hij
  have hX : ∀ t, Measurable fun ω (k : Fin d) => U (d * t + k) ω := fun t => measurable_pi_lambda _ fun k => hm _
  have hjoint := (indepFun_iff_map_prod_eq_prod_map_map (hX i).aemeasurable (hX j).aemeasurable).1 h1
  have hS : MeasurableSet {p : (Fin d → ℝ) × (Fin d → ℝ) | dist (WithLp.toLp 2 p.1 : EuclideanSpace ℝ (Fin d)) (WithLp.toLp 2 p.2) ≤ r} := by
    refine measurableSet_le (Continuous.measurable ?_) measurable_const
    fun_prop
  have e : μ {ω | dist (unitPoint d (fun k => U k ω) i) (unitPoint d (fun k => U k ω) j) ≤ r} =
      (μ.map fun ω => ((fun k : Fin d => U (d * i + k) ω), fun k : Fin d => U (d * j + k) ω))
        {p | dist (WithLp.toLp 2 p.1 : EuclideanSpace ℝ (Fin d)) (WithLp.toLp 2 p.2) ≤ r} := by
    rw [Measure.map_apply ((hX i).prodMk (hX j)) hS]
    rfl
  haveI : IsProbabilityMeasure (μ.map fun ω (k : Fin d) => U (d * i + k) ω) := Measure.isProbabilityMeasure_map (hX i).aemeasurable
  haveI : IsProbabilityMeasure (μ.map fun ω (k : Fin d) => U (d * j + k) ω) := Measure.isProbabilityMeasure_map (hX j).aemeasurable
  rw [e, hjoint, Measure.prod_apply hS]
  calc ∫⁻ x, (μ.map fun ω (k : Fin d) => U (d * j + k) ω) (Prod.mk x ⁻¹' {p | dist (WithLp.toLp 2 p.1 : EuclideanSpace ℝ (Fin d)) (WithLp.toLp 2 p.2) ≤ r})
        ∂(μ.map fun ω (k : Fin d) => U (d * i + k) ω)
      ≤ ∫⁻ _, volume (Metric.closedBall (0 : EuclideanSpace ℝ (Fin d)) r) ∂(μ.map fun ω (k : Fin d) => U (d * i + k) ω) := by
        refine lintegral_mono fun x => ?_
        rw [h2 j]
        refine le_trans (Measure.restrict_le_self _) (le_of_eq ?_)
        have : Prod.mk x ⁻¹' {p : (Fin d → ℝ) × (Fin d → ℝ) | dist (WithLp.toLp 2 p.1 : EuclideanSpace ℝ (Fin d)) (WithLp.toLp 2 p.2) ≤ r} =
            (WithLp.toLp 2 : (Fin d → ℝ) → EuclideanSpace ℝ (Fin d)) ⁻¹' Metric.closedBall (WithLp.toLp 2 x) r := by
          ext y
          simp only [Set.mem_preimage, Set.mem_ofPred_eq, Metric.mem_closedBall]
          rw [dist_comm]
        rw [this, (PiLp.volume_preserving_toLp (Fin d)).measure_preimage Metric.isClosed_closedBall.measurableSet.nullMeasurableSet,
          Measure.addHaar_closedBall_center]
    _ = volume (Metric.closedBall (0 : EuclideanSpace ℝ (Fin d)) r) := by rw [lintegral_const, measure_univ, mul_one]

/-- The first `n` points have two within distance `r` with probability at most `n(n-1)/2` times the volume of a ball. -/
theorem some_pair_close {U : ℕ → Ω → ℝ} (hm : ∀ i, Measurable (U i)) (hi : iIndepFun U μ)
    (hl : ∀ i, μ.map (U i) = volume.restrict (Set.Icc 0 1)) (d n : ℕ) (r : ℝ) :
    μ.real {ω | ∃ i j, i < j ∧ j < n ∧ dist (unitPoint d (fun k => U k ω) i) (unitPoint d (fun k => U k ω) j) ≤ r} ≤
      n * (n - 1) / 2 * volume.real (Metric.closedBall (0 : EuclideanSpace ℝ (Fin d)) r) := by
  have hsub : {ω | ∃ i j, i < j ∧ j < n ∧ dist (unitPoint d (fun k => U k ω) i) (unitPoint d (fun k => U k ω) j) ≤ r} ⊆
      ⋃ p ∈ (Finset.range n).sigma fun j => Finset.range j, {ω | dist (unitPoint d (fun k => U k ω) p.2) (unitPoint d (fun k => U k ω) p.1) ≤ r} := by
    rintro ω ⟨i, j, h1, h2, h3⟩
    simp only [Set.mem_iUnion]
    exact ⟨⟨j, i⟩, Finset.mem_sigma.2 ⟨Finset.mem_range.2 h2, Finset.mem_range.2 h1⟩, h3⟩
  refine le_trans (measureReal_mono hsub (measure_ne_top μ _)) (le_trans (measureReal_biUnion_finset_le _ _) ?_)
  have hfin : volume (Metric.closedBall (0 : EuclideanSpace ℝ (Fin d)) r) ≠ ⊤ := measure_closedBall_lt_top.ne
  have : ∀ p ∈ (Finset.range n).sigma fun j => Finset.range j,
      μ.real {ω | dist (unitPoint d (fun k => U k ω) p.2) (unitPoint d (fun k => U k ω) p.1) ≤ r} ≤
        volume.real (Metric.closedBall (0 : EuclideanSpace ℝ (Fin d)) r) := by
    intro p hp
    have hlt := Finset.mem_range.1 (Finset.mem_sigma.1 hp).2
    exact ENNReal.toReal_mono hfin (pair_close hm hi hl d p.2 p.1 (by omega) r)
  refine le_trans (Finset.sum_le_sum this) ?_
  rw [Finset.sum_const, Finset.card_sigma, nsmul_eq_mul]
  simp only [Finset.card_range]
  rw [Finset.sum_range_id]
  have e : ((n * (n - 1) / 2 : ℕ) : ℝ) = n * (n - 1) / 2 := by
    rw [Nat.cast_div (even_iff_two_dvd.1 (Nat.even_mul_pred_self n)) (by norm_num), Nat.cast_mul]
    cases n with
    | zero => simp
    | succ m => push_cast; simp
  rw [e]

/-! ### From below -/

/-- If point `j` is none of `i`, `k`, `l`, its being close to `i` does not help `k` and `l`. -/
theorem two_pairs_close {U : ℕ → Ω → ℝ} (hm : ∀ i, Measurable (U i)) (hi : iIndepFun U μ) (hl : ∀ i, μ.map (U i) = volume.restrict (Set.Icc 0 1))
    (d i j k l : ℕ) (hij : i ≠ j) (hkj : k ≠ j) (hlj : l ≠ j) (r : ℝ) :
    μ {ω | dist (unitPoint d (fun m => U m ω) i) (unitPoint d (fun m => U m ω) j) ≤ r ∧
        dist (unitPoint d (fun m => U m ω) k) (unitPoint d (fun m => U m ω) l) ≤ r} ≤
      volume (Metric.closedBall (0 : EuclideanSpace ℝ (Fin d)) r) *
        μ {ω | dist (unitPoint d (fun m => U m ω) k) (unitPoint d (fun m => U m ω) l) ≤ r} := by
  classical
  let S : ℕ → Finset ℕ := fun t => Finset.univ.image fun c : Fin d => d * t + (c : ℕ)
  have hS : ∀ {t x}, x ∈ S t → x / d = t := by
    intro t x h
    obtain ⟨c, -, rfl⟩ := Finset.mem_image.1 h
    rw [Nat.mul_add_div (by have := c.2; omega), Nat.div_eq_of_lt c.2, Nat.add_zero]
  have hmem : ∀ t (c : Fin d), d * t + (c : ℕ) ∈ S t := fun t c => Finset.mem_image.2 ⟨c, Finset.mem_univ _, rfl⟩
  let T : Finset ℕ := S i ∪ (S k ∪ S l)
  have hTi : ∀ c : Fin d, d * i + (c : ℕ) ∈ T := fun c => Finset.mem_union_left _ (hmem i c)
  have hTk : ∀ c : Fin d, d * k + (c : ℕ) ∈ T := fun c => Finset.mem_union_right _ (Finset.mem_union_left _ (hmem k c))
  have hTl : ∀ c : Fin d, d * l + (c : ℕ) ∈ T := fun c => Finset.mem_union_right _ (Finset.mem_union_right _ (hmem l c))
  have hdisj : Disjoint T (S j) := by
    rw [Finset.disjoint_left]
    intro x h1 h2
    have hj := hS h2
    rcases Finset.mem_union.1 h1 with h | h
    · exact hij ((hS h).symm.trans hj)
    · rcases Finset.mem_union.1 h with h | h
      · exact hkj ((hS h).symm.trans hj)
      · exact hlj ((hS h).symm.trans hj)
  have hind := hi.indepFun_finset T (S j) hdisj hm
  have hre : Measurable fun (f : S j → ℝ) (c : Fin d) => f ⟨d * j + (c : ℕ), hmem j c⟩ := measurable_pi_lambda _ fun c => measurable_pi_apply _
  have hind2 : IndepFun (fun ω (m : T) => U m ω) (fun ω (c : Fin d) => U (d * j + c) ω) μ := hind.comp measurable_id hre
  have hZ : Measurable fun ω (m : T) => U m ω := measurable_pi_lambda _ fun c => hm _
  have hX : Measurable fun ω (c : Fin d) => U (d * j + c) ω := measurable_pi_lambda _ fun c => hm _
  have hjoint := (indepFun_iff_map_prod_eq_prod_map_map hZ.aemeasurable hX.aemeasurable).1 hind2
  let P : (∀ t, (∀ c : Fin d, d * t + (c : ℕ) ∈ T) → (T → ℝ) → EuclideanSpace ℝ (Fin d)) := fun t ht z =>
    WithLp.toLp 2 fun c : Fin d => z ⟨d * t + (c : ℕ), ht c⟩
  have hP : ∀ t ht, Continuous (P t ht) := by
    intro t ht
    refine (PiLp.continuous_toLp 2 _).comp ?_
    exact continuous_pi fun c => continuous_apply _
  have hB : MeasurableSet {z : T → ℝ | dist (P k hTk z) (P l hTl z) ≤ r} :=
    measurableSet_le ((hP k hTk).dist (hP l hTl)).measurable measurable_const
  have hA : MeasurableSet {p : (T → ℝ) × (Fin d → ℝ) | dist (P i hTi p.1) (WithLp.toLp 2 p.2) ≤ r} := by
    refine measurableSet_le (Continuous.measurable ?_) measurable_const
    exact ((hP i hTi).comp continuous_fst).dist ((PiLp.continuous_toLp 2 _).comp continuous_snd)
  have hAB := hA.inter (measurable_fst hB)
  haveI : IsProbabilityMeasure (μ.map fun ω (c : Fin d) => U (d * j + c) ω) := Measure.isProbabilityMeasure_map hX.aemeasurable
  haveI : IsProbabilityMeasure (μ.map fun ω (m : T) => U m ω) := Measure.isProbabilityMeasure_map hZ.aemeasurable
  have e1 : {ω | dist (unitPoint d (fun m => U m ω) i) (unitPoint d (fun m => U m ω) j) ≤ r ∧
        dist (unitPoint d (fun m => U m ω) k) (unitPoint d (fun m => U m ω) l) ≤ r} =
      (fun ω => ((fun m : T => U m ω), fun c : Fin d => U (d * j + c) ω)) ⁻¹'
        ({p | dist (P i hTi p.1) (WithLp.toLp 2 p.2) ≤ r} ∩ Prod.fst ⁻¹' {z | dist (P k hTk z) (P l hTl z) ≤ r}) := rfl
  have e2 : {ω | dist (unitPoint d (fun m => U m ω) k) (unitPoint d (fun m => U m ω) l) ≤ r} =
      (fun ω (m : T) => U m ω) ⁻¹' {z | dist (P k hTk z) (P l hTl z) ≤ r} := rfl
  rw [e1, e2, ← Measure.map_apply (hZ.prodMk hX) hAB, hjoint, Measure.prod_apply hAB, ← Measure.map_apply hZ hB, ← lintegral_indicator_const hB]
  refine lintegral_mono fun z => ?_
  by_cases hz : z ∈ {z : T → ℝ | dist (P k hTk z) (P l hTl z) ≤ r}
  · rw [Set.indicator_of_mem hz, (pair_law hm hi hl d i j hij).2 j]
    refine le_trans (Measure.restrict_le_self _) (le_trans (measure_mono (t := (WithLp.toLp 2 : (Fin d → ℝ) → EuclideanSpace ℝ (Fin d)) ⁻¹'
      Metric.closedBall (P i hTi z) r) ?_) (le_of_eq ?_))
    · rintro y ⟨hy, -⟩
      show dist _ _ ≤ r
      rw [dist_comm]
      exact hy
    · rw [(PiLp.volume_preserving_toLp (Fin d)).measure_preimage Metric.isClosed_closedBall.measurableSet.nullMeasurableSet,
        Measure.addHaar_closedBall_center]
  · rw [Set.indicator_of_notMem hz]
    refine le_of_eq ?_
    have : Prod.mk z ⁻¹' ({p : (T → ℝ) × (Fin d → ℝ) | dist (P i hTi p.1) (WithLp.toLp 2 p.2) ≤ r} ∩
        Prod.fst ⁻¹' {z | dist (P k hTk z) (P l hTl z) ≤ r}) = ∅ := by
      ext y
      simp only [Set.mem_preimage, Set.mem_inter_iff, Set.mem_empty_iff_false, iff_false, not_and]
      exact fun _ => hz
    rw [this, measure_empty]

/-- Two points are close at least when the first is not near the border. -/
theorem pair_close_ge {U : ℕ → Ω → ℝ} (hm : ∀ i, Measurable (U i)) (hi : iIndepFun U μ) (hl : ∀ i, μ.map (U i) = volume.restrict (Set.Icc 0 1))
    (d i j : ℕ) (hij : i ≠ j) (r : ℝ) (hr : 0 ≤ r) (hr2 : 2 * r ≤ 1) :
    (1 - 2 * r) ^ d * volume.real (Metric.closedBall (0 : EuclideanSpace ℝ (Fin d)) r) ≤
      μ.real {ω | dist (unitPoint d (fun k => U k ω) i) (unitPoint d (fun k => U k ω) j) ≤ r} := by
  obtain ⟨h1, h2⟩ := pair_law hm hi hl d i j hij
  have hX : ∀ t, Measurable fun ω (k : Fin d) => U (d * t + k) ω := fun t => measurable_pi_lambda _ fun k => hm _
  have hjoint := (indepFun_iff_map_prod_eq_prod_map_map (hX i).aemeasurable (hX j).aemeasurable).1 h1
  have hS : MeasurableSet {p : (Fin d → ℝ) × (Fin d → ℝ) | dist (WithLp.toLp 2 p.1 : EuclideanSpace ℝ (Fin d)) (WithLp.toLp 2 p.2) ≤ r} := by
    refine measurableSet_le (Continuous.measurable ?_) measurable_const
    fun_prop
  have e : μ {ω | dist (unitPoint d (fun k => U k ω) i) (unitPoint d (fun k => U k ω) j) ≤ r} =
      (μ.map fun ω => ((fun k : Fin d => U (d * i + k) ω), fun k : Fin d => U (d * j + k) ω))
        {p | dist (WithLp.toLp 2 p.1 : EuclideanSpace ℝ (Fin d)) (WithLp.toLp 2 p.2) ≤ r} := by
    rw [Measure.map_apply ((hX i).prodMk (hX j)) hS]
    rfl
  haveI : IsProbabilityMeasure (μ.map fun ω (k : Fin d) => U (d * i + k) ω) := Measure.isProbabilityMeasure_map (hX i).aemeasurable
  haveI : IsProbabilityMeasure (μ.map fun ω (k : Fin d) => U (d * j + k) ω) := Measure.isProbabilityMeasure_map (hX j).aemeasurable
  let C : Set (Fin d → ℝ) := Set.univ.pi fun _ => Set.Icc r (1 - r)
  have hC : MeasurableSet C := MeasurableSet.univ_pi fun _ => measurableSet_Icc
  have hCm : (μ.map fun ω (k : Fin d) => U (d * i + k) ω) C = ENNReal.ofReal ((1 - 2 * r) ^ d) := by
    rw [h2 i, Measure.restrict_apply hC, ← Set.pi_inter_distrib, volume_pi, Measure.pi_pi]
    have : ∀ k : Fin d, volume (Set.Icc r (1 - r) ∩ Set.Icc (0 : ℝ) 1) = ENNReal.ofReal (1 - 2 * r) := fun _ => by
      rw [Set.inter_eq_left.2 (Set.Icc_subset_Icc hr (by linarith)), Real.volume_Icc]
      congr 1
      ring
    rw [Finset.prod_congr rfl fun k _ => this k, Finset.prod_const, Finset.card_univ, Fintype.card_fin, ENNReal.ofReal_pow (by linarith)]
  have key : volume (Metric.closedBall (0 : EuclideanSpace ℝ (Fin d)) r) * ENNReal.ofReal ((1 - 2 * r) ^ d) ≤
      μ {ω | dist (unitPoint d (fun k => U k ω) i) (unitPoint d (fun k => U k ω) j) ≤ r} := by
    rw [e, hjoint, Measure.prod_apply hS, ← hCm, ← lintegral_indicator_const hC]
    refine lintegral_mono fun x => ?_
    by_cases hx : x ∈ C
    · rw [Set.indicator_of_mem hx, h2 j]
      have : Prod.mk x ⁻¹' {p : (Fin d → ℝ) × (Fin d → ℝ) | dist (WithLp.toLp 2 p.1 : EuclideanSpace ℝ (Fin d)) (WithLp.toLp 2 p.2) ≤ r} =
          (WithLp.toLp 2 : (Fin d → ℝ) → EuclideanSpace ℝ (Fin d)) ⁻¹' Metric.closedBall (WithLp.toLp 2 x) r := by
        ext y
        simp only [Set.mem_preimage, Set.mem_ofPred_eq, Metric.mem_closedBall]
        rw [dist_comm]
      have hin : (WithLp.toLp 2 : (Fin d → ℝ) → EuclideanSpace ℝ (Fin d)) ⁻¹' Metric.closedBall (WithLp.toLp 2 x) r ⊆
          Set.univ.pi fun _ => Set.Icc 0 1 := by
        intro y hy k _
        have h3 : dist (WithLp.toLp 2 y : EuclideanSpace ℝ (Fin d)) (WithLp.toLp 2 x) ≤ r := hy
        have h4 : ‖(WithLp.toLp 2 y - WithLp.toLp 2 x : EuclideanSpace ℝ (Fin d)) k‖ ≤ r := le_trans (PiLp.norm_apply_le _ k) (by rwa [← dist_eq_norm])
        have h5 : |y k - x k| ≤ r := h4
        have h6 := hx k (Set.mem_univ _)
        have h7 := abs_le.1 h5
        exact ⟨by linarith [h6.1], by linarith [h6.2]⟩
      rw [this, Measure.restrict_apply ((PiLp.volume_preserving_toLp (Fin d)).measurable Metric.isClosed_closedBall.measurableSet),
        Set.inter_eq_left.2 hin,
        (PiLp.volume_preserving_toLp (Fin d)).measure_preimage Metric.isClosed_closedBall.measurableSet.nullMeasurableSet,
        Measure.addHaar_closedBall_center volume (WithLp.toLp 2 x)]
    · rw [Set.indicator_of_notMem hx]
      exact zero_le
  have := ENNReal.toReal_mono (measure_ne_top _ _) key
  rw [ENNReal.toReal_mul, ENNReal.toReal_ofReal (pow_nonneg (by linarith) _), mul_comm] at this
  exact this

/-- The second inequality of Bonferroni. -/
theorem bonferroni {ι : Type*} [DecidableEq ι] (A : ι → Set Ω) (hA : ∀ a, MeasurableSet (A a)) (c : ℝ) (s : Finset ι)
    (h : ∀ a ∈ s, ∀ b ∈ s, a ≠ b → μ.real (A a ∩ A b) ≤ c) :
    ∑ a ∈ s, μ.real (A a) - s.card * (s.card - 1) / 2 * c ≤ μ.real (⋃ a ∈ s, A a) := by
  induction s using Finset.induction_on with
  | empty => simp
  | insert a s ha ih =>
    have ih := ih fun x hx y hy => h x (Finset.mem_insert_of_mem hx) y (Finset.mem_insert_of_mem hy)
    rw [Finset.sum_insert ha, Finset.card_insert_of_notMem ha, Finset.set_biUnion_insert]
    have hU : MeasurableSet (⋃ b ∈ s, A b) := Finset.measurableSet_biUnion _ fun b _ => hA b
    have h1 := measureReal_union_add_inter (μ := μ) (s := A a) hU (measure_ne_top _ _) (measure_ne_top _ _)
    have h2 : μ.real (A a ∩ ⋃ b ∈ s, A b) ≤ s.card * c := by
      rw [Set.inter_iUnion₂]
      refine le_trans (measureReal_biUnion_finset_le _ _) ?_
      rw [← nsmul_eq_mul]
      refine Finset.sum_le_card_nsmul _ _ _ fun b hb => h a (Finset.mem_insert_self _ _) b (Finset.mem_insert_of_mem hb) ?_
      rintro rfl
      exact ha hb
    push_cast
    linarith

/-- The first `n` points have two within distance `r` with probability at least `λ(1-2r)^d - λ²/2`, `λ` the bound from above. -/
theorem some_pair_close_ge {U : ℕ → Ω → ℝ} (hm : ∀ i, Measurable (U i)) (hi : iIndepFun U μ)
    (hl : ∀ i, μ.map (U i) = volume.restrict (Set.Icc 0 1)) (d n : ℕ) (r : ℝ) (hr : 0 ≤ r) (hr2 : 2 * r ≤ 1) :
    n * (n - 1) / 2 * volume.real (Metric.closedBall (0 : EuclideanSpace ℝ (Fin d)) r) * (1 - 2 * r) ^ d -
      (n * (n - 1) / 2 * volume.real (Metric.closedBall (0 : EuclideanSpace ℝ (Fin d)) r)) ^ 2 / 2 ≤
    μ.real {ω | ∃ i j, i < j ∧ j < n ∧ dist (unitPoint d (fun k => U k ω) i) (unitPoint d (fun k => U k ω) j) ≤ r} := by
  classical
  obtain ⟨V, hV⟩ : ∃ V, V = volume.real (Metric.closedBall (0 : EuclideanSpace ℝ (Fin d)) r) := ⟨_, rfl⟩
  have hV0 : 0 ≤ V := hV ▸ measureReal_nonneg
  let s : Finset (Σ _ : ℕ, ℕ) := (Finset.range n).sigma fun j => Finset.range j
  let A : (Σ _ : ℕ, ℕ) → Set Ω := fun p => {ω | dist (unitPoint d (fun k => U k ω) p.2) (unitPoint d (fun k => U k ω) p.1) ≤ r}
  have hpt : ∀ t, Measurable fun ω => unitPoint d (fun k => U k ω) t := fun t =>
    (PiLp.continuous_toLp 2 _).measurable.comp (measurable_pi_lambda _ fun k => hm _)
  have hA : ∀ p, MeasurableSet (A p) := fun p => measurableSet_le ((hpt _).dist (hpt _)) measurable_const
  have hset : {ω | ∃ i j, i < j ∧ j < n ∧ dist (unitPoint d (fun k => U k ω) i) (unitPoint d (fun k => U k ω) j) ≤ r} = ⋃ p ∈ s, A p := by
    ext ω
    simp only [Set.mem_iUnion]
    constructor
    · rintro ⟨i, j, h1, h2, h3⟩
      exact ⟨⟨j, i⟩, Finset.mem_sigma.2 ⟨Finset.mem_range.2 h2, Finset.mem_range.2 h1⟩, h3⟩
    · rintro ⟨p, hp, h3⟩
      have := Finset.mem_sigma.1 hp
      exact ⟨p.2, p.1, Finset.mem_range.1 this.2, Finset.mem_range.1 this.1, h3⟩
  have hfin : volume (Metric.closedBall (0 : EuclideanSpace ℝ (Fin d)) r) ≠ ⊤ := measure_closedBall_lt_top.ne
  have hpair : ∀ i j, i ≠ j → μ.real {ω | dist (unitPoint d (fun k => U k ω) i) (unitPoint d (fun k => U k ω) j) ≤ r} ≤ V := fun i j hij => by
    rw [hV]
    exact ENNReal.toReal_mono hfin (pair_close hm hi hl d i j hij r)
  have htwo : ∀ i j k l, i ≠ j → k ≠ j → l ≠ j → k ≠ l → μ.real ({ω | dist (unitPoint d (fun m => U m ω) i) (unitPoint d (fun m => U m ω) j) ≤ r} ∩
      {ω | dist (unitPoint d (fun m => U m ω) k) (unitPoint d (fun m => U m ω) l) ≤ r}) ≤ V ^ 2 := by
    intro i j k l h1 h2 h3 h4
    have := ENNReal.toReal_mono (ENNReal.mul_ne_top hfin (measure_ne_top _ _)) (two_pairs_close hm hi hl d i j k l h1 h2 h3 r)
    rw [ENNReal.toReal_mul] at this
    refine le_trans this ?_
    rw [sq]
    refine mul_le_mul (le_of_eq hV.symm) (hpair k l h4) ENNReal.toReal_nonneg hV0
  have hswap : ∀ i j, {ω | dist (unitPoint d (fun m => U m ω) i) (unitPoint d (fun m => U m ω) j) ≤ r} =
      {ω | dist (unitPoint d (fun m => U m ω) j) (unitPoint d (fun m => U m ω) i) ≤ r} := fun i j => by
    ext ω
    show dist _ _ ≤ r ↔ dist _ _ ≤ r
    rw [dist_comm]
  have hb := bonferroni (μ := μ) A hA (V ^ 2) s fun p hp q hq hpq => by
    have h1 := Finset.mem_range.1 (Finset.mem_sigma.1 hp).2
    have h2 := Finset.mem_range.1 (Finset.mem_sigma.1 hq).2
    obtain ⟨j, i⟩ := p
    obtain ⟨l, k⟩ := q
    simp only at h1 h2
    by_cases hj : j = l
    · have hik : i ≠ k := by
        rintro rfl
        exact hpq (by rw [hj])
      show μ.real ({ω | dist (unitPoint d (fun m => U m ω) i) (unitPoint d (fun m => U m ω) j) ≤ r} ∩ _) ≤ _
      rw [hswap i j]
      exact htwo j i k l (by omega) (by omega) (by omega) (by omega)
    · by_cases hjk : j = k
      · show μ.real ({ω | dist (unitPoint d (fun m => U m ω) i) (unitPoint d (fun m => U m ω) j) ≤ r} ∩ _) ≤ _
        rw [hswap i j]
        exact htwo j i k l (by omega) (by omega) (by omega) (by omega)
      · exact htwo i j k l (by omega) (by omega) (by omega) (by omega)
  have hcard : (s.card : ℝ) = n * (n - 1) / 2 := by
    rw [Finset.card_sigma]
    simp only [Finset.card_range]
    rw [Finset.sum_range_id, Nat.cast_div (even_iff_two_dvd.1 (Nat.even_mul_pred_self n)) (by norm_num), Nat.cast_mul]
    cases n with
    | zero => simp
    | succ m => push_cast; simp
  have hsum : s.card * ((1 - 2 * r) ^ d * V) ≤ ∑ p ∈ s, μ.real (A p) := by
    rw [← nsmul_eq_mul]
    refine Finset.card_nsmul_le_sum _ _ _ fun p hp => ?_
    have h1 := Finset.mem_range.1 (Finset.mem_sigma.1 hp).2
    rw [hV]
    exact pair_close_ge hm hi hl d p.2 p.1 (by omega) r hr hr2
  rw [hset, ← hV]
  rw [hcard] at hb hsum
  have hn0 : (0 : ℝ) ≤ n * (n - 1) / 2 := hcard ▸ Nat.cast_nonneg _
  have : (0 : ℝ) ≤ n * (n - 1) / 2 * V ^ 2 := mul_nonneg hn0 (sq_nonneg V)
  nlinarith

end Dh
