import Mathlib.Probability.Independence.Basic
import Mathlib.MeasureTheory.Measure.Real
import Mathlib.Data.Nat.Choose.Sum
import Mathlib.Data.Matrix.Mul
import Mathlib.Algebra.BigOperators.Field
import Mathlib.LinearAlgebra.Matrix.Defs
import Mathlib.MeasureTheory.Constructions.BorelSpace.Real
import Mathlib.Tactic.Linarith
import Mathlib.Tactic.Ring
import Mathlib.Tactic.FieldSimp
import Mathlib.Tactic.Positivity
/-
The exact distribution of the Kolmogorov-Smirnov distance: a transfer from one unit interval to the next (Durbin; Marsaglia, Tsang, Wang).
`n` points are scaled to `[0, n)`.  The state after `s` intervals is the number of points below `s`.
-/
set_option linter.unusedSectionVars false
namespace Dh
open MeasureTheory ProbabilityTheory

variable {ι : Type*} [DecidableEq ι]

/-- Interval `s`: the points `R` lie in it, `m` points were below it and `c` are below its end. -/
def stepOk (k : ℕ) (h : ℝ) (s m c : ℕ) (R : Finset ι) (x : ι → ℝ) : Prop :=
  (∀ i ∈ R, (s : ℝ) ≤ x i ∧ x i < s + 1) ∧ (c ≤ s + k ∧ s + 2 ≤ c + k) ∧
  ¬ (c = s + k ∧ ∀ i ∈ R, x i ≤ s + h) ∧ ¬ (m + k = s + 1 ∧ ∀ i ∈ R, s + 1 - h ≤ x i)

open Classical in
/-- The points `S` lie in the first `s` intervals and pass all of them. -/
noncomputable def ksOk (k : ℕ) (h : ℝ) : ℕ → Finset ι → (ι → ℝ) → Prop
  | 0, S, _ => S = ∅
  | s + 1, S, x => ksOk k h s (S.filter fun i => x i < s) x ∧
      stepOk k h s (S.filter fun i => x i < s).card S.card (S.filter fun i => ¬ x i < s) x

theorem ksOk_lt (k : ℕ) (h : ℝ) : ∀ (s : ℕ) (S : Finset ι) (x : ι → ℝ), ksOk k h s S x → ∀ i ∈ S, x i < s := by
  intro s
  induction s with
  | zero => intro S x hS i hi; rw [ksOk] at hS; subst hS; simp at hi
  | succ s ih =>
    intro S x hS i hi
    rw [ksOk] at hS
    by_cases hc : x i < s
    · push_cast; linarith
    · have := (hS.2.1 i (by simp only [Finset.mem_filter]; exact ⟨hi, hc⟩)).2
      push_cast; linarith

theorem stepOk_congr (k : ℕ) (h : ℝ) (s m c : ℕ) (R : Finset ι) (x y : ι → ℝ) (hxy : ∀ i ∈ R, x i = y i) :
    stepOk k h s m c R x ↔ stepOk k h s m c R y := by
  have e : ∀ P : ℝ → Prop, (∀ i ∈ R, P (x i)) ↔ ∀ i ∈ R, P (y i) := fun P =>
    forall_congr' fun i => forall_congr' fun hi => by rw [hxy i hi]
  unfold stepOk
  rw [e fun t => (s : ℝ) ≤ t ∧ t < s + 1, e fun t => t ≤ s + h, e fun t => s + 1 - h ≤ t]

theorem ksOk_succ_iff (k : ℕ) (h : ℝ) (s : ℕ) (S : Finset ι) (x : ι → ℝ) :
    ksOk k h (s + 1) S x ↔ ∃ T ∈ S.powerset, ksOk k h s T x ∧ stepOk k h s T.card S.card (S \ T) x := by
  classical
  constructor
  · intro hS
    rw [ksOk] at hS
    refine ⟨S.filter fun i => x i < s, by simp, ?_⟩
    have e : S \ (S.filter fun i => x i < s) = S.filter fun i => ¬ x i < s := by
      ext i; simp only [Finset.mem_sdiff, Finset.mem_filter]; tauto
    rw [e]
    convert hS
  · rintro ⟨T, hT, h1, h2⟩
    rw [Finset.mem_powerset] at hT
    have e1 : S.filter (fun i => x i < s) = T := by
      ext i
      rw [Finset.mem_filter]
      constructor
      · rintro ⟨hi, hlt⟩
        by_contra hc
        exact absurd ((h2.1 i (Finset.mem_sdiff.2 ⟨hi, hc⟩)).1) (not_le.2 hlt)
      · intro hi; exact ⟨hT hi, ksOk_lt k h s T x h1 i hi⟩
    have e2 : S.filter (fun i => ¬ x i < s) = S \ T := by
      ext i
      rw [← e1]; simp only [Finset.mem_sdiff, Finset.mem_filter]; tauto
    rw [ksOk]
    constructor
    · convert h1
    · convert h2

theorem ksOk_congr (k : ℕ) (h : ℝ) : ∀ (s : ℕ) (S : Finset ι) (x y : ι → ℝ), (∀ i ∈ S, x i = y i) → (ksOk k h s S x ↔ ksOk k h s S y) := by
  intro s
  induction s with
  | zero => intro S x y _; rw [ksOk, ksOk]
  | succ s ih =>
    intro S x y hxy
    rw [ksOk_succ_iff, ksOk_succ_iff]
    refine exists_congr fun T => and_congr_right fun hT => ?_
    rw [Finset.mem_powerset] at hT
    rw [ih T x y fun i hi => hxy i (hT hi), stepOk_congr k h s _ _ _ x y fun i hi => hxy i (Finset.sdiff_subset hi)]

theorem measurable_stepOk (k : ℕ) (h : ℝ) (s m c : ℕ) (R : Finset ι) : MeasurableSet {x : ι → ℝ | stepOk k h s m c R x} := by
  have e : ∀ P : Set ℝ, MeasurableSet P → MeasurableSet {x : ι → ℝ | ∀ i ∈ R, x i ∈ P} := by
    intro P hP
    have : {x : ι → ℝ | ∀ i ∈ R, x i ∈ P} = ⋂ i ∈ R, (fun x : ι → ℝ => x i) ⁻¹' P := by ext x; simp
    rw [this]
    exact Finset.measurableSet_biInter _ fun i _ => measurable_pi_apply i hP
  unfold stepOk
  refine MeasurableSet.inter (e (Set.Ico (s : ℝ) (s + 1)) measurableSet_Ico) (MeasurableSet.inter (MeasurableSet.const _)
    (MeasurableSet.inter (MeasurableSet.compl (MeasurableSet.inter (MeasurableSet.const _) (e (Set.Iic (s + h)) measurableSet_Iic)))
      (MeasurableSet.compl (MeasurableSet.inter (MeasurableSet.const _) (e (Set.Ici (s + 1 - h)) measurableSet_Ici)))))

theorem measurable_ksOk (k : ℕ) (h : ℝ) : ∀ (s : ℕ) (S : Finset ι), MeasurableSet {x : ι → ℝ | ksOk k h s S x} := by
  intro s
  induction s with
  | zero => intro S; simp only [ksOk]; exact MeasurableSet.const _
  | succ s ih =>
    intro S
    have : {x : ι → ℝ | ksOk k h (s + 1) S x} =
        ⋃ T ∈ S.powerset, ({x | ksOk k h s T x} ∩ {x | stepOk k h s T.card S.card (S \ T) x}) := by
      ext x
      simp only [Set.mem_setOf_eq, ksOk_succ_iff, Set.mem_iUnion, Set.mem_inter_iff, exists_prop]
    rw [this]
    exact Finset.measurableSet_biUnion _ fun T _ => (ih T).inter (measurable_stepOk _ _ _ _ _ _)

/-! ### Probabilities -/

variable {Ω : Type*} [MeasurableSpace Ω] {μ : Measure Ω} [IsProbabilityMeasure μ]

/-- Events about disjoint sets of points are independent. -/
theorem indep_parts {X : ι → Ω → ℝ} (hm : ∀ i, Measurable (X i)) (hi : iIndepFun X μ) (T R : Finset ι) (hd : Disjoint T R)
    (P Q : (ι → ℝ) → Prop) (hP : MeasurableSet {x | P x}) (hQ : MeasurableSet {x | Q x})
    (hPc : ∀ x y, (∀ i ∈ T, x i = y i) → (P x ↔ P y)) (hQc : ∀ x y, (∀ i ∈ R, x i = y i) → (Q x ↔ Q y)) :
    μ.real {ω | P (fun i => X i ω) ∧ Q (fun i => X i ω)} = μ.real {ω | P (fun i => X i ω)} * μ.real {ω | Q (fun i => X i ω)} := by
  let ext : (U : Finset ι) → (U → ℝ) → ι → ℝ := fun U z i => if hi : i ∈ U then z ⟨i, hi⟩ else 0
  have hext : ∀ U, Measurable (ext U) := by
    intro U
    refine measurable_pi_iff.2 fun i => ?_
    by_cases hi : i ∈ U
    · simp only [ext, dif_pos hi]; exact measurable_pi_apply _
    · simp only [ext, dif_neg hi]; exact measurable_const
  have hI := hi.indepFun_finset T R hd hm
  have h := hI.measure_inter_preimage_eq_mul _ _ (hext T hP) (hext R hQ)
  have e1 : (fun a (i : T) => X i a) ⁻¹' (ext T ⁻¹' {x | P x}) = {ω | P (fun i => X i ω)} := by
    ext ω
    exact hPc _ _ fun i hi => by simp only [ext, dif_pos hi]
  have e2 : (fun a (i : R) => X i a) ⁻¹' (ext R ⁻¹' {x | Q x}) = {ω | Q (fun i => X i ω)} := by
    ext ω
    exact hQc _ _ fun i hi => by simp only [ext, dif_pos hi]
  rw [e1, e2] at h
  have h' := congrArg ENNReal.toReal h
  rw [ENNReal.toReal_mul] at h'
  exact h'

/-- Independent points, uniform on `[0, n)`. -/
structure UnifPts (μ : Measure Ω) (n : ℕ) (X : ι → Ω → ℝ) : Prop where
  meas : ∀ i, Measurable (X i)
  indep : iIndepFun X μ
  law : ∀ i (a b : ℝ), 0 ≤ a → a ≤ b → b ≤ n → μ.real {ω | X i ω ∈ Set.Ico a b} = (b - a) / n ∧ μ.real {ω | X i ω ∈ Set.Icc a b} = (b - a) / n

theorem UnifPts.box {n : ℕ} {X : ι → Ω → ℝ} (hX : UnifPts μ n X) (R : Finset ι) (a b : ℝ) (h0 : 0 ≤ a) (hab : a ≤ b) (hb : b ≤ n)
    (J : Set ℝ) (hJ : MeasurableSet J) (h1 : Set.Ico a b ⊆ J) (h2 : J ⊆ Set.Icc a b) :
    μ.real {ω | ∀ i ∈ R, X i ω ∈ J} = ((b - a) / n) ^ R.card := by
  have hl : ∀ i, μ.real (X i ⁻¹' J) = (b - a) / n := by
    intro i
    refine le_antisymm ?_ ?_
    · rw [← (hX.law i a b h0 hab hb).2]
      exact measureReal_mono (fun ω hω => h2 hω)
    · rw [← (hX.law i a b h0 hab hb).1]
      exact measureReal_mono (fun ω hω => h1 hω)
  have e : {ω | ∀ i ∈ R, X i ω ∈ J} = ⋂ i ∈ R, X i ⁻¹' J := by ext ω; simp
  have h := hX.indep.measure_inter_preimage_eq_mul R (sets := fun _ => J) (fun _ _ => hJ)
  rw [e, Measure.real, h, ENNReal.toReal_prod]
  have : ∀ i ∈ R, (μ (X i ⁻¹' J)).toReal = (b - a) / n := fun i _ => hl i
  rw [Finset.prod_congr rfl this, Finset.prod_const]

/-- The entry of the matrix of Marsaglia, Tsang and Wang. -/
noncomputable def mtwEntry (k : ℕ) (h : ℝ) (i j : ℕ) : ℝ :=
  if i + 1 < j then 0 else
  (1 - (if j = 0 then h ^ (i + 1) else 0) - (if i + 1 = 2 * k - 1 then h ^ (2 * k - 1 - j) else 0) +
    (if i + 1 = 2 * k - 1 ∧ j = 0 then max (2 * h - 1) 0 ^ (2 * k - 1) else 0)) / (i + 1 - j).factorial

theorem step_prob {n : ℕ} {X : ι → Ω → ℝ} (hX : UnifPts μ n X) (k : ℕ) (hk : 0 < k) (h : ℝ) (h0 : 0 < h) (h1 : h ≤ 1) (s m : ℕ)
    (hs : s < n) (R : Finset ι) (hm1 : s + 1 ≤ m + k) (hc1 : m + R.card ≤ s + k) (hc2 : s + 2 ≤ m + R.card + k) (hm2 : m + 1 ≤ s + k) :
    μ.real {ω | stepOk k h s m (m + R.card) R (fun i => X i ω)} =
      (R.card.factorial * mtwEntry k h (m + R.card + k - (s + 2)) (m + k - (s + 1))) / n ^ R.card := by
  have hs1 : (s : ℝ) + 1 ≤ n := by exact_mod_cast hs
  have hs0 : (0 : ℝ) ≤ s := Nat.cast_nonneg s
  have hn : (0 : ℝ) < n := by linarith
  let C : Set Ω := {ω | ∀ i ∈ R, X i ω ∈ Set.Ico (s : ℝ) (s + 1)}
  let A : Set Ω := {ω | (m + R.card = s + k) ∧ ∀ i ∈ R, X i ω ∈ Set.Ico (s : ℝ) (s + 1) ∩ Set.Iic (s + h)}
  let B : Set Ω := {ω | (m + k = s + 1) ∧ ∀ i ∈ R, X i ω ∈ Set.Ico (s : ℝ) (s + 1) ∩ Set.Ici (s + 1 - h)}
  have hbox : ∀ (J : Set ℝ), MeasurableSet J → MeasurableSet {ω | ∀ i ∈ R, X i ω ∈ J} := by
    intro J hJ
    have : {ω | ∀ i ∈ R, X i ω ∈ J} = ⋂ i ∈ R, X i ⁻¹' J := by ext ω; simp
    rw [this]
    exact Finset.measurableSet_biInter _ fun i _ => hX.meas i hJ
  have hA : MeasurableSet A := (MeasurableSet.const _).inter (hbox _ (measurableSet_Ico.inter measurableSet_Iic))
  have hB : MeasurableSet B := (MeasurableSet.const _).inter (hbox _ (measurableSet_Ico.inter measurableSet_Ici))
  have hset : {ω | stepOk k h s m (m + R.card) R (fun i => X i ω)} = C \ (A ∪ B) := by
    ext ω
    simp only [stepOk, C, A, B, Set.mem_setOf_eq, Set.mem_diff, Set.mem_union, Set.mem_inter_iff, Set.mem_Ico, Set.mem_Iic, Set.mem_Ici,
      not_or]
    constructor
    · rintro ⟨a, -, b, c⟩
      exact ⟨a, fun d => b ⟨d.1, fun i hi => (d.2 i hi).2⟩, fun d => c ⟨d.1, fun i hi => (d.2 i hi).2⟩⟩
    · rintro ⟨a, b, c⟩
      exact ⟨a, ⟨hc1, hc2⟩, fun d => b ⟨d.1, fun i hi => ⟨a i hi, d.2 i hi⟩⟩, fun d => c ⟨d.1, fun i hi => ⟨a i hi, d.2 i hi⟩⟩⟩
  have hsub : A ∪ B ⊆ C := by
    rintro ω (hω | hω)
    · exact fun i hi => (hω.2 i hi).1
    · exact fun i hi => (hω.2 i hi).1
  have mC : μ.real C = (1 / n) ^ R.card := by
    have := hX.box R s (s + 1) hs0 (by linarith) hs1 (Set.Ico s (s + 1)) measurableSet_Ico (le_refl _) Set.Ico_subset_Icc_self
    rw [show (s : ℝ) + 1 - s = 1 by ring] at this
    exact this
  have mA : μ.real A = if m + R.card = s + k then (h / n) ^ R.card else 0 := by
    split
    · rename_i hc
      have := hX.box R s (s + h) hs0 (by linarith) (by linarith) (Set.Ico (s : ℝ) (s + 1) ∩ Set.Iic (s + h))
        (measurableSet_Ico.inter measurableSet_Iic) (fun t ht => ⟨⟨ht.1, lt_of_lt_of_le ht.2 (by linarith)⟩, ht.2.le⟩)
        (fun t ht => ⟨ht.1.1, ht.2⟩)
      rw [show (s : ℝ) + h - s = h by ring] at this
      rw [← this]
      congr 1
      ext ω
      exact ⟨fun hω => hω.2, fun hω => ⟨hc, hω⟩⟩
    · rename_i hc
      have : A = ∅ := Set.eq_empty_of_forall_notMem fun ω hω => hc hω.1
      rw [this, measureReal_empty]
  have mB : μ.real B = if m + k = s + 1 then (h / n) ^ R.card else 0 := by
    split
    · rename_i hc
      have := hX.box R (s + 1 - h) (s + 1) (by linarith) (by linarith) (by linarith) (Set.Ico (s : ℝ) (s + 1) ∩ Set.Ici (s + 1 - h))
        (measurableSet_Ico.inter measurableSet_Ici) (fun t ht => ⟨⟨le_trans (by linarith) ht.1, ht.2⟩, ht.1⟩)
        (fun t ht => ⟨ht.2, ht.1.2.le⟩)
      rw [show (s : ℝ) + 1 - (s + 1 - h) = h by ring] at this
      rw [← this]
      congr 1
      ext ω
      exact ⟨fun hω => hω.2, fun hω => ⟨hc, hω⟩⟩
    · rename_i hc
      have : B = ∅ := Set.eq_empty_of_forall_notMem fun ω hω => hc hω.1
      rw [this, measureReal_empty]
  have mAB : μ.real (A ∩ B) = if m + R.card = s + k ∧ m + k = s + 1 then (max (2 * h - 1) 0 / n) ^ R.card else 0 := by
    split
    · rename_i hc
      have hr : R.card ≠ 0 := by omega
      have e : A ∩ B = {ω | ∀ i ∈ R, X i ω ∈ Set.Ico (s : ℝ) (s + 1) ∩ Set.Icc (s + 1 - h) (s + h)} := by
        ext ω
        constructor
        · rintro ⟨a, b⟩ i hi
          exact ⟨(a.2 i hi).1, (b.2 i hi).2, (a.2 i hi).2⟩
        · intro hω
          exact ⟨⟨hc.1, fun i hi => ⟨(hω i hi).1, (hω i hi).2.2⟩⟩, ⟨hc.2, fun i hi => ⟨(hω i hi).1, (hω i hi).2.1⟩⟩⟩
      rw [e]
      rcases le_total (2 * h - 1) 0 with hh | hh
      · rw [max_eq_right hh]
        have := hX.box R s s hs0 (le_refl _) (by linarith) ∅ MeasurableSet.empty (by simp) (by simp)
        rw [sub_self] at this
        refine le_antisymm ?_ ?_
        · obtain ⟨i, hi⟩ := Finset.card_pos.1 (Nat.pos_of_ne_zero hr)
          rw [zero_div, zero_pow hr]
          have hz := (hX.box {i} s s hs0 (le_refl _) (by linarith) ∅ MeasurableSet.empty (by simp) (by simp))
          rcases hh.eq_or_lt with hh | hh
          · have hz := hX.box {i} (s + h) (s + h) (by linarith) (le_refl _) (by linarith) {(s : ℝ) + h} (measurableSet_singleton _) (by simp)
              (by simp)
            rw [sub_self, zero_div, Finset.card_singleton, pow_one] at hz
            rw [← hz]
            refine measureReal_mono fun ω hω j hj => ?_
            rw [Finset.mem_singleton] at hj
            subst hj
            have := hω j hi
            simp only [Set.mem_inter_iff, Set.mem_Icc] at this
            rw [Set.mem_singleton_iff]
            linarith [this.2.1, this.2.2]
          · have : {ω | ∀ i ∈ R, X i ω ∈ Set.Ico (s : ℝ) (s + 1) ∩ Set.Icc (s + 1 - h) (s + h)} = ∅ := by
              refine Set.eq_empty_of_forall_notMem fun ω hω => ?_
              have := hω i hi
              simp only [Set.mem_inter_iff, Set.mem_Icc] at this
              linarith [this.2.1, this.2.2]
            rw [this, measureReal_empty]
        · rw [zero_div, zero_pow hr]; exact measureReal_nonneg
      · rw [max_eq_left hh]
        have := hX.box R (s + 1 - h) (s + h) (by linarith) (by linarith) (by linarith)
          (Set.Ico (s : ℝ) (s + 1) ∩ Set.Icc (s + 1 - h) (s + h)) (measurableSet_Ico.inter measurableSet_Icc)
          (fun t ht => ⟨⟨by linarith [ht.1], lt_of_lt_of_le ht.2 (by linarith)⟩, ht.1, ht.2.le⟩) (fun t ht => ht.2)
        rw [show (s : ℝ) + h - (s + 1 - h) = 2 * h - 1 by ring] at this
        exact this
    · rename_i hc
      have : A ∩ B = ∅ := Set.eq_empty_of_forall_notMem fun ω hω => hc ⟨hω.1.1, hω.2.1⟩
      rw [this, measureReal_empty]
  have hdiff := measureReal_diff (μ := μ) hsub (hA.union hB)
  have hun := measureReal_union_add_inter (μ := μ) (s := A) hB
  rw [hset, hdiff, mC]
  rw [mA, mB, mAB] at hun
  have hU : μ.real (A ∪ B) = (if m + R.card = s + k then (h / n) ^ R.card else 0) + (if m + k = s + 1 then (h / n) ^ R.card else 0) -
      (if m + R.card = s + k ∧ m + k = s + 1 then (max (2 * h - 1) 0 / n) ^ R.card else 0) := by linarith
  rw [hU, mtwEntry, if_neg (by omega : ¬ m + R.card + k - (s + 2) + 1 < m + k - (s + 1))]
  have e1 : m + R.card + k - (s + 2) + 1 - (m + k - (s + 1)) = R.card := by omega
  have hf : (R.card.factorial : ℝ) ≠ 0 := by positivity
  rw [e1, mul_div_cancel₀ _ hf]
  have t1 : (if m + k - (s + 1) = 0 then h ^ (m + R.card + k - (s + 2) + 1) else 0) = if m + k = s + 1 then h ^ R.card else 0 := by
    by_cases hc : m + k = s + 1
    · rw [if_pos hc, if_pos (by omega)]
      congr 1; omega
    · rw [if_neg hc, if_neg (by omega)]
  have t2 : (if m + R.card + k - (s + 2) + 1 = 2 * k - 1 then h ^ (2 * k - 1 - (m + k - (s + 1))) else 0) =
      if m + R.card = s + k then h ^ R.card else 0 := by
    by_cases hc : m + R.card = s + k
    · rw [if_pos hc, if_pos (by omega)]
      congr 1; omega
    · rw [if_neg hc, if_neg (by omega)]
  have t3 : (if m + R.card + k - (s + 2) + 1 = 2 * k - 1 ∧ m + k - (s + 1) = 0 then max (2 * h - 1) 0 ^ (2 * k - 1) else 0) =
      if m + R.card = s + k ∧ m + k = s + 1 then max (2 * h - 1) 0 ^ R.card else 0 := by
    by_cases hc : m + R.card = s + k ∧ m + k = s + 1
    · rw [if_pos hc, if_pos (by omega)]
      congr 1; omega
    · rw [if_neg hc, if_neg (by omega)]
  rw [t1, t2, t3]
  simp only [div_pow, one_pow]
  split <;> split <;> split <;> first | omega | skip
  all_goals first | ring | (exfalso; omega)

/-- Weights of the states: `ksW s c / n^c · c!` is the probability that `c` given points pass the first `s` intervals. -/
noncomputable def ksW (k : ℕ) (h : ℝ) : ℕ → ℕ → ℝ
  | 0, c => if c = 0 then 1 else 0
  | s + 1, c => if c ≤ s + k ∧ s + 2 ≤ c + k then
      ∑ m ∈ Finset.range (c + 1), mtwEntry k h (c + k - (s + 2)) (m + k - (s + 1)) * ksW k h s m else 0

theorem ksW_range (k : ℕ) (hk : 0 < k) (h : ℝ) (s m : ℕ) (hne : ksW k h s m ≠ 0) : s + 1 ≤ m + k ∧ m + 1 ≤ s + k := by
  cases s with
  | zero =>
    rw [ksW] at hne
    by_cases hm : m = 0
    · omega
    · rw [if_neg hm] at hne; exact absurd rfl hne
  | succ s =>
    rw [ksW] at hne
    by_cases hm : m ≤ s + k ∧ s + 2 ≤ m + k
    · omega
    · rw [if_neg hm] at hne; exact absurd rfl hne

theorem ksOk_prob {n : ℕ} {X : ι → Ω → ℝ} (hX : UnifPts μ n X) (k : ℕ) (hk : 0 < k) (h : ℝ) (h0 : 0 < h) (h1 : h ≤ 1) :
    ∀ (s : ℕ) (S : Finset ι), s ≤ n → μ.real {ω | ksOk k h s S (fun i => X i ω)} = S.card.factorial * ksW k h s S.card / n ^ S.card := by
  have hXm : Measurable fun ω => fun i => X i ω := measurable_pi_iff.2 hX.meas
  intro s
  induction s with
  | zero =>
    intro S _
    rw [ksW]
    by_cases hS : S = ∅
    · subst hS
      simp [ksOk]
    · simp [ksOk, hS]
  | succ s ih =>
    intro S hs
    have hn : (0 : ℝ) < n := by exact_mod_cast (by omega : 0 < n)
    rw [ksW]
    by_cases hc : S.card ≤ s + k ∧ s + 2 ≤ S.card + k
    · rw [if_pos hc]
      have hun : {ω | ksOk k h (s + 1) S (fun i => X i ω)} =
          ⋃ T ∈ S.powerset, {ω | ksOk k h s T (fun i => X i ω) ∧ stepOk k h s T.card S.card (S \ T) (fun i => X i ω)} := by
        ext ω
        simp only [Set.mem_setOf_eq, ksOk_succ_iff, Set.mem_iUnion, exists_prop]
      rw [hun, measureReal_biUnion_finset]
      · have hterm : ∀ T ∈ S.powerset,
            μ.real {ω | ksOk k h s T (fun i => X i ω) ∧ stepOk k h s T.card S.card (S \ T) (fun i => X i ω)} =
            (T.card.factorial * (S.card - T.card).factorial) *
              (mtwEntry k h (S.card + k - (s + 2)) (T.card + k - (s + 1)) * ksW k h s T.card) / n ^ S.card := by
          intro T hT
          rw [Finset.mem_powerset] at hT
          have hle := Finset.card_le_card hT
          have hcd : (S \ T).card = S.card - T.card := Finset.card_sdiff_of_subset hT
          rw [indep_parts hX.meas hX.indep T (S \ T) Finset.disjoint_sdiff _ _ (measurable_ksOk k h s T) (measurable_stepOk k h s _ _ _)
            (fun x y hxy => ksOk_congr k h s T x y hxy) (fun x y hxy => stepOk_congr k h s _ _ _ x y hxy), ih T (by omega)]
          by_cases hz : ksW k h s T.card = 0
          · rw [hz]; ring
          · have hr := ksW_range k hk h s _ hz
            have e : S.card = T.card + (S \ T).card := by omega
            have hst := step_prob hX k hk h h0 h1 s T.card (by omega) (S \ T) hr.1 (by omega) (by omega) hr.2
            rw [← e] at hst
            rw [hst, hcd]
            have e2 : (n : ℝ) ^ S.card = n ^ T.card * n ^ (S.card - T.card) := by rw [← pow_add]; congr 1; omega
            rw [e2]
            field_simp
        rw [Finset.sum_congr rfl hterm]
        rw [Finset.sum_powerset_apply_card (fun m => ((m.factorial * (S.card - m).factorial) *
              (mtwEntry k h (S.card + k - (s + 2)) (m + k - (s + 1)) * ksW k h s m) / n ^ S.card : ℝ))]
        rw [Finset.mul_sum, Finset.sum_div]
        refine Finset.sum_congr rfl fun m hm => ?_
        rw [Finset.mem_range] at hm
        have hch := Nat.choose_mul_factorial_mul_factorial (n := S.card) (k := m) (by omega)
        have hch' : (S.card.choose m : ℝ) * m.factorial * (S.card - m).factorial = S.card.factorial := by exact_mod_cast hch
        rw [nsmul_eq_mul, ← hch']
        ring
      · intro T hT T' hT' hne
        refine Set.disjoint_left.2 fun ω h1 h2 => hne ?_
        have key : ∀ T : Finset ι, T ⊆ S → ksOk k h s T (fun i => X i ω) ∧ stepOk k h s T.card S.card (S \ T) (fun i => X i ω) →
            ∀ i, i ∈ T ↔ (i ∈ S ∧ X i ω < s) := by
          intro T hT hT2 i
          constructor
          · intro hi; exact ⟨hT hi, ksOk_lt k h s T _ hT2.1 i hi⟩
          · rintro ⟨hi, hlt⟩
            by_contra hcc
            exact absurd ((hT2.2.1 i (Finset.mem_sdiff.2 ⟨hi, hcc⟩)).1) (not_le.2 hlt)
        ext i
        rw [key T (Finset.mem_powerset.1 (Finset.mem_coe.1 hT)) h1, key T' (Finset.mem_powerset.1 (Finset.mem_coe.1 hT')) h2]
      · intro T _
        exact (hXm (measurable_ksOk k h s T)).inter (hXm (measurable_stepOk k h s _ _ _))
    · rw [if_neg hc, mul_zero, zero_div]
      have : {ω | ksOk k h (s + 1) S (fun i => X i ω)} = ∅ := by
        refine Set.eq_empty_of_forall_notMem fun ω hω => ?_
        rw [Set.mem_setOf_eq, ksOk] at hω
        exact hc hω.2.2.1
      rw [this, measureReal_empty]

/-- The weights are a column of the matrix power. -/
theorem ksW_eq_pow (k : ℕ) (hk : 0 < k) (h : ℝ) (H : Matrix (Fin (2 * k - 1)) (Fin (2 * k - 1)) ℝ) (hH : ∀ i j, H i j = mtwEntry k h i j)
    (hc : k - 1 < 2 * k - 1) : ∀ (s : ℕ) (i : Fin (2 * k - 1)), (H ^ s) i ⟨k - 1, hc⟩ = if k ≤ i.val + s + 1 then ksW k h s (i.val + s + 1 - k) else 0 := by
  intro s
  induction s with
  | zero =>
    intro i
    rw [pow_zero, Matrix.one_apply, ksW]
    by_cases h1 : k ≤ i.val + 0 + 1
    · rw [if_pos h1]
      by_cases h2 : i = ⟨k - 1, hc⟩
      · rw [if_pos h2, if_pos]; rw [h2]; simp only; omega
      · rw [if_neg h2, if_neg]; intro h3; apply h2; ext; simp only; omega
    · rw [if_neg h1, if_neg]; intro h3; rw [h3] at h1; simp only at h1; omega
  | succ s ih =>
    intro i
    have hi := i.2
    rw [pow_succ', Matrix.mul_apply]
    simp only [ih, hH]
    by_cases h1 : k ≤ i.val + (s + 1) + 1
    · rw [if_pos h1, ksW, if_pos (by omega)]
      have e : i.val + (s + 1) + 1 - k + k - (s + 2) = i.val := by omega
      rw [e]
      refine Finset.sum_bij_ne_zero (fun j _ _ => j.val + s + 1 - k) ?_ ?_ ?_ ?_
      · intro j _ hj
        rw [Finset.mem_range]
        have hj1 : mtwEntry k h i j ≠ 0 := left_ne_zero_of_mul hj
        have : ¬ i.val + 1 < j.val := fun hlt => hj1 (by rw [mtwEntry, if_pos hlt])
        omega
      · intro j _ hj j' _ hj' heq
        have a : k ≤ j.val + s + 1 := by by_contra hlt; rw [if_neg hlt, mul_zero] at hj; exact hj rfl
        have b : k ≤ j'.val + s + 1 := by by_contra hlt; rw [if_neg hlt, mul_zero] at hj'; exact hj' rfl
        ext; omega
      · intro m hm hne
        rw [Finset.mem_range] at hm
        have hr := ksW_range k hk h s m (right_ne_zero_of_mul hne)
        refine ⟨⟨m + k - (s + 1), by omega⟩, Finset.mem_univ _, ?_, ?_⟩
        · have : m + k - (s + 1) + s + 1 - k = m := by omega
          simp only [this]
          rw [if_pos (by omega)]
          exact hne
        · simp only; omega
      · intro j _ hj
        have a : k ≤ j.val + s + 1 := by by_contra hlt; rw [if_neg hlt, mul_zero] at hj; exact hj rfl
        rw [if_pos a, show j.val + s + 1 - k + k - (s + 1) = j.val by omega]
    · rw [if_neg h1]
      refine Finset.sum_eq_zero fun j _ => ?_
      by_cases h2 : k ≤ j.val + s + 1
      · rw [mtwEntry, if_pos (by omega), zero_mul]
      · rw [if_neg h2, mul_zero]

end Dh
