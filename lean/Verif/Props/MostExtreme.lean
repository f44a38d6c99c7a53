import Verif.Model.MostExtreme
import Mathlib.MeasureTheory.Measure.Lebesgue.Basic
import Mathlib.MeasureTheory.Constructions.Pi
import Mathlib.MeasureTheory.Measure.Haar.Unique
import Mathlib.Analysis.Convex.Mul
import Mathlib.Analysis.SpecialFunctions.Pow.Real
/-
C99: what evalMostExtreme returns, and its law for independent uniform p-values.
-/
namespace Dh
open MeasureTheory

namespace Spec

/-- The distance of a p-value from the nearer end of the unit interval. -/
noncomputable def toEnd (p : ℝ) : ℝ := min p (1 - p)

/-- The p-value `k` is the first of the most extreme ones. -/
def IsExtreme {n : Nat} (p : Fin n → ℝ) (k : Fin n) : Prop := (∀ j, toEnd (p k) ≤ toEnd (p j)) ∧ ∀ j < k, toEnd (p k) < toEnd (p j)

end Spec
open Spec

theorem foldP_toEnd (p : ℝ) : foldP p = toEnd p := by
  rw [foldP, toEnd]
  by_cases h : p > 1 / 2
  · rw [if_pos h, min_eq_right (by linarith)]
  · rw [if_neg h, min_eq_left (by linarith)]

theorem toEnd_le_half (p : ℝ) : toEnd p ≤ 1 / 2 := by
  rw [toEnd]
  by_cases h : p ≤ 1 / 2
  · exact (min_le_left _ _).trans h
  · exact (min_le_right _ _).trans (by linarith)

theorem IsExtreme.unique {n : Nat} {p : Fin n → ℝ} {k l : Fin n} (hk : IsExtreme p k) (hl : IsExtreme p l) : k = l := by
  rcases lt_trichotomy k l with h | h | h
  · exact absurd (hk.1 l) (not_le.2 (hl.2 k h))
  · exact h
  · exact absurd (hl.1 k) (not_le.2 (hk.2 l h))

/-- After some p-values the loop holds the first of the most extreme ones. -/
theorem extremeLoop_spec {n : Nat} (p : Fin n → ℝ) : ∀ (todo i : Nat) (k : Fin n), i + todo = n → k.val < i →
    (∀ j : Fin n, j.val < i → toEnd (p k) ≤ toEnd (p j)) → (∀ j < k, toEnd (p k) < toEnd (p j)) →
    ∃ l, IsExtreme p l ∧ extremeLoop (List.ofFn p) todo i (toEnd (p k)) (foldSign (p k)) = .ok (toEnd (p l), foldSign (p l)) := by
  intro todo
  induction todo with
  | zero =>
    intro i k hi hk h1 h2
    exact ⟨k, ⟨fun j => h1 j (by omega), h2⟩, rfl⟩
  | succ todo ih =>
    intro i k hi hk h1 h2
    have hin : i < n := by omega
    have hrd : rd (List.ofFn p) i = .ok (p ⟨i, hin⟩) := by
      rw [rd_ok (by simpa using hin)]
      simp
    rw [extremeLoop, hrd, Res.bind_ok, foldP_toEnd]
    by_cases h : toEnd (p ⟨i, hin⟩) < toEnd (p k)
    · rw [if_pos h]
      refine ih (i + 1) ⟨i, hin⟩ (by omega) (Nat.lt_succ_self i) (fun j hj => ?_) (fun j hj => lt_of_lt_of_le h (h1 j hj))
      rcases Nat.lt_succ_iff_lt_or_eq.1 hj with hj | hj
      · exact (h.trans_le (h1 j hj)).le
      · rw [show j = ⟨i, hin⟩ from Fin.ext hj]
    · rw [if_neg h]
      refine ih (i + 1) k (by omega) (by omega) (fun j hj => ?_) h2
      rcases Nat.lt_succ_iff_lt_or_eq.1 hj with hj | hj
      · exact h1 j hj
      · rw [show j = ⟨i, hin⟩ from Fin.ext hj]
        exact not_lt.1 h

/-- **C99.** The value is determined by the first of the p-values that are nearest to an end of the unit interval: with its distance `d` from that
end it is `(1 - d)^n` if the end is 0, and `1 - (1 - d)^n` if it is 1. -/
theorem C99_value {n : Nat} (hn : 0 < n) (p : Fin n → ℝ) :
    ∃ k, IsExtreme p k ∧ evalMostExtreme (List.ofFn p) n = .ok (if 1 / 2 < p k then 1 - (1 - toEnd (p k)) ^ n else (1 - toEnd (p k)) ^ n) := by
  obtain ⟨m, rfl⟩ : ∃ m, n = m + 1 := ⟨n - 1, by omega⟩
  have hrd : rd (List.ofFn p) 0 = .ok (p 0) := by
    rw [rd_ok (by simp)]
    simp
  have h0 : toEnd (p 0) < 1 := lt_of_le_of_lt (toEnd_le_half _) (by norm_num)
  obtain ⟨l, hl, h1⟩ := extremeLoop_spec p m 1 0 (by omega) (by simp) (fun j hj => by rw [show j = 0 from Fin.ext (by simpa using hj)]) (fun j hj => absurd hj (Fin.not_lt_zero j))
  refine ⟨l, hl, ?_⟩
  rw [evalMostExtreme, extremeLoop, hrd, Res.bind_ok, foldP_toEnd, if_pos h0, h1, Res.bind_ok, foldSign]
  by_cases h : 1 / 2 < p l
  · simp [h]
  · simp [h]

/-- C99: of no p-values at all the result is 0, the strongest of failures. -/
theorem C99_none (ps : List ℝ) : evalMostExtreme ps 0 = .ok 0 := by
  rw [evalMostExtreme, extremeLoop, Res.bind_ok]
  norm_num

/-- **C99, direction.** The value runs against the p-values: if the most extreme p-value is 0 the value is 1, and if it is 1 the value is 0. -/
theorem C99_reversed {n : Nat} (p : Fin n → ℝ) (k : Fin n) (h : ∀ j, j ≠ k → 0 < p j ∧ p j < 1) :
    (p k = 0 → evalMostExtreme (List.ofFn p) n = .ok 1) ∧ (p k = 1 → evalMostExtreme (List.ofFn p) n = .ok 0) := by
  have hn : 0 < n := k.pos
  have key : ∀ e : ℝ, p k = e → toEnd e = 0 → ∀ l, IsExtreme p l → l = k := by
    intro e he h0 l hl
    by_contra hne
    have h1 := hl.1 k
    rw [he, h0] at h1
    have h2 := h l hne
    have : 0 < toEnd (p l) := lt_min h2.1 (by linarith [h2.2])
    linarith
  constructor
  · intro hk
    obtain ⟨l, hl, h1⟩ := C99_value hn p
    rw [h1, key 0 hk (by norm_num [toEnd]) l hl, hk, if_neg (by norm_num)]
    norm_num [toEnd]
  · intro hk
    obtain ⟨l, hl, h1⟩ := C99_value hn p
    rw [h1, key 1 hk (by norm_num [toEnd]) l hl, hk, if_pos (by norm_num)]
    norm_num [toEnd]

/-! ### The law for independent uniform p-values -/

theorem toEnd_reflect (x : ℝ) : toEnd (1 - x) = toEnd x := by
  rw [toEnd, toEnd, sub_sub_cancel, min_comm]

theorem exists_extreme {n : Nat} (hn : 0 < n) (p : Fin n → ℝ) : ∃ k, IsExtreme p k := by
  obtain ⟨k, hk, -⟩ := C99_value hn p
  exact ⟨k, hk⟩

theorem isExtreme_reflect {n : Nat} (p : Fin n → ℝ) (k : Fin n) : IsExtreme (1 - p) k ↔ IsExtreme p k := by
  simp only [IsExtreme, Pi.sub_apply, Pi.one_apply, toEnd_reflect]

/-- The most extreme p-value is above 1/2 and has a distance in `T`. -/
def highSet (n : Nat) (T : Set ℝ) : Set (Fin n → ℝ) := {p | ∃ k, IsExtreme p k ∧ 1 / 2 < p k ∧ toEnd (p k) ∈ T}

/-- The most extreme p-value is below 1/2 and has a distance in `T`. -/
def lowSet (n : Nat) (T : Set ℝ) : Set (Fin n → ℝ) := {p | ∃ k, IsExtreme p k ∧ p k < 1 / 2 ∧ toEnd (p k) ∈ T}

/-- The most extreme p-value has a distance in `T`. -/
def bothSet (n : Nat) (T : Set ℝ) : Set (Fin n → ℝ) := {p | ∃ k, IsExtreme p k ∧ toEnd (p k) ∈ T}

theorem measurable_toEnd : Measurable toEnd := measurable_id.min (measurable_const.sub measurable_id)

theorem measurableSet_isExtreme {n : Nat} (k : Fin n) : MeasurableSet {p : Fin n → ℝ | IsExtreme p k} := by
  have h : ∀ j : Fin n, Measurable fun p : Fin n → ℝ => toEnd (p j) := fun j => measurable_toEnd.comp (measurable_pi_apply j)
  have e : {p : Fin n → ℝ | IsExtreme p k} = (⋂ j, {p | toEnd (p k) ≤ toEnd (p j)}) ∩ ⋂ j, ⋂ (_ : j < k), {p | toEnd (p k) < toEnd (p j)} := by
    ext p
    simp only [IsExtreme, Set.mem_setOf_eq, Set.mem_inter_iff, Set.mem_iInter]
  rw [e]
  exact (MeasurableSet.iInter fun j => measurableSet_le (h k) (h j)).inter
    (MeasurableSet.iInter fun j => MeasurableSet.iInter fun _ => measurableSet_lt (h k) (h j))

theorem measurableSet_high (n : Nat) {T : Set ℝ} (hT : MeasurableSet T) : MeasurableSet (highSet n T) := by
  have e : highSet n T = ⋃ k, {p | IsExtreme p k} ∩ ({p | 1 / 2 < p k} ∩ {p | toEnd (p k) ∈ T}) := by
    ext p
    simp only [highSet, Set.mem_setOf_eq, Set.mem_iUnion, Set.mem_inter_iff]
  rw [e]
  exact MeasurableSet.iUnion fun k => (measurableSet_isExtreme k).inter
    ((measurableSet_lt measurable_const (measurable_pi_apply k)).inter (measurable_toEnd.comp (measurable_pi_apply k) hT))

/-- The unit cube. -/
noncomputable def cubeMeasure (n : Nat) : Measure (Fin n → ℝ) := volume.restrict (Set.Icc 0 1)

theorem reflect_preserving (n : Nat) : MeasurePreserving (fun p : Fin n → ℝ => 1 - p) (cubeMeasure n) (cubeMeasure n) := by
  have h := (Measure.measurePreserving_sub_left (volume : Measure (Fin n → ℝ)) 1).restrict_preimage (s := Set.Icc 0 1) measurableSet_Icc
  have e : (fun p : Fin n → ℝ => 1 - p) ⁻¹' Set.Icc 0 1 = Set.Icc 0 1 := by
    ext p
    simp only [Set.mem_preimage, Set.mem_Icc]
    constructor
    · rintro ⟨h1, h2⟩
      exact ⟨by simpa using h2, by simpa using h1⟩
    · rintro ⟨h1, h2⟩
      exact ⟨by simpa using h2, by simpa using h1⟩
  rw [e] at h
  exact h

theorem high_eq_low (n : Nat) {T : Set ℝ} (hT : MeasurableSet T) : cubeMeasure n (lowSet n T) = cubeMeasure n (highSet n T) := by
  rw [← (reflect_preserving n).measure_preimage (measurableSet_high n hT).nullMeasurableSet]
  congr 1
  ext p
  simp only [lowSet, highSet, Set.mem_preimage, Set.mem_setOf_eq, isExtreme_reflect, Pi.sub_apply, Pi.one_apply, toEnd_reflect]
  refine exists_congr fun k => and_congr_right fun _ => and_congr_left fun _ => ?_
  constructor <;> intro h <;> linarith

theorem center_null {n : Nat} (hn : 0 < n) : cubeMeasure n {fun _ => 1 / 2} = 0 := by
  have h : (volume : Measure (Fin n → ℝ)) {fun _ => 1 / 2} = 0 := by
    rw [← Set.Icc_self, Real.volume_Icc_pi]
    simp only [sub_self, ENNReal.ofReal_zero, Finset.prod_const, Finset.card_univ, Fintype.card_fin]
    exact zero_pow hn.ne'
  exact le_antisymm ((Measure.restrict_apply_le _ _).trans h.le) zero_le

/-- Both sides are equally likely. -/
theorem high_half {n : Nat} (hn : 0 < n) {T : Set ℝ} (hT : MeasurableSet T) : 2 * cubeMeasure n (highSet n T) = cubeMeasure n (bothSet n T) := by
  have hdisj : Disjoint (lowSet n T) (highSet n T) := by
    rw [Set.disjoint_left]
    rintro p ⟨k, hk, h1, -⟩ ⟨l, hl, h2, -⟩
    rw [IsExtreme.unique hk hl] at h1
    linarith
  have h1 := measure_union (μ := cubeMeasure n) hdisj (measurableSet_high n hT)
  rw [high_eq_low n hT, ← two_mul] at h1
  rw [← h1]
  refine le_antisymm (measure_mono ?_) ?_
  · rintro p (⟨k, hk, -, h⟩ | ⟨k, hk, -, h⟩) <;> exact ⟨k, hk, h⟩
  · have h2 : bothSet n T ⊆ (lowSet n T ∪ highSet n T) ∪ {fun _ => 1 / 2} := by
      rintro p ⟨k, hk, h⟩
      rcases lt_trichotomy (p k) (1 / 2) with h3 | h3 | h3
      · exact Or.inl (Or.inl ⟨k, hk, h3, h⟩)
      · right
        funext j
        have h4 := hk.1 j
        rw [h3, show toEnd (1 / 2) = 1 / 2 by norm_num [toEnd]] at h4
        have h5 := le_min_iff.1 h4
        linarith [h5.1, h5.2]
      · exact Or.inl (Or.inr ⟨k, hk, h3, h⟩)
    refine (measure_mono h2).trans ((measure_union_le _ _).trans ?_)
    rw [center_null hn, add_zero]

/-- The measure of a cube inside the unit cube. -/
theorem cube_box {n : Nat} (hn : 0 < n) {b : ℝ} (hb1 : b ≤ 1) (hb0 : 0 ≤ b) : cubeMeasure n (bothSet n (Set.Ici (1 - b))) = ENNReal.ofReal (2 * b - 1) ^ n := by
  have e : bothSet n (Set.Ici (1 - b)) = Set.Icc (fun _ => 1 - b) fun _ => b := by
    ext p
    constructor
    · rintro ⟨k, hk, h⟩
      have h' : ∀ j, 1 - b ≤ toEnd (p j) := fun j => (Set.mem_Ici.1 h).trans (hk.1 j)
      exact ⟨fun j => (le_min_iff.1 (h' j)).1, fun j => by linarith [(le_min_iff.1 (h' j)).2]⟩
    · rintro ⟨h1, h2⟩
      obtain ⟨k, hk⟩ := exists_extreme hn p
      exact ⟨k, hk, le_min (h1 k) (by linarith [h2 k])⟩
  have h2 : (Set.Icc (fun _ => 1 - b) fun _ => b : Set (Fin n → ℝ)) ∩ Set.Icc 0 1 = Set.Icc (fun _ => 1 - b) fun _ => b := by
    refine Set.inter_eq_left.2 fun p hp => ⟨fun j => ?_, fun j => ?_⟩
    · have := hp.1 j
      simp only [Pi.zero_apply]
      linarith
    · have := hp.2 j
      simp only [Pi.one_apply]
      linarith
  rw [e, cubeMeasure, Measure.restrict_apply measurableSet_Icc, h2, Real.volume_Icc_pi]
  simp only [Finset.prod_const, Finset.card_univ, Fintype.card_fin]
  congr 2
  ring

theorem cube_total (n : Nat) : cubeMeasure n Set.univ = 1 := by
  rw [cubeMeasure, Measure.restrict_apply MeasurableSet.univ, Set.univ_inter, Real.volume_Icc_pi]
  simp

theorem cube_outside {n : Nat} (hn : 0 < n) {a : ℝ} (ha1 : a ≤ 1) (ha0 : 0 ≤ a) : cubeMeasure n (bothSet n (Set.Iic (1 - a))) = 1 - ENNReal.ofReal (2 * a - 1) ^ n := by
  have e : bothSet n (Set.Iic (1 - a)) = (Set.pi Set.univ fun _ => Set.Ioo (1 - a) a)ᶜ := by
    ext p
    simp only [bothSet, Set.mem_setOf_eq, Set.mem_compl_iff, Set.mem_pi, Set.mem_univ, true_implies, Set.mem_Ioo]
    obtain ⟨k, hk⟩ := exists_extreme hn p
    constructor
    · rintro ⟨l, hl, h⟩ h2
      have h3 : 1 - a < toEnd (p l) := lt_min (h2 l).1 (by linarith [(h2 l).2])
      exact absurd h (not_le.2 h3)
    · intro h
      refine ⟨k, hk, ?_⟩
      by_contra h2
      refine h fun j => ?_
      have h3 : 1 - a < toEnd (p j) := lt_of_lt_of_le (not_le.1 h2) (hk.1 j)
      exact ⟨(lt_min_iff.1 h3).1, by linarith [(lt_min_iff.1 h3).2]⟩
  have hm : MeasurableSet (Set.pi Set.univ fun _ => Set.Ioo (1 - a) a : Set (Fin n → ℝ)) := MeasurableSet.univ_pi fun _ => measurableSet_Ioo
  have h2 : (Set.pi Set.univ fun _ => Set.Ioo (1 - a) a : Set (Fin n → ℝ)) ∩ Set.Icc 0 1 = Set.pi Set.univ fun _ => Set.Ioo (1 - a) a := by
    refine Set.inter_eq_left.2 fun p hp => ⟨fun j => ?_, fun j => ?_⟩
    · have := (hp j trivial).1
      simp only [Pi.zero_apply]
      linarith
    · have := (hp j trivial).2
      simp only [Pi.one_apply]
      linarith
  have h3 : cubeMeasure n (Set.pi Set.univ fun _ => Set.Ioo (1 - a) a : Set (Fin n → ℝ)) = ENNReal.ofReal (2 * a - 1) ^ n := by
    rw [cubeMeasure, Measure.restrict_apply hm, h2, Real.volume_pi_Ioo]
    simp only [Finset.prod_const, Finset.card_univ, Fintype.card_fin]
    congr 2
    ring
  rw [e, measure_compl hm (by rw [h3]; exact ENNReal.pow_ne_top ENNReal.ofReal_ne_top), cube_total, h3]

/-- **C99, the law.** For `n` independent p-values that are uniform on the unit interval, the value is at most `y` with the given probability;
`a` and `b` are the `n`-th roots of `1 - y` and of `y`. -/
theorem C99_law {n : Nat} (hn : 0 < n) (y a b : ℝ) (hy0 : 0 ≤ y) (hy1 : y ≤ 1) (ha : 0 ≤ a) (hb : 0 ≤ b) (ha' : a ^ n = 1 - y) (hb' : b ^ n = y) :
    ∃ R : (Fin n → ℝ) → ℝ, (∀ p, evalMostExtreme (List.ofFn p) n = .ok (R p)) ∧
      (volume {p : Fin n → ℝ | (∀ i, 0 ≤ p i ∧ p i ≤ 1) ∧ R p ≤ y}).toReal = (1 - max (2 * a - 1) 0 ^ n) / 2 + max (2 * b - 1) 0 ^ n / 2 := by
  choose k hk hR using fun p : Fin n → ℝ => C99_value hn p
  refine ⟨_, hR, ?_⟩
  have ha1 : a ≤ 1 := by
    by_contra h
    have := one_lt_pow₀ (not_le.1 h) hn.ne'
    linarith
  have hb1 : b ≤ 1 := by
    by_contra h
    have := one_lt_pow₀ (not_le.1 h) hn.ne'
    linarith
  have e : {p : Fin n → ℝ | (∀ i, 0 ≤ p i ∧ p i ≤ 1) ∧ (if 1 / 2 < p (k p) then 1 - (1 - toEnd (p (k p))) ^ n else (1 - toEnd (p (k p))) ^ n) ≤ y} =
      {p | (if 1 / 2 < p (k p) then 1 - (1 - toEnd (p (k p))) ^ n else (1 - toEnd (p (k p))) ^ n) ≤ y} ∩ Set.Icc 0 1 := by
    ext p
    simp only [Set.mem_setOf_eq, Set.mem_inter_iff, Set.mem_Icc, Pi.le_def, Pi.zero_apply, Pi.one_apply, forall_and]
    tauto
  set A : Set (Fin n → ℝ) := {p | (if 1 / 2 < p (k p) then 1 - (1 - toEnd (p (k p))) ^ n else (1 - toEnd (p (k p))) ^ n) ≤ y} with hA
  have hsub : highSet n (Set.Iic (1 - a)) ∪ lowSet n (Set.Ici (1 - b)) ⊆ A := by
    rintro p (⟨l, hl, h1, h2⟩ | ⟨l, hl, h1, h2⟩)
    · rw [hA, Set.mem_setOf_eq, IsExtreme.unique (hk p) hl, if_pos h1]
      have h3 : a ≤ 1 - toEnd (p l) := by linarith [Set.mem_Iic.1 h2]
      have := pow_le_pow_left₀ ha h3 n
      linarith
    · rw [hA, Set.mem_setOf_eq, IsExtreme.unique (hk p) hl, if_neg (by linarith)]
      have h3 : 1 - toEnd (p l) ≤ b := by linarith [Set.mem_Ici.1 h2]
      have h4 : 0 ≤ 1 - toEnd (p l) := by linarith [toEnd_le_half (p l)]
      rw [← hb']
      exact pow_le_pow_left₀ h4 h3 n
  have hsup : A ⊆ (highSet n (Set.Iic (1 - a)) ∪ lowSet n (Set.Ici (1 - b))) ∪ {fun _ => 1 / 2} := by
    intro p hp
    rw [hA, Set.mem_setOf_eq] at hp
    have h4 : 0 ≤ 1 - toEnd (p (k p)) := by linarith [toEnd_le_half (p (k p))]
    rcases lt_trichotomy (p (k p)) (1 / 2) with h3 | h3 | h3
    · rw [if_neg (by linarith), ← hb'] at hp
      have := le_of_pow_le_pow_left₀ hn.ne' hb hp
      exact Or.inl (Or.inr ⟨k p, hk p, h3, Set.mem_Ici.2 (by linarith)⟩)
    · right
      funext j
      have h6 := (hk p).1 j
      rw [h3, show toEnd (1 / 2) = 1 / 2 by norm_num [toEnd]] at h6
      have h5 := le_min_iff.1 h6
      linarith [h5.1, h5.2]
    · rw [if_pos h3] at hp
      have h5 : a ^ n ≤ (1 - toEnd (p (k p))) ^ n := by linarith
      have := le_of_pow_le_pow_left₀ hn.ne' h4 h5
      exact Or.inl (Or.inl ⟨k p, hk p, h3, Set.mem_Iic.2 (by linarith)⟩)
  have hdisj : Disjoint (lowSet n (Set.Ici (1 - b))) (highSet n (Set.Iic (1 - a))) := by
    rw [Set.disjoint_left]
    rintro p ⟨k, hk, h1, -⟩ ⟨l, hl, h2, -⟩
    rw [IsExtreme.unique hk hl] at h1
    linarith
  have hm : cubeMeasure n A = cubeMeasure n (highSet n (Set.Ici (1 - b))) + cubeMeasure n (highSet n (Set.Iic (1 - a))) := by
    have h1 := measure_union (μ := cubeMeasure n) hdisj (measurableSet_high n measurableSet_Iic)
    rw [high_eq_low n measurableSet_Ici] at h1
    rw [← h1, Set.union_comm]
    refine le_antisymm ?_ (measure_mono hsub)
    refine (measure_mono hsup).trans ((measure_union_le _ _).trans ?_)
    rw [center_null hn, add_zero]
  have h2 := high_half hn (T := Set.Ici (1 - b)) measurableSet_Ici
  have h3 := high_half hn (T := Set.Iic (1 - a)) measurableSet_Iic
  rw [cube_box hn hb1 hb] at h2
  rw [cube_outside hn ha1 ha] at h3
  have h2' := congrArg ENNReal.toReal h2
  have h3' := congrArg ENNReal.toReal h3
  have hle : ENNReal.ofReal (2 * a - 1) ^ n ≤ 1 := pow_le_one' (ENNReal.ofReal_le_one.2 (by linarith)) n
  rw [ENNReal.toReal_mul, ENNReal.toReal_pow, ENNReal.toReal_ofReal'] at h2'
  rw [ENNReal.toReal_mul, ENNReal.toReal_sub_of_le hle ENNReal.one_ne_top, ENNReal.toReal_pow, ENNReal.toReal_ofReal'] at h3'
  have hfin : ∀ S, cubeMeasure n S ≠ ⊤ := fun S => ne_top_of_le_ne_top ENNReal.one_ne_top ((measure_mono (Set.subset_univ S)).trans (cube_total n).le)
  rw [e, ← Measure.restrict_apply' (measurableSet_Icc : MeasurableSet (Set.Icc (0 : Fin n → ℝ) 1))]
  change (cubeMeasure n A).toReal = _
  rw [hm, ENNReal.toReal_add (hfin _) (hfin _)]
  simp only [ENNReal.toReal_ofNat, ENNReal.toReal_one] at h2' h3'
  linarith

/-- **C99.** Small values are not too frequent: below `2^-n` the value is at most `y` with a probability of at most `y`. -/
theorem C99_tail {n : Nat} (hn : 0 < n) (y : ℝ) (hy0 : 0 ≤ y) (hy1 : y ≤ (1 / 2) ^ n) :
    ∃ R : (Fin n → ℝ) → ℝ, (∀ p, evalMostExtreme (List.ofFn p) n = .ok (R p)) ∧
      (volume {p : Fin n → ℝ | (∀ i, 0 ≤ p i ∧ p i ≤ 1) ∧ R p ≤ y}).toReal ≤ y := by
  have hy2 : y ≤ 1 := hy1.trans (pow_le_one₀ (by norm_num) (by norm_num))
  have hn0 : (n : ℝ) ≠ 0 := by exact_mod_cast hn.ne'
  have root : ∀ z : ℝ, 0 ≤ z → (z ^ (1 / (n : ℝ))) ^ n = z := by
    intro z hz
    rw [← Real.rpow_natCast, ← Real.rpow_mul hz, one_div, inv_mul_cancel₀ hn0, Real.rpow_one]
  have hz : 0 ≤ 1 - y := by linarith
  set a := (1 - y) ^ (1 / (n : ℝ)) with ha
  set b := y ^ (1 / (n : ℝ)) with hb
  have ha0 : 0 ≤ a := Real.rpow_nonneg hz _
  have hb0 : 0 ≤ b := Real.rpow_nonneg hy0 _
  obtain ⟨R, h1, h2⟩ := C99_law hn y a b hy0 hy2 ha0 hb0 (root _ hz) (root _ hy0)
  refine ⟨R, h1, h2.le.trans ?_⟩
  have hb2 : b ≤ 1 / 2 := le_of_pow_le_pow_left₀ hn.ne' (by norm_num) ((root y hy0).le.trans hy1)
  rw [max_eq_right (by linarith : 2 * b - 1 ≤ 0), zero_pow hn.ne', zero_div, add_zero]
  have ha2 : 1 / 2 ≤ a := by
    refine le_of_pow_le_pow_left₀ hn.ne' ha0 ((le_of_eq ?_ : (1 / 2 : ℝ) ^ n ≤ (1 / 2) ^ n).trans ?_)
    · rfl
    · rw [root _ hz]
      have : (1 / 2 : ℝ) ^ n ≤ 1 / 2 := by
        have := pow_le_pow_of_le_one (a := (1 / 2 : ℝ)) (by norm_num) (by norm_num) (show 1 ≤ n by omega)
        rwa [pow_one] at this
      linarith
  rw [max_eq_left (by linarith)]
  have hc := (convexOn_pow (𝕜 := ℝ) n).2 (Set.mem_Ici.2 (show (0 : ℝ) ≤ 2 * a - 1 by linarith)) (Set.mem_Ici.2 (show (0 : ℝ) ≤ 1 by norm_num))
    (show (0 : ℝ) ≤ 1 / 2 by norm_num) (show (0 : ℝ) ≤ 1 / 2 by norm_num) (by norm_num)
  simp only [smul_eq_mul, one_pow, mul_one] at hc
  rw [show 1 / 2 * (2 * a - 1) + 1 / 2 = a by ring, root _ hz] at hc
  linarith

/-- **C99, failure.** For two or more p-values the value is not uniform: of two, it is at most 1/4 with probability `√3 - 3/2`, which is less
than 0.2321. -/
theorem C99_not_uniform : ∃ R : (Fin 2 → ℝ) → ℝ, (∀ p, evalMostExtreme (List.ofFn p) 2 = .ok (R p)) ∧
    (volume {p : Fin 2 → ℝ | (∀ i, 0 ≤ p i ∧ p i ≤ 1) ∧ R p ≤ 1 / 4}).toReal = Real.sqrt 3 - 3 / 2 ∧ Real.sqrt 3 - 3 / 2 < 0.2321 := by
  have h3 : Real.sqrt 3 ^ 2 = 3 := Real.sq_sqrt (by norm_num)
  have h30 := Real.sqrt_nonneg 3
  have h31 : 1 ≤ Real.sqrt 3 := by
    rw [Real.one_le_sqrt]
    norm_num
  obtain ⟨R, h1, h2⟩ := C99_law (n := 2) (by norm_num) (1 / 4) (Real.sqrt 3 / 2) (1 / 2) (by norm_num) (by norm_num) (by positivity) (by norm_num)
    (by rw [div_pow, h3]; norm_num) (by norm_num)
  refine ⟨R, h1, ?_, ?_⟩
  · rw [h2, max_eq_left (by linarith)]
    norm_num
    nlinarith
  · have : Real.sqrt 3 < 1.7321 := by
      rw [Real.sqrt_lt' (by norm_num)]
      norm_num
    linarith

/-- **C99.** For one p-value the value is uniform. -/
theorem C99_single (y : ℝ) (hy0 : 0 ≤ y) (hy1 : y ≤ 1) : ∃ R : (Fin 1 → ℝ) → ℝ, (∀ p, evalMostExtreme (List.ofFn p) 1 = .ok (R p)) ∧
    (volume {p : Fin 1 → ℝ | (∀ i, 0 ≤ p i ∧ p i ≤ 1) ∧ R p ≤ y}).toReal = y := by
  obtain ⟨R, h1, h2⟩ := C99_law (n := 1) (by norm_num) y (1 - y) y hy0 hy1 (by linarith) hy0 (pow_one _) (pow_one _)
  refine ⟨R, h1, ?_⟩
  rw [h2, pow_one, pow_one]
  by_cases h : y ≤ 1 / 2
  · rw [max_eq_left (by linarith), max_eq_right (by linarith)]
    ring
  · rw [max_eq_right (by linarith), max_eq_left (by linarith)]
    ring

/-- Levels with the p-values 0.3, 0.000001 and 0.8: the value is almost 1, as if the p-value had been almost 1. -/
example : evalMostExtreme (List.ofFn ![0.3, 0.000001, 0.8]) 3 = .ok (0.999999 ^ 3) := by
  obtain ⟨k, hk, h⟩ := C99_value (n := 3) (by norm_num) ![0.3, 0.000001, 0.8]
  have hk1 : k = 1 := by
    have h0 := hk.1 1
    fin_cases k
    · norm_num [toEnd] at h0
    · rfl
    · norm_num [toEnd] at h0
  rw [h, hk1]
  norm_num [toEnd]

end Dh
