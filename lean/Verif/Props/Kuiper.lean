import Verif.Props.Kstest
import Verif.Spec.Kuiper
import Mathlib.Algebra.Order.Floor.Ring
import Mathlib.Algebra.Order.Archimedean.Real.Basic
import Mathlib.Data.Finset.Max
import Mathlib.Tactic.Linarith
import Mathlib.Tactic.Ring
/-
Property C111: the statistic `kstest_kuiper` computes against Kuiper's statistic.
-/
namespace Dh

theorem countP_sorted (s : List ℝ) (hs : s.Pairwise (· ≤ ·)) (x : ℝ) :
    (∀ i (hi : i < s.length), i < s.countP (fun u => decide (u ≤ x)) → s[i] ≤ x) ∧
    (∀ i (hi : i < s.length), s.countP (fun u => decide (u ≤ x)) ≤ i → x < s[i]) := by
  induction s with
  | nil => exact ⟨fun i hi => by simp at hi, fun i hi => by simp at hi⟩
  | cons a s ih =>
    obtain ⟨ha, hs'⟩ := List.pairwise_cons.1 hs
    obtain ⟨i1, i2⟩ := ih hs'
    by_cases hax : a ≤ x
    · have hc : (a :: s).countP (fun u => decide (u ≤ x)) = s.countP (fun u => decide (u ≤ x)) + 1 := by
        rw [List.countP_cons_of_pos (by simpa using hax)]
      rw [hc]
      refine ⟨fun i hi hlt => ?_, fun i hi hle => ?_⟩
      · cases i with
        | zero => simpa using hax
        | succ i => simpa using i1 i (by simpa using hi) (by omega)
      · cases i with
        | zero => omega
        | succ i => simpa using i2 i (by simpa using hi) (by omega)
    · have h0 : ∀ u ∈ a :: s, x < u := by
        intro u hu
        rcases List.mem_cons.1 hu with rfl | hu
        · exact not_le.1 hax
        · exact lt_of_lt_of_le (not_le.1 hax) (ha u hu)
      have hc : (a :: s).countP (fun u => decide (u ≤ x)) = 0 := by
        rw [List.countP_eq_zero]
        intro u hu
        simpa using h0 u hu
      rw [hc]
      exact ⟨fun i hi hlt => absurd hlt (by omega), fun i hi _ => h0 _ (List.getElem_mem hi)⟩

/-- Kuiper's statistic of a sorted sample: the largest less the smallest of the differences `x_(j) - j/n`, and `1/n`. -/
theorem kuiper_sorted (s : List ℝ) (hs : s.Pairwise (· ≤ ·)) (hn : 0 < s.length) (hx : ∀ x ∈ s, 0 ≤ x ∧ x < 1)
    (m M : ℝ) (hm : IsLeast {d : ℝ | ∃ j, ∃ h : j < s.length, d = s[j] - (j : ℝ) / (s.length : ℝ)} m)
    (hM : IsGreatest {d : ℝ | ∃ j, ∃ h : j < s.length, d = s[j] - (j : ℝ) / (s.length : ℝ)} M) :
    IsLUB (Spec.kuiperGaps s) (M - m + 1 / (s.length : ℝ)) := by
  have hnR : (0 : ℝ) < (s.length : ℝ) := by exact_mod_cast hn
  have hlast : m ≤ 1 / (s.length : ℝ) := by
    have h1 := hm.2 ⟨s.length - 1, by omega, rfl⟩
    have h2 := (hx _ (List.getElem_mem (show s.length - 1 < s.length by omega))).2
    have h3 : ((s.length - 1 : ℕ) : ℝ) / (s.length : ℝ) = 1 - 1 / (s.length : ℝ) := by
      rw [Nat.cast_sub (by omega)]
      field_simp
      simp
    linarith
  have h0M : 0 ≤ M := by
    have h1 := hM.2 ⟨0, hn, rfl⟩
    have h2 := (hx _ (List.getElem_mem hn)).1
    simp at h1
    linarith
  have hcl : ∀ x, s.countP (fun u => decide (u ≤ x)) ≤ s.length := fun x => List.countP_le_length
  constructor
  · rintro d ⟨x, y, ⟨hx0, hx1⟩, ⟨hy0, hy1⟩, rfl⟩
    have hxp : Spec.edf s x - x ≤ 1 / (s.length : ℝ) - m := by
      unfold Spec.edf
      obtain ⟨c1, -⟩ := countP_sorted s hs x
      have hc := hcl x
      generalize s.countP (fun u => decide (u ≤ x)) = c at c1 hc
      cases c with
      | zero => simp; simp at hlast; linarith
      | succ c =>
        have h1 := c1 c (by omega) (by omega)
        have h2 := hm.2 ⟨c, by omega, rfl⟩
        push_cast
        rw [add_div]
        linarith
    have hyp : y - Spec.edf s y ≤ M := by
      unfold Spec.edf
      obtain ⟨-, c2⟩ := countP_sorted s hs y
      have hc := hcl y
      generalize s.countP (fun u => decide (u ≤ y)) = c at c2 hc
      rcases Nat.lt_or_ge c s.length with h | h
      · have h1 := c2 c h (le_refl _)
        have h2 := hM.2 ⟨c, h, rfl⟩
        linarith
      · have : c = s.length := by omega
        rw [this, div_self (ne_of_gt hnR)]
        linarith
    linarith
  · intro b hb
    by_contra hlt
    rw [not_le] at hlt
    obtain ⟨i, hi, hmi⟩ := hm.1
    obtain ⟨j, hj, hMj⟩ := hM.1
    have hxi := hx _ (List.getElem_mem hi)
    have hxj := hx _ (List.getElem_mem hj)
    -- at `s[i]`
    have hA : 1 / (s.length : ℝ) - m ≤ Spec.edf s s[i] - s[i] := by
      have : i + 1 ≤ s.countP (fun u => decide (u ≤ s[i])) := by
        by_contra hlt'
        exact lt_irrefl _ ((countP_sorted s hs s[i]).2 i hi (by omega))
      have h2 : ((i : ℝ) + 1) / (s.length : ℝ) ≤ Spec.edf s s[i] := by
        unfold Spec.edf
        gcongr
        exact_mod_cast this
      rw [add_div] at h2
      linarith
    -- just below `s[j]`, or just below 1
    set ε := M - m + 1 / (s.length : ℝ) - b with hε
    have hεp : 0 < ε := by rw [hε]; linarith
    have hB : ∃ y, (0 ≤ y ∧ y < 1) ∧ M - ε < y - Spec.edf s y := by
      rcases eq_or_lt_of_le hxj.1 with h0 | h0
      · have hM0 : M ≤ 0 := by
          rw [hMj, ← h0]
          have : (0 : ℝ) ≤ (j : ℝ) / (s.length : ℝ) := by positivity
          linarith
        refine ⟨max 0 (1 - ε / 2), ⟨le_max_left _ _, max_lt (by norm_num) (by linarith)⟩, ?_⟩
        have h1 : Spec.edf s (max 0 (1 - ε / 2)) ≤ 1 := by
          unfold Spec.edf
          rw [div_le_one hnR]
          exact_mod_cast hcl _
        have h2 := le_max_right 0 (1 - ε / 2)
        linarith
      · refine ⟨max 0 (s[j] - ε / 2), ⟨le_max_left _ _, max_lt (by norm_num) (by linarith)⟩, ?_⟩
        have hys : max 0 (s[j] - ε / 2) < s[j] := max_lt h0 (by linarith)
        have : s.countP (fun u => decide (u ≤ max 0 (s[j] - ε / 2))) ≤ j := by
          by_contra hlt'
          have := (countP_sorted s hs (max 0 (s[j] - ε / 2))).1 j hj (by omega)
          linarith
        have h1 : Spec.edf s (max 0 (s[j] - ε / 2)) ≤ (j : ℝ) / (s.length : ℝ) := by
          unfold Spec.edf
          gcongr
        have h2 := le_max_right 0 (s[j] - ε / 2)
        linarith
    obtain ⟨y, hy, hyB⟩ := hB
    have := hb ⟨s[i], y, hxi, hy, rfl⟩
    linarith

theorem kuiperGaps_perm {s xs : List ℝ} (h : s.Perm xs) : Spec.kuiperGaps s = Spec.kuiperGaps xs := by
  unfold Spec.kuiperGaps Spec.edf
  have hc : ∀ x : ℝ, s.countP (fun u => decide (u ≤ x)) = xs.countP (fun u => decide (u ≤ x)) := fun x => h.countP_eq _
  simp only [hc, h.length_eq]

/-- C111.  The statistic `W` that `kstest_kuiper` forms from a sample in `[0,1)` and Kuiper's statistic `V`:
`V = W + 1/n`, less the least of the differences `x_(j) - j/n` when that is positive.  So `W` is never more than `V` and
is too small by as much as `1/n`; it is too small by exactly `1/n` as soon as one of the differences is not positive. -/
theorem C111_statistic (Q : Nat → ℝ → ℝ) (xs : List ℝ) (h : 2 ≤ xs.length) (hx : ∀ x ∈ xs, 0 ≤ x ∧ x < 1) :
    ∃ s V W m, kstestKuiper Q xs xs.length = .ok (Q xs.length W, s) ∧ s.Perm xs ∧ s.Pairwise (· ≤ ·) ∧
      IsLUB (Spec.kuiperGaps xs) V ∧
      IsLeast {d : ℝ | ∃ j, ∃ h : j < s.length, d = s[j] - (j : ℝ) / (xs.length : ℝ)} m ∧
      V = W + 1 / (xs.length : ℝ) - max 0 m ∧ W ≤ V ∧ V ≤ W + 1 / (xs.length : ℝ) := by
  obtain ⟨s, lo, hi, hrun, hp, hs, hg, hl, -⟩ := C17_kuiper_statistic Q xs h
  have hlen := hp.length_eq
  have hn : 0 < s.length := by omega
  have hxs : ∀ x ∈ s, 0 ≤ x ∧ x < 1 := fun x hm => hx x (hp.mem_iff.1 hm)
  have hnR : (0 : ℝ) < (s.length : ℝ) := by exact_mod_cast hn
  have hne : (Finset.univ : Finset (Fin s.length)).Nonempty := ⟨⟨0, hn⟩, Finset.mem_univ _⟩
  obtain ⟨i, -, hi'⟩ := Finset.exists_min_image Finset.univ (fun i : Fin s.length => s[i] - (i.1 : ℝ) / (xs.length : ℝ)) hne
  have hmL : IsLeast {d : ℝ | ∃ j, ∃ h : j < s.length, d = s[j] - (j : ℝ) / (xs.length : ℝ)}
      (s[i] - (i.1 : ℝ) / (xs.length : ℝ)) := by
    refine ⟨⟨i.1, i.2, rfl⟩, ?_⟩
    rintro d ⟨j, hj, rfl⟩
    exact hi' ⟨j, hj⟩ (Finset.mem_univ _)
  generalize s[i] - (i.1 : ℝ) / (xs.length : ℝ) = m at hmL
  have hMG : IsGreatest {d : ℝ | ∃ j, ∃ h : j < s.length, d = s[j] - (j : ℝ) / (xs.length : ℝ)} hi := by
    refine ⟨?_, fun d hd => hg.2 (Or.inr hd)⟩
    rcases hg.1 with h0 | h0
    · have h1 := hg.2 (Or.inr ⟨0, hn, rfl⟩)
      have h2 := (hxs _ (List.getElem_mem hn)).1
      refine ⟨0, hn, ?_⟩
      simp at h1 ⊢
      linarith
    · exact h0
  have hlenR : (xs.length : ℝ) = (s.length : ℝ) := by rw [hlen]
  have hV := kuiper_sorted s hs hn hxs m hi (by rw [← hlenR] ; exact hmL) (by rw [← hlenR]; exact hMG)
  rw [kuiperGaps_perm hp, hlen] at hV
  have hlo : lo = min 0 m := by
    apply le_antisymm
    · exact le_min (hl.2 (Or.inl rfl)) (hl.2 (Or.inr hmL.1))
    · rcases hl.1 with h0 | h0
      · rw [h0]; exact min_le_left _ _
      · exact le_trans (min_le_right _ _) (hmL.2 h0)
  have hlast : m ≤ 1 / (xs.length : ℝ) := by
    have h1 := hmL.2 ⟨s.length - 1, by omega, rfl⟩
    have h2 := (hxs _ (List.getElem_mem (show s.length - 1 < s.length by omega))).2
    have h3 : ((s.length - 1 : ℕ) : ℝ) / (xs.length : ℝ) = 1 - 1 / (xs.length : ℝ) := by
      rw [← hlen, Nat.cast_sub (by omega)]
      field_simp
      simp
    linarith
  have hmm : min 0 m + max 0 m = m := by rw [min_add_max, zero_add]
  have hp1 : (0 : ℝ) < 1 / (xs.length : ℝ) := by rw [← hlen]; positivity
  refine ⟨s, _, hi - lo, m, hrun, hp, hs, hV, hmL, by rw [hlo]; linarith, ?_, ?_⟩
  · have : max 0 m ≤ 1 / (xs.length : ℝ) := max_le hp1.le hlast
    rw [hlo]; linarith
  · have : 0 ≤ max 0 m := le_max_left _ _
    rw [hlo]; linarith

theorem edf_fract (xs : List ℝ) (hx : ∀ x ∈ xs, 0 ≤ x ∧ x < 1) (x : ℝ) (h0 : 0 ≤ x) (h1 : x < 1) :
    (xs.countP (fun u => decide (u ≤ x)) : ℝ) = (xs.map (fun u => x - u + 1 - Int.fract (x - u))).sum := by
  induction xs with
  | nil => simp
  | cons a s ih =>
    have ha := hx a (by simp)
    rw [List.map_cons, List.sum_cons, ← ih (fun u hu => hx u (by simp [hu]))]
    by_cases h : a ≤ x
    · rw [List.countP_cons_of_pos (by simpa using h), Int.fract_eq_self.2 ⟨by linarith, by linarith⟩]
      push_cast; ring
    · rw [List.countP_cons_of_neg (by simpa using h)]
      rw [not_le] at h
      have : Int.fract (x - a) = x - a + 1 := by
        rw [← Int.fract_add_one, Int.fract_eq_self.2 ⟨by linarith, by linarith⟩]
      rw [this]; ring

theorem edf_diff (xs : List ℝ) (hne : xs ≠ []) (hx : ∀ x ∈ xs, 0 ≤ x ∧ x < 1) (x y : ℝ) (h0 : 0 ≤ x ∧ x < 1)
    (h1 : 0 ≤ y ∧ y < 1) :
    (Spec.edf xs x - x) + (y - Spec.edf xs y) =
      (xs.map (fun u => Int.fract (y - u) - Int.fract (x - u))).sum / (xs.length : ℝ) := by
  have hn : (0 : ℝ) < (xs.length : ℝ) := by exact_mod_cast List.length_pos_iff.2 hne
  unfold Spec.edf
  rw [edf_fract xs hx x h0.1 h0.2, edf_fract xs hx y h1.1 h1.2]
  have key : (xs.map (fun u => x - u + 1 - Int.fract (x - u))).sum - (xs.map (fun u => y - u + 1 - Int.fract (y - u))).sum =
      (xs.map (fun u => Int.fract (y - u) - Int.fract (x - u))).sum + (xs.length : ℝ) * (x - y) := by
    clear hn hx hne
    induction xs with
    | nil => simp
    | cons a s ih =>
      simp only [List.map_cons, List.sum_cons, List.length_cons]
      push_cast
      linarith
  field_simp
  linarith

/-- C111.  Kuiper's statistic does not depend on where the circle is cut: turning every point of the sample by the
same amount, modulo 1, leaves the set of its gaps as it is. -/
theorem C111_rotation (xs : List ℝ) (hne : xs ≠ []) (hx : ∀ x ∈ xs, 0 ≤ x ∧ x < 1) (c : ℝ) :
    Spec.kuiperGaps (xs.map (fun u => Int.fract (u + c))) = Spec.kuiperGaps xs := by
  have hx' : ∀ x ∈ xs.map (fun u => Int.fract (u + c)), 0 ≤ x ∧ x < 1 := by
    intro x hm
    obtain ⟨u, -, rfl⟩ := List.mem_map.1 hm
    exact ⟨Int.fract_nonneg _, Int.fract_lt_one _⟩
  have hne' : xs.map (fun u => Int.fract (u + c)) ≠ [] := by simpa using hne
  have hfr : ∀ z u : ℝ, Int.fract (z - Int.fract (u + c)) = Int.fract (Int.fract (z - c) - u) := by
    intro z u
    rw [Int.fract_eq_fract]
    refine ⟨⌊u + c⌋ + ⌊z - c⌋, ?_⟩
    rw [Int.fract, Int.fract]
    push_cast; ring
  have hback : ∀ z : ℝ, 0 ≤ z ∧ z < 1 → Int.fract (Int.fract (z + c) - c) = z := by
    intro z hz
    have : Int.fract (Int.fract (z + c) - c) = Int.fract z := by
      rw [Int.fract_eq_fract]
      refine ⟨-⌊z + c⌋, ?_⟩
      rw [Int.fract]
      push_cast; ring
    rw [this, Int.fract_eq_self.2 hz]
  have hgap : ∀ x y : ℝ, (0 ≤ x ∧ x < 1) → (0 ≤ y ∧ y < 1) →
      (Spec.edf (xs.map (fun u => Int.fract (u + c))) x - x) + (y - Spec.edf (xs.map (fun u => Int.fract (u + c))) y) =
      (Spec.edf xs (Int.fract (x - c)) - Int.fract (x - c)) + (Int.fract (y - c) - Spec.edf xs (Int.fract (y - c))) := by
    intro x y h0 h1
    rw [edf_diff _ hne' hx' x y h0 h1, edf_diff xs hne hx _ _ ⟨Int.fract_nonneg _, Int.fract_lt_one _⟩
      ⟨Int.fract_nonneg _, Int.fract_lt_one _⟩]
    simp only [List.map_map, List.length_map, Function.comp_def, hfr]
  ext d
  constructor
  · rintro ⟨x, y, h0, h1, rfl⟩
    exact ⟨_, _, ⟨Int.fract_nonneg _, Int.fract_lt_one _⟩, ⟨Int.fract_nonneg _, Int.fract_lt_one _⟩, hgap x y h0 h1⟩
  · rintro ⟨x, y, h0, h1, rfl⟩
    have f0 : ∀ z : ℝ, 0 ≤ Int.fract z ∧ Int.fract z < 1 := fun z => ⟨Int.fract_nonneg _, Int.fract_lt_one _⟩
    refine ⟨Int.fract (x + c), Int.fract (y + c), f0 _, f0 _, ?_⟩
    rw [hgap _ _ (f0 _) (f0 _), hback x h0, hback y h1]

/-- C111.  The statistic of the code is not: two samples that differ by a quarter turn get `1/4` and 0. -/
theorem C111_not_invariant (Q : Nat → ℚ → ℚ) :
    kstestKuiper Q [1/4, 3/4] 2 = .ok (Q 2 (1/4), [1/4, 3/4]) ∧
    kstestKuiper Q [1/2, 0] 2 = .ok (Q 2 0, [0, 1/2]) ∧
    [1/4, 3/4].map (fun u : ℚ => Int.fract (u + 1/4)) = [1/2, 0] := by
  have g1 : gslSort ([1/4, 3/4] : List ℚ) = [1/4, 3/4] := by decide +kernel
  have g2 : gslSort ([1/2, 0] : List ℚ) = [0, 1/2] := by decide +kernel
  have k1 : kuiperLoop 2 0 (0 : ℚ) 0 [1/4, 3/4] = (0, 1/4) := by decide +kernel
  have k2 : kuiperLoop 2 0 (0 : ℚ) 0 [0, 1/2] = (0, 0) := by decide +kernel
  refine ⟨?_, ?_, by decide +kernel⟩
  · unfold kstestKuiper
    simp only [List.length_cons, List.length_nil, List.take_succ_cons, List.take_zero, g1, k1]
    norm_num
  · unfold kstestKuiper
    simp only [List.length_cons, List.length_nil, List.take_succ_cons, List.take_zero, g2, k2]
    norm_num

/-- The two samples have the same gaps. -/
example : Spec.kuiperGaps [1/2, 0] = Spec.kuiperGaps [1/4, 3/4] := by
  have h := C111_rotation [1/4, 3/4] (by simp) (by intro x hx; simp at hx; rcases hx with rfl | rfl <;> norm_num) (1/4)
  have h1 : Int.fract ((1/4 : ℝ) + 1/4) = 1/2 := by rw [Int.fract_eq_iff]; exact ⟨by norm_num, by norm_num, 0, by norm_num⟩
  have h2 : Int.fract ((3/4 : ℝ) + 1/4) = 0 := by rw [Int.fract_eq_iff]; exact ⟨by norm_num, by norm_num, 1, by norm_num⟩
  simp only [List.map_cons, List.map_nil, h1, h2] at h
  exact h

end Dh
