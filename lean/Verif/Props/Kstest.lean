import Verif.Proof.StdTest
import Mathlib.Order.Bounds.Basic
import Mathlib.Algebra.Order.Field.Basic
import Mathlib.Algebra.Order.Field.Rat
import Mathlib.Tactic.Positivity
/-
Property C17: the Kolmogorov-Smirnov and Kuiper statistics.
-/
set_option linter.unusedSimpArgs false
namespace Dh

variable {F : Type*} [Field F] [LinearOrder F] [IsStrictOrderedRing F]

/-- C17.  Permuting the samples does not change the p-value `kstest` returns. -/
theorem C17_kstest_order (K : Nat → F → F) (xs ys : List F) (h : xs.Perm ys) :
    (kstest K xs xs.length).map Prod.fst = (kstest K ys ys.length).map Prod.fst := by
  have := summary_perm ⟨false, 0, 0, 1, 0, 0, 0, 0, 0, 0⟩ K K xs ys h
  simpa [summary] using this

/-- C17.  The same for `kstest_kuiper`. -/
theorem C17_kuiper_order (Q : Nat → F → F) (xs ys : List F) (h : xs.Perm ys) :
    (kstestKuiper Q xs xs.length).map Prod.fst = (kstestKuiper Q ys ys.length).map Prod.fst := by
  have := summary_perm ⟨false, 0, 0, 1, 0, 0, 0, 0, 0, 3⟩ Q Q xs ys h
  simpa [summary] using this

/-- C17.  No samples give -1, one sample gives itself. -/
theorem C17_kstest_small (K : Nat → F → F) (xs : List F) (x : F) :
    kstest K xs 0 = .ok (-1, xs) ∧ kstest K (x :: xs) 1 = .ok (x, x :: xs) := by
  constructor
  · simp [kstest]
  · simp [kstest, rd_ok]

theorem ksLoop_spec (count : Nat) : ∀ (s : List F) (i : Nat) (d : F),
    d ≤ ksLoop count i d s ∧
    (∀ j, ∀ h : j < s.length, |s[j] - ((i + j : ℕ) : F) / ((count : F) + 1)| ≤ ksLoop count i d s) ∧
    (ksLoop count i d s = d ∨ ∃ j, ∃ h : j < s.length, ksLoop count i d s = |s[j] - ((i + j : ℕ) : F) / ((count : F) + 1)|) := by
  intro s
  induction s with
  | nil => intro i d; simp [ksLoop]
  | cons p s ih =>
    intro i d
    rw [ksLoop]
    obtain ⟨m, hm⟩ : ∃ m, m = (if |p - (i : F) / ((count : F) + 1)| > d then |p - (i : F) / ((count : F) + 1)| else d) := ⟨_, rfl⟩
    rw [← hm]
    have m1 : d ≤ m ∧ |p - (i : F) / ((count : F) + 1)| ≤ m ∧ (m = d ∨ m = |p - (i : F) / ((count : F) + 1)|) := by
      rw [hm]
      split
      · next h => exact ⟨le_of_lt h, le_refl _, Or.inr rfl⟩
      · next h => exact ⟨le_refl _, not_lt.1 h, Or.inl rfl⟩
    obtain ⟨h1, h2, h3⟩ := ih (i + 1) m
    refine ⟨le_trans m1.1 h1, ?_, ?_⟩
    · intro j hj
      cases j with
      | zero => simpa using le_trans m1.2.1 h1
      | succ j =>
        have := h2 j (by simpa using hj)
        rw [show i + 1 + j = i + (j + 1) by omega] at this
        simpa using this
    · rcases h3 with h3 | ⟨j, hj, h3⟩
      · rcases m1.2.2 with h4 | h4
        · left; rw [h3, h4]
        · right; exact ⟨0, by simp, by rw [h3, h4]; simp⟩
      · right
        refine ⟨j + 1, by simpa using hj, ?_⟩
        rw [h3, show i + 1 + j = i + (j + 1) by omega]
        simp

/-- C17.  For two or more samples the p-value is a function of the number of samples and of the
largest distance `D` between the i-th smallest sample and `i/(n+1)`; for samples in `[0,1]` that
distance lies in `[0,1)`.  The samples end up sorted. -/
theorem C17_kstest_statistic (K : Nat → F → F) (xs : List F) (h : 2 ≤ xs.length) :
    ∃ s D, kstest K xs xs.length = .ok (K xs.length D, s) ∧ s.Perm xs ∧ s.Pairwise (· ≤ ·) ∧
      IsGreatest {d : F | ∃ j, ∃ h : j < s.length, d = |s[j] - ((j + 1 : ℕ) : F) / ((xs.length : F) + 1)|} D ∧
      0 ≤ D ∧ ((∀ x ∈ xs, 0 ≤ x ∧ x ≤ 1) → D < 1) := by
  have hs : (gslSort xs).Perm xs := gslSort_perm xs
  have hlen := hs.length_eq
  obtain ⟨h1, h2, h3⟩ := ksLoop_spec xs.length (gslSort xs) 1 0
  have hg : IsGreatest {d : F | ∃ j, ∃ h : j < (gslSort xs).length, d = |(gslSort xs)[j] - ((j + 1 : ℕ) : F) / ((xs.length : F) + 1)|}
      (ksLoop xs.length 1 0 (gslSort xs)) := by
    constructor
    · rcases h3 with h3 | ⟨j, hj, h3⟩
      · refine ⟨0, by omega, ?_⟩
        have := h2 0 (by omega)
        rw [h3] at this ⊢
        exact (le_antisymm this (abs_nonneg _)).symm
      · exact ⟨j, hj, by rw [h3, Nat.add_comm]⟩
    · rintro d ⟨j, hj, rfl⟩
      have := h2 j hj
      rw [Nat.add_comm] at this
      exact this
  refine ⟨gslSort xs, ksLoop xs.length 1 0 (gslSort xs), ?_, hs, List.pairwise_insertionSort _ _, hg, h1, ?_⟩
  · unfold kstest
    rw [if_neg (by omega), if_neg (by omega), if_neg (by omega)]
    simp
  · intro hx
    obtain ⟨j, hj, hD⟩ := hg.1
    rw [hD]
    have hm := hx _ (hs.mem_iff.1 (List.getElem_mem hj))
    have hn : (0 : F) < (xs.length : F) + 1 := by positivity
    have y0 : (0 : F) < ((j + 1 : ℕ) : F) / ((xs.length : F) + 1) := by positivity
    have y1 : ((j + 1 : ℕ) : F) / ((xs.length : F) + 1) < 1 := by
      rw [div_lt_one hn]
      have : j + 1 < xs.length + 1 := by omega
      exact_mod_cast this
    rw [abs_lt]
    constructor <;> linarith [hm.1, hm.2]

theorem kuiperLoop_spec (count : Nat) : ∀ (s : List F) (i : Nat) (vmin vmax : F), vmin ≤ vmax →
    (∀ j, ∀ h : j < s.length, (kuiperLoop count i vmin vmax s).1 ≤ s[j] - ((i + j : ℕ) : F) / (count : F) ∧
      s[j] - ((i + j : ℕ) : F) / (count : F) ≤ (kuiperLoop count i vmin vmax s).2) ∧
    (kuiperLoop count i vmin vmax s).1 ≤ vmin ∧ vmax ≤ (kuiperLoop count i vmin vmax s).2 ∧
    ((kuiperLoop count i vmin vmax s).1 = vmin ∨ ∃ j, ∃ h : j < s.length, (kuiperLoop count i vmin vmax s).1 = s[j] - ((i + j : ℕ) : F) / (count : F)) ∧
    ((kuiperLoop count i vmin vmax s).2 = vmax ∨ ∃ j, ∃ h : j < s.length, (kuiperLoop count i vmin vmax s).2 = s[j] - ((i + j : ℕ) : F) / (count : F)) := by
  intro s
  induction s with
  | nil => intro i a b hab; simp [kuiperLoop]
  | cons p s ih =>
    intro i a b hab
    obtain ⟨a', b', e, ha, hb, hp1, hp2, hab', ca, cb⟩ : ∃ a' b', kuiperLoop count i a b (p :: s) = kuiperLoop count (i + 1) a' b' s ∧
        a' ≤ a ∧ b ≤ b' ∧ a' ≤ p - (i : F) / count ∧ p - (i : F) / count ≤ b' ∧ a' ≤ b' ∧
        (a' = a ∨ a' = p - (i : F) / count) ∧ (b' = b ∨ b' = p - (i : F) / count) := by
      rw [kuiperLoop]
      split
      · next h => exact ⟨a, _, rfl, le_refl _, le_of_lt h, by linarith, le_refl _, by linarith, Or.inl rfl, Or.inr rfl⟩
      · next h =>
        split
        · next h' => exact ⟨_, b, rfl, le_of_lt h', le_refl _, le_refl _, by linarith, by linarith, Or.inr rfl, Or.inl rfl⟩
        · next h' => exact ⟨a, b, rfl, le_refl _, le_refl _, by linarith, by linarith, hab, Or.inl rfl, Or.inl rfl⟩
    rw [e]
    obtain ⟨h1, h2, h3, h4, h5⟩ := ih (i + 1) a' b' hab'
    have sh : ∀ j, i + 1 + j = i + (j + 1) := by intro j; omega
    refine ⟨?_, by linarith, by linarith, ?_, ?_⟩
    · intro j hj
      cases j with
      | zero => simp only [List.getElem_cons_zero, Nat.add_zero]; constructor <;> linarith
      | succ j =>
        have := h1 j (by simpa using hj)
        rw [sh] at this
        simpa using this
    · rcases h4 with h4 | ⟨j, hj, h4⟩
      · rcases ca with ca | ca
        · left; rw [h4, ca]
        · right; exact ⟨0, by simp, by rw [h4, ca]; simp⟩
      · right; exact ⟨j + 1, by simpa using hj, by rw [h4, sh]; simp⟩
    · rcases h5 with h5 | ⟨j, hj, h5⟩
      · rcases cb with cb | cb
        · left; rw [h5, cb]
        · right; exact ⟨0, by simp, by rw [h5, cb]; simp⟩
      · right; exact ⟨j + 1, by simpa using hj, by rw [h5, sh]; simp⟩

/-- C17.  Kuiper's statistic: the spread between the largest and the smallest of 0 and the
differences `x_(j) - j/n` (`j` from 0).  For samples in `[0,1]` it lies in `[0,2)`. -/
theorem C17_kuiper_statistic (Q : Nat → F → F) (xs : List F) (h : 2 ≤ xs.length) :
    ∃ s lo hi, kstestKuiper Q xs xs.length = .ok (Q xs.length (hi - lo), s) ∧ s.Perm xs ∧ s.Pairwise (· ≤ ·) ∧
      IsGreatest {d : F | d = 0 ∨ ∃ j, ∃ h : j < s.length, d = s[j] - (j : F) / (xs.length : F)} hi ∧
      IsLeast {d : F | d = 0 ∨ ∃ j, ∃ h : j < s.length, d = s[j] - (j : F) / (xs.length : F)} lo ∧
      ((∀ x ∈ xs, 0 ≤ x ∧ x ≤ 1) → 0 ≤ hi - lo ∧ hi - lo < 2) := by
  have hs : (gslSort xs).Perm xs := gslSort_perm xs
  have hlen := hs.length_eq
  obtain ⟨h1, h2, h3, h4, h5⟩ := kuiperLoop_spec xs.length (gslSort xs) 0 0 0 (le_refl _)
  simp only [Nat.zero_add] at h1 h4 h5
  have hg : IsGreatest {d : F | d = 0 ∨ ∃ j, ∃ h : j < (gslSort xs).length, d = (gslSort xs)[j] - (j : F) / (xs.length : F)}
      (kuiperLoop xs.length 0 0 0 (gslSort xs)).2 := by
    refine ⟨h5, ?_⟩
    rintro d (rfl | ⟨j, hj, rfl⟩)
    · exact h3
    · exact (h1 j hj).2
  have hl : IsLeast {d : F | d = 0 ∨ ∃ j, ∃ h : j < (gslSort xs).length, d = (gslSort xs)[j] - (j : F) / (xs.length : F)}
      (kuiperLoop xs.length 0 0 0 (gslSort xs)).1 := by
    refine ⟨h4, ?_⟩
    rintro d (rfl | ⟨j, hj, rfl⟩)
    · exact h2
    · exact (h1 j hj).1
  refine ⟨gslSort xs, _, _, ?_, hs, List.pairwise_insertionSort _ _, hg, hl, ?_⟩
  · unfold kstestKuiper
    rw [if_neg (by omega), if_neg (by omega)]
    simp only [List.take_length, List.drop_length, List.append_nil]
    rw [abs_of_nonneg h3, abs_of_nonpos h2, sub_eq_add_neg]
  · intro hx
    refine ⟨by linarith, ?_⟩
    have hn : (0 : F) < (xs.length : F) := by exact_mod_cast (by omega : 0 < xs.length)
    have hhi : (kuiperLoop xs.length 0 0 0 (gslSort xs)).2 ≤ 1 := by
      rcases h5 with h | ⟨j, hj, h⟩
      · rw [h]; norm_num
      · rw [h]
        have hm := hx _ (hs.mem_iff.1 (List.getElem_mem hj))
        have y0 : (0 : F) ≤ (j : F) / (xs.length : F) := by positivity
        linarith [hm.2]
    have hlo : -1 < (kuiperLoop xs.length 0 0 0 (gslSort xs)).1 := by
      rcases h4 with h | ⟨j, hj, h⟩
      · rw [h]; norm_num
      · rw [h]
        have hm := hx _ (hs.mem_iff.1 (List.getElem_mem hj))
        have y1 : (j : F) / (xs.length : F) < 1 := by
          rw [div_lt_one hn]
          exact_mod_cast (by omega : j < xs.length)
        linarith [hm.1]
    linarith

example : kstest (F := ℚ) (fun n D => D + n) [3/4, 1/4, 1/8] 3 = .ok (3 + 1/4, [1/8, 1/4, 3/4]) := by decide +kernel
example : kstestKuiper (F := ℚ) (fun n D => D + n) [3/4, 1/4, 1/8] 3 = .ok (3 + 5/24, [1/8, 1/4, 3/4]) := by decide +kernel

end Dh
