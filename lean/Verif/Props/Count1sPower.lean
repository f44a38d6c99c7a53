import Mathlib.Algebra.Order.Chebyshev
import Verif.Props.Count1sMean
import Verif.Props.RunsPower
/-
C142: the count-the-1s tests find every predictor of a letter.
-/
namespace Dh
namespace Spec

/-- The share of the bytes that give the letter `a`. -/
def letterShare (a : Nat) : ℚ := ((List.range 256).countP (fun b => letter b = a) : Nat) / 256

/-- How many of the five-letter words begin with the letter that `g` says when it is given the other four. -/
def letterHits (n : Nat) (X : Nat → Nat) (g : Nat → Nat) : Nat := (List.range n).countP fun t => X t / 625 = g (X t % 625)

/-- How many are expected. -/
def letterExpected (n : Nat) (X : Nat → Nat) (g : Nat → Nat) : ℚ := ∑ t ∈ Finset.range n, letterShare (g (X t % 625))

end Spec
open Spec

theorem letterShare_vals : letterShare 0 = 37 / 256 ∧ letterShare 1 = 56 / 256 ∧ letterShare 2 = 70 / 256 ∧ letterShare 3 = 56 / 256 ∧ letterShare 4 = 37 / 256 := by
  have h : ∀ a < 5, (List.range 256).countP (fun b => letter b = a) = [37, 56, 70, 56, 37].getD a 0 := by decide +kernel
  refine ⟨?_, ?_, ?_, ?_, ?_⟩ <;> rw [letterShare, h _ (by norm_num)] <;> norm_num

theorem wordShare_front (v : Nat) (hv : v < 3125) : wordShare 5 v = letterShare (v / 625) * wordShare 4 (v % 625) := by
  have h0 : ∀ x, wordShare 0 x = if x = 0 then 1 else 0 := fun x => by
    rw [wordShare, byteStrings]
    by_cases h : x = 0
    · simp [h, base5]
    · simp [h, base5, Ne.symm h]
  rw [wordShare_succ, wordShare_succ, wordShare_succ, wordShare_succ, wordShare_succ, h0, wordShare_succ, wordShare_succ, wordShare_succ, wordShare_succ, h0,
    if_pos (by omega), if_pos (by omega), letterShare, show v / 5 / 5 / 5 / 5 % 5 = v / 625 by omega, show v % 625 / 5 / 5 / 5 % 5 = v / 5 / 5 / 5 % 5 by omega,
    show v % 625 / 5 / 5 % 5 = v / 5 / 5 % 5 by omega, show v % 625 / 5 % 5 = v / 5 % 5 by omega, show v % 625 % 5 = v % 5 by omega]
  ring

theorem wordShare_pos4 (u : Nat) (hu : u < 625) : 0 < wordShare 4 u := lt_of_lt_of_le (by norm_num) (wordShare_bounds 4 u (by norm_num; exact hu)).1

/-- The sum over the words of five letters, by their last four letters. -/
theorem sum_five {M : Type} [AddCommMonoid M] (F : Nat → M) :
    ∑ v ∈ Finset.range 3125, F v = ∑ u ∈ Finset.range 625, (F u + F (625 + u) + F (1250 + u) + F (1875 + u) + F (2500 + u)) := by
  rw [show 3125 = 2500 + 625 by norm_num, Finset.sum_range_add, show 2500 = 1875 + 625 by norm_num, Finset.sum_range_add, show 1875 = 1250 + 625 by norm_num, Finset.sum_range_add,
    show 1250 = 625 + 625 by norm_num, Finset.sum_range_add, ← Finset.sum_add_distrib, ← Finset.sum_add_distrib, ← Finset.sum_add_distrib, ← Finset.sum_add_distrib]

theorem countP_five (n : Nat) (X : Nat → Nat) (hX : ∀ t, X t < 3125) (u : Nat) (hu : u < 625) :
    (List.range n).countP (fun t => X t % 625 = u) = (List.range n).countP (fun t => X t = u) + (List.range n).countP (fun t => X t = 625 + u) +
      (List.range n).countP (fun t => X t = 1250 + u) + (List.range n).countP (fun t => X t = 1875 + u) + (List.range n).countP (fun t => X t = 2500 + u) := by
  induction n with
  | zero => simp
  | succ n ih =>
    simp only [List.range_succ, List.countP_append, List.countP_singleton, ih, decide_eq_true_eq]
    have := hX n
    split_ifs <;> omega

/-- C142: the difference of the two chi-square statistics is a sum of squares: of the deviations of the words of five letters from what their last four letters make
one expect. -/
theorem C142_squares (n : Nat) (hn : 0 < n) (X : Nat → Nat) (hX : ∀ t, X t < 3125) :
    wordStat 5 n X - wordStat 4 n (fun t => X t % 625) =
      ∑ v ∈ Finset.range 3125, (((List.range n).countP (fun t => X t = v) : ℚ) - letterShare (v / 625) * (List.range n).countP (fun t => X t % 625 = v % 625)) ^ 2 /
        (n * wordShare 5 v) := by
  have hnq : (n : ℚ) ≠ 0 := by exact_mod_cast hn.ne'
  rw [wordStat, wordStat, show 5 ^ 5 = 3125 by norm_num, show 5 ^ 4 = 625 by norm_num, sum_five, sum_five, ← Finset.sum_sub_distrib]
  refine Finset.sum_congr rfl fun u hu => ?_
  have hu' := Finset.mem_range.1 hu
  have hw := (wordShare_pos4 u hu').ne'
  obtain ⟨p0, p1, p2, p3, p4⟩ := letterShare_vals
  have m1 : (625 + u) % 625 = u := by omega
  have m2 : (1250 + u) % 625 = u := by omega
  have m3 : (1875 + u) % 625 = u := by omega
  have m4 : (2500 + u) % 625 = u := by omega
  have d1 : (625 + u) / 625 = 1 := by omega
  have d2 : (1250 + u) / 625 = 2 := by omega
  have d3 : (1875 + u) / 625 = 3 := by omega
  have d4 : (2500 + u) / 625 = 4 := by omega
  rw [countP_five n X hX u hu', wordShare_front u (by omega), wordShare_front (625 + u) (by omega), wordShare_front (1250 + u) (by omega), wordShare_front (1875 + u) (by omega),
    wordShare_front (2500 + u) (by omega)]
  rw [Nat.mod_eq_of_lt hu', Nat.div_eq_of_lt hu']
  simp only [m1, m2, m3, m4, d1, d2, d3, d4, p0, p1, p2, p3, p4]
  rw [countP_five n X hX u hu']
  push_cast
  field_simp
  ring

theorem sum_group (n : Nat) (X : Nat → Nat) (hX : ∀ t, X t < 3125) (φ : Nat → ℚ) :
    ∑ t ∈ Finset.range n, φ (X t) = ∑ v ∈ Finset.range 3125, φ v * (List.range n).countP (fun t => X t = v) := by
  induction n with
  | zero => simp
  | succ n ih =>
    rw [Finset.sum_range_succ, ih]
    have h : ∀ v, φ v * ((List.range (n + 1)).countP (fun t => X t = v) : Nat) = φ v * ((List.range n).countP (fun t => X t = v) : Nat) + if X n = v then φ v else 0 := fun v => by
      rw [List.range_succ, List.countP_append, List.countP_singleton, Nat.cast_add, mul_add]
      by_cases hv : X n = v <;> simp [hv]
    rw [Finset.sum_congr rfl fun v _ => h v, Finset.sum_add_distrib, Finset.sum_ite_eq, if_pos (Finset.mem_range.2 (hX n))]

/-- C142: the difference bounds every correlation between a letter and the four letters after it: if `φ` has mean zero for each choice of the last four letters, the square of
its sum over the words is at most the difference times `n` times the mean square of `φ`. -/
theorem C142_correlation (n : Nat) (hn : 0 < n) (X : Nat → Nat) (hX : ∀ t, X t < 3125) (φ : Nat → ℚ)
    (h : ∀ u < 625, ∑ a ∈ Finset.range 5, letterShare a * φ (625 * a + u) = 0) :
    (∑ t ∈ Finset.range n, φ (X t)) ^ 2 ≤ (wordStat 5 n X - wordStat 4 n (fun t => X t % 625)) * (n * ∑ v ∈ Finset.range 3125, wordShare 5 v * φ v ^ 2) := by
  have hnq : (0 : ℚ) < n := by exact_mod_cast hn
  have hq : ∀ v < 3125, 0 < wordShare 5 v := fun v hv => lt_of_lt_of_le (by norm_num) (wordShare_bounds 5 v (by norm_num; exact hv)).1
  have hz : ∑ v ∈ Finset.range 3125, φ v * (letterShare (v / 625) * ((List.range n).countP (fun t => X t % 625 = v % 625) : Nat)) = 0 := by
    rw [sum_five]
    refine Finset.sum_eq_zero fun u hu => ?_
    have hu' := Finset.mem_range.1 hu
    have hs := h u hu'
    rw [Finset.sum_range_succ, Finset.sum_range_succ, Finset.sum_range_succ, Finset.sum_range_succ, Finset.sum_range_one] at hs
    norm_num at hs
    have m1 : (625 + u) % 625 = u := by omega
    have m2 : (1250 + u) % 625 = u := by omega
    have m3 : (1875 + u) % 625 = u := by omega
    have m4 : (2500 + u) % 625 = u := by omega
    have d1 : (625 + u) / 625 = 1 := by omega
    have d2 : (1250 + u) / 625 = 2 := by omega
    have d3 : (1875 + u) / 625 = 3 := by omega
    have d4 : (2500 + u) / 625 = 4 := by omega
    rw [Nat.mod_eq_of_lt hu', Nat.div_eq_of_lt hu', m1, m2, m3, m4, d1, d2, d3, d4]
    linear_combination ((List.range n).countP (fun t => X t % 625 = u) : ℚ) * hs
  have hsum : ∑ t ∈ Finset.range n, φ (X t) = ∑ v ∈ Finset.range 3125,
      φ v * (((List.range n).countP (fun t => X t = v) : ℚ) - letterShare (v / 625) * (List.range n).countP (fun t => X t % 625 = v % 625)) := by
    rw [sum_group n X hX]
    simp only [mul_sub]
    rw [Finset.sum_sub_distrib, hz, sub_zero]
  rw [hsum, C142_squares n hn X hX, Finset.mul_sum]
  refine Finset.sum_sq_le_sum_mul_sum_of_sq_le_mul _ (fun v hv => ?_) (fun v hv => ?_) fun v hv => ?_
  · exact div_nonneg (sq_nonneg _) (mul_nonneg hnq.le (hq v (Finset.mem_range.1 hv)).le)
  · exact mul_nonneg hnq.le (mul_nonneg (hq v (Finset.mem_range.1 hv)).le (sq_nonneg _))
  · have hw := (hq v (Finset.mem_range.1 hv)).ne'
    generalize wordShare 5 v = q at *
    refine le_of_eq ?_
    field_simp

/-- C142: so whatever rule guesses a letter from the four letters after it, the square of (right guesses minus expected) is at most `n/4` times the difference. -/
theorem C142_guess (n : Nat) (hn : 0 < n) (X : Nat → Nat) (hX : ∀ t, X t < 3125) (g : Nat → Nat) (hg : ∀ u, g u < 5) :
    ((letterHits n X g : ℚ) - letterExpected n X g) ^ 2 ≤ (wordStat 5 n X - wordStat 4 n (fun t => X t % 625)) * (n / 4) := by
  have hnq : (0 : ℚ) < n := by exact_mod_cast hn
  obtain ⟨p0, p1, p2, p3, p4⟩ := letterShare_vals
  obtain ⟨φ, hφ⟩ : ∃ φ : Nat → ℚ, φ = fun v => (if v / 625 = g (v % 625) then 1 else 0) - letterShare (g (v % 625)) := ⟨_, rfl⟩
  have hsum : (letterHits n X g : ℚ) - letterExpected n X g = ∑ t ∈ Finset.range n, φ (X t) := by
    rw [hφ, Finset.sum_sub_distrib, letterExpected, letterHits]
    congr 1
    clear hn hnq
    induction n with
    | zero => simp
    | succ n ih =>
      rw [List.range_succ, List.countP_append, Finset.sum_range_succ, Nat.cast_add, ih, List.countP_singleton]
      by_cases h' : X n / 625 = g (X n % 625) <;> simp [h']
  have hv : ∀ u < 625, ∀ a < 5, φ (625 * a + u) = (if a = g u then 1 else 0) - letterShare (g u) := fun u hu a _ => by
    rw [hφ]
    dsimp only
    rw [show (625 * a + u) / 625 = a by omega, show (625 * a + u) % 625 = u by omega]
  have hc : ∀ u < 625, ∑ a ∈ Finset.range 5, letterShare a * φ (625 * a + u) = 0 := fun u hu => by
    rw [Finset.sum_congr rfl fun a ha => by rw [hv u hu a (Finset.mem_range.1 ha)]]
    have := hg u
    generalize g u = c at *
    interval_cases c <;> simp [Finset.sum_range_succ, p0, p1, p2, p3, p4] <;> norm_num
  have he : ∑ v ∈ Finset.range 3125, wordShare 5 v * φ v ^ 2 ≤ 1 / 4 := by
    rw [sum_five]
    have ht := wordShare_sum 4
    norm_num only at ht
    calc _ ≤ ∑ u ∈ Finset.range 625, wordShare 4 u * (1 / 4) := Finset.sum_le_sum fun u hu => ?_
      _ = 1 / 4 := by rw [← Finset.sum_mul, ht, one_mul]
    have hu' := Finset.mem_range.1 hu
    have hw := wordShare_pos4 u hu'
    have q0 := hv u hu' 0 (by norm_num); have q1 := hv u hu' 1 (by norm_num); have q2 := hv u hu' 2 (by norm_num); have q3 := hv u hu' 3 (by norm_num); have q4 := hv u hu' 4 (by norm_num)
    have m1 : (625 + u) % 625 = u := by omega
    have m2 : (1250 + u) % 625 = u := by omega
    have m3 : (1875 + u) % 625 = u := by omega
    have m4 : (2500 + u) % 625 = u := by omega
    have d1 : (625 + u) / 625 = 1 := by omega
    have d2 : (1250 + u) / 625 = 2 := by omega
    have d3 : (1875 + u) / 625 = 3 := by omega
    have d4 : (2500 + u) / 625 = 4 := by omega
    norm_num only at q0 q1 q2 q3 q4
    rw [zero_add] at q0
    rw [wordShare_front u (by omega), wordShare_front (625 + u) (by omega), wordShare_front (1250 + u) (by omega), wordShare_front (1875 + u) (by omega),
      wordShare_front (2500 + u) (by omega), Nat.mod_eq_of_lt hu', Nat.div_eq_of_lt hu', m1, m2, m3, m4, d1, d2, d3, d4, q0, q1, q2, q3, q4, p0, p1, p2, p3, p4]
    have := hg u
    generalize g u = c at *
    interval_cases c <;> simp only [p0, p1, p2, p3, p4] <;> norm_num <;> nlinarith
  rw [hsum]
  refine (C142_correlation n hn X hX φ hc).trans ?_
  have hD : 0 ≤ wordStat 5 n X - wordStat 4 n (fun t => X t % 625) := by
    rw [C142_squares n hn X hX]
    refine Finset.sum_nonneg fun v hv => ?_
    have hw : 0 ≤ wordShare 5 v := le_trans (by norm_num) (wordShare_bounds 5 v (by norm_num; exact Finset.mem_range.1 hv)).1
    exact div_nonneg (sq_nonneg _) (mul_nonneg hnq.le hw)
  refine mul_le_mul_of_nonneg_left ?_ hD
  have := mul_le_mul_of_nonneg_left he hnq.le
  linarith

theorem base5_tail (l : Nat → Nat) (hl : ∀ i, l i < 5) : base5 ((List.range 5).map l) < 3125 ∧ base5 ((List.range 5).map l) % 625 = base5 ((List.range 4).map fun i => l (i + 1)) := by
  have h : ∀ i, l i < 5 := hl
  have h0 := h 0; have h1 := h 1; have h2 := h 2; have h3 := h 3; have h4 := h 4
  simp only [base5, List.range, List.range.loop, List.map_cons, List.map_nil, List.foldl_cons, List.foldl_nil]
  norm_num only
  constructor <;> omega

theorem sqrt_5000 : Real.sqrt 5000 ≤ 70.72 := by
  rw [Real.sqrt_le_left (by norm_num)]
  norm_num

/-- The p-value of a difference of 2783 or more. -/
theorem c1s_low (d : ℝ) (h : 2783 ≤ d) : 0 ≤ normalCdf (2500 - d) (Real.sqrt 5000) ∧ normalCdf (2500 - d) (Real.sqrt 5000) ≤ 0.0004 := by
  have hs : 0 < Real.sqrt 5000 := Real.sqrt_pos.2 (by norm_num)
  exact (xtest_four d 2500 _ hs).1 (by linarith [sqrt_5000])

/-- The difference from the guesses. -/
theorem guess_large (n : Nat) (hn : 0 < n) (X : Nat → Nat) (hX : ∀ t, X t < 3125) (g : Nat → Nat) (hg : ∀ u, g u < 5)
    (h : 696 * (n : ℚ) ≤ ((letterHits n X g : ℚ) - letterExpected n X g) ^ 2) :
    (2783 : ℝ) ≤ (wordStat 5 n X : ℝ) - (wordStat 4 n (fun t => X t % 625) : ℝ) := by
  have hnq : (0 : ℚ) < n := by exact_mod_cast hn
  have h1 := h.trans (C142_guess n hn X hX g hg)
  have h2 : (2783 : ℚ) ≤ wordStat 5 n X - wordStat 4 n (fun t => X t % 625) := by
    have : 2784 * ((n : ℚ) / 4) ≤ (wordStat 5 n X - wordStat 4 n (fun t => X t % 625)) * (n / 4) := by linarith
    have := le_of_mul_le_mul_right this (by linarith)
    linarith
  exact_mod_cast h2

/-- C142: diehard_count_1s_stream (from 79280 samples on) fails if in every sample some rule guesses the letters from the four letters after them with
`26.4 sqrt(n)` more (or fewer) successes than expected. -/
theorem C142_stream (n : Nat) (hn : 79280 ≤ n) (psamples : Nat) (srcs : Nat → Src) (g : Nat → Nat → Nat) (hg : ∀ i u, g i u < 5)
    (h : ∀ i, 696 * (n : ℚ) ≤ ((letterHits n (fun t => streamWord (srcs i) t 5) (g i) : ℚ) - letterExpected n (fun t => streamWord (srcs i) t 5) (g i)) ^ 2) :
    ∃ p : Nat → ℝ, (∀ i, c1sStreamTest normalCdf (srcs i) n = .ok (p i)) ∧ FailsLow ((List.range psamples).map p) := by
  refine ⟨_, fun i => (C85_statistic normalCdf (srcs i) n hn).1, C137_low _ fun p hp => ?_⟩
  obtain ⟨i, -, rfl⟩ := List.mem_map.1 hp
  have hb := fun t => base5_tail (fun j => letter (streamByte (srcs i) (t + j))) fun j => letter_lt _
  have he : (fun t => streamWord (srcs i) (t + 1) 4) = fun t => streamWord (srcs i) t 5 % 625 := funext fun t => by
    rw [streamWord, streamWord, (hb t).2]
    simp only [Nat.add_assoc, Nat.add_comm 1]
  refine c1s_low _ ?_
  rw [he]
  exact guess_large n (by omega) _ (fun t => (hb t).1) (g i) (hg i) (h i)

/-- C142: and so does diehard_count_1s_byte. -/
theorem C142_byte (n : Nat) (hn : 79280 ≤ n) (psamples : Nat) (srcs : Nat → Src) (g : Nat → Nat → Nat) (hg : ∀ i u, g i u < 5)
    (h : ∀ i, 696 * (n : ℚ) ≤ ((letterHits n (fun t => offsetWord (srcs i) t (5 * t) 5) (g i) : ℚ) - letterExpected n (fun t => offsetWord (srcs i) t (5 * t) 5) (g i)) ^ 2) :
    ∃ p : Nat → ℝ, (∀ i, c1sByteTest normalCdf (srcs i) n = .ok (p i)) ∧ FailsLow ((List.range psamples).map p) := by
  refine ⟨_, fun i => (C85_statistic normalCdf (srcs i) n hn).2, C137_low _ fun p hp => ?_⟩
  obtain ⟨i, -, rfl⟩ := List.mem_map.1 hp
  have hb := fun t => base5_tail (fun j => letter (cyclicByte (srcs i (5 * t + j)) (t % 32))) fun j => letter_lt _
  have he : (fun t => offsetWord (srcs i) t (5 * t + 1) 4) = fun t => offsetWord (srcs i) t (5 * t) 5 % 625 := funext fun t => by
    rw [offsetWord, offsetWord, (hb t).2]
    simp only [Nat.add_assoc, Nat.add_comm 1]
  refine c1s_low _ ?_
  rw [he]
  exact guess_large n (by omega) _ (fun t => (hb t).1) (g i) (hg i) (h i)

/-- C142: in particular if the letters are a function of the four letters after them. -/
theorem C142_determined (n : Nat) (hn : 79280 ≤ n) (psamples : Nat) (srcs : Nat → Src) (g : Nat → Nat → Nat) (hg : ∀ i u, g i u < 5)
    (h : ∀ i t, letter (streamByte (srcs i) t) = g i (streamWord (srcs i) (t + 1) 4)) :
    ∃ p : Nat → ℝ, (∀ i, c1sStreamTest normalCdf (srcs i) n = .ok (p i)) ∧ FailsLow ((List.range psamples).map p) := by
  refine C142_stream n hn psamples srcs g hg fun i => ?_
  have hnq : (79280 : ℚ) ≤ n := by exact_mod_cast hn
  have hb := fun t => base5_tail (fun j => letter (streamByte (srcs i) (t + j))) fun j => letter_lt _
  have he : ∀ t, streamWord (srcs i) (t + 1) 4 = streamWord (srcs i) t 5 % 625 := fun t => by
    rw [streamWord, streamWord, (hb t).2]
    simp only [Nat.add_assoc, Nat.add_comm 1]
  have hd : ∀ t, streamWord (srcs i) t 5 / 625 = letter (streamByte (srcs i) t) := fun t => by
    have e := base5_cons_mod (letter (streamByte (srcs i) t)) ((List.range 4).map fun j => letter (streamByte (srcs i) (t + 1 + j)))
    have e2 : streamWord (srcs i) t 5 = base5 (letter (streamByte (srcs i) t) :: (List.range 4).map fun j => letter (streamByte (srcs i) (t + 1 + j))) := by
      rw [streamWord]
      rfl
    have e3 : base5 ((List.range 4).map fun j => letter (streamByte (srcs i) (t + 1 + j))) < 5 ^ 4 := base5_range_lt 4 _ fun _ _ => letter_lt _
    rw [e2, e, List.length_map, List.length_range]
    omega
  have hh : letterHits n (fun t => streamWord (srcs i) t 5) (g i) = n := by
    rw [letterHits, List.countP_eq_length.2, List.length_range]
    intro t _
    rw [decide_eq_true_iff, hd, ← he]
    exact h i t
  have hx : letterExpected n (fun t => streamWord (srcs i) t 5) (g i) ≤ n * (70 / 256) := by
    rw [letterExpected]
    refine (Finset.sum_le_card_nsmul _ _ (70 / 256) fun t _ => ?_).trans (le_of_eq (by rw [Finset.card_range, nsmul_eq_mul]))
    obtain ⟨p0, p1, p2, p3, p4⟩ := letterShare_vals
    have := hg i (streamWord (srcs i) t 5 % 625)
    generalize g i (streamWord (srcs i) t 5 % 625) = c at *
    interval_cases c <;> simp only [p0, p1, p2, p3, p4] <;> norm_num
  rw [hh]
  have : (n : ℚ) * (186 / 256) ≤ n - letterExpected n (fun t => streamWord (srcs i) t 5) (g i) := by linarith
  refine le_trans ?_ (pow_le_pow_left₀ (by linarith) this 2)
  nlinarith

/-- Bytes that always have four ones (each is a function of the ones after it, whatever it is). -/
example : ∃ p : Nat → ℝ, (∀ i, c1sStreamTest normalCdf (fun k => if k % (i + 2) = 0 then 0x0F0F3C5A else 0x99AAF0C3) 256000 = .ok (p i)) ∧
    FailsLow ((List.range 100).map p) := by
  refine C142_determined 256000 (by norm_num) 100 (fun i k => if k % (i + 2) = 0 then 0x0F0F3C5A else 0x99AAF0C3) (fun _ _ => 2) (fun _ _ => by norm_num) fun i t => ?_
  have h : ∀ j < 4, letter ((0x0F0F3C5A : UInt).toNat / 2 ^ (8 * j) % 256) = 2 ∧ letter ((0x99AAF0C3 : UInt).toNat / 2 ^ (8 * j) % 256) = 2 := by decide +kernel
  have hj := h (t % 4) (Nat.mod_lt _ (by norm_num))
  rw [streamByte]
  split_ifs
  · exact hj.1
  · exact hj.2

/-- Two words, of which the guess that letters repeat is right both times. -/
example : letterHits 2 (fun t => [1562, 1].getD t 0) (fun u => u / 125) = 2 ∧ letterExpected 2 (fun t => [1562, 1].getD t 0) (fun u => u / 125) = 107 / 256 := by
  obtain ⟨p0, -, p2, -, -⟩ := letterShare_vals
  refine ⟨by decide, ?_⟩
  rw [letterExpected, Finset.sum_range_succ, Finset.sum_range_one]
  norm_num [p0, p2]

end Dh
