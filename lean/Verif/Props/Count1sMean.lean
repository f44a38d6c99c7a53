import Mathlib.Algebra.BigOperators.Fin
import Mathlib.Data.Rat.BigOperators
import Mathlib.Logic.Equiv.Fin.Basic
import Verif.Model.Count1sStat
import Verif.Proof.WindowChi
import Verif.Props.Count1s
import Verif.Props.Vtest
/-
C85: the statistic of the count-the-1s tests and its mean for uniform draws.
-/
set_option maxRecDepth 10000
namespace Dh
namespace Spec

/-- The share of the strings of `m` bytes that spell the word `v`. -/
def wordShare (m v : Nat) : ℚ := ((byteStrings m).countP (fun s => base5 (s.map letter) = v) : Nat) / 256 ^ m

/-- Pearson's statistic of the words `X 0, ..., X (n-1)` of `m` letters. -/
def wordStat (m n : Nat) (X : Nat → Nat) : ℚ :=
  ∑ v ∈ Finset.range (5 ^ m), (((List.range n).countP (fun t => X t = v) : Nat) - n * wordShare m v) ^ 2 / (n * wordShare m v)

end Spec
open Spec

/-! ### The word probabilities -/

theorem wordShare_succ (m v : Nat) :
    wordShare (m + 1) v = wordShare m (v / 5) * (((List.range 256).countP (fun b => letter b = v % 5) : Nat) / 256) := by
  rw [wordShare, wordShare, strings_count, Nat.cast_mul, pow_succ]
  field_simp

theorem wordShare_bounds : ∀ (m v : Nat), v < 5 ^ m → (37 / 256 : ℚ) ^ m ≤ wordShare m v ∧ wordShare m v ≤ (70 / 256 : ℚ) ^ m
  | 0, v, h => by
    have : v = 0 := by omega
    subst this
    norm_num [wordShare, byteStrings, base5]
  | m + 1, v, h => by
    obtain ⟨h1, h2⟩ := wordShare_bounds m (v / 5) (by rw [pow_succ] at h; omega)
    have h5 : v % 5 < 5 := Nat.mod_lt _ (by omega)
    have h3 : (37 / 256 : ℚ) ≤ (((List.range 256).countP (fun b => letter b = v % 5) : Nat) / 256 : ℚ) ∧
        (((List.range 256).countP (fun b => letter b = v % 5) : Nat) / 256 : ℚ) ≤ 70 / 256 := by
      rw [letter_count _ h5]
      generalize v % 5 = r at h5
      interval_cases r <;> norm_num
    rw [wordShare_succ, pow_succ, pow_succ]
    have h0 : (0 : ℚ) ≤ (37 / 256 : ℚ) ^ m := by positivity
    exact ⟨mul_le_mul h1 h3.1 (by norm_num) (le_trans h0 h1), mul_le_mul h2 h3.2 (by linarith [h3.1]) (by positivity)⟩

/-- The letter of a byte given by its bits. -/
def bitsLetter (b : Fin 8 → Bool) : Fin 5 := ⟨letter (Nat.ofBits b), letter_lt _⟩

theorem bitsLetter_prob (l : Fin 5) : letterProb bitsLetter l = (((List.range 256).countP (fun b => letter b = l) : Nat) / 256 : ℝ) := by
  rw [letterProb, mean_indicator]
  have hc : (Finset.univ.filter fun b : Fin 8 → Bool => bitsLetter b = l).card = (List.range 256).countP (fun b => letter b = l) := by
    rw [List.countP_eq_length_filter, ← List.toFinset_card_of_nodup (List.Nodup.filter _ List.nodup_range)]
    refine Finset.card_bij' (fun b _ => Nat.ofBits b) (fun v _ (i : Fin 8) => v.testBit i) ?_ ?_ ?_ ?_
    · intro b hb
      simp only [List.toFinset_filter, Finset.mem_filter, List.mem_toFinset, List.mem_range, decide_eq_true_eq]
      refine ⟨Nat.ofBits_lt_two_pow b, ?_⟩
      rw [Finset.mem_filter] at hb
      exact congrArg Fin.val hb.2
    · intro v hv
      simp only [List.toFinset_filter, Finset.mem_filter, List.mem_toFinset, List.mem_range, decide_eq_true_eq] at hv
      rw [Finset.mem_filter]
      refine ⟨Finset.mem_univ _, Fin.ext ?_⟩
      show letter (Nat.ofBits fun i : Fin 8 => v.testBit i) = l
      rw [Nat.ofBits_testBit, Nat.mod_eq_of_lt hv.1]
      exact hv.2
    · intro b _
      funext i
      exact Nat.testBit_ofBits_lt b i i.2
    · intro v hv
      simp only [List.toFinset_filter, Finset.mem_filter, List.mem_toFinset, List.mem_range, decide_eq_true_eq] at hv
      rw [Nat.ofBits_testBit, Nat.mod_eq_of_lt hv.1]
  rw [hc]
  norm_num

theorem bitsLetter_surjective : Function.Surjective bitsLetter := by
  intro l
  have h : (0 : ℝ) < letterProb bitsLetter l := by
    rw [bitsLetter_prob, letter_count _ l.2]
    refine div_pos ?_ (by norm_num)
    have : ∀ l : Fin 5, 0 < [37, 56, 70, 56, 37].getD (l : ℕ) 0 := by decide
    exact_mod_cast this l
  by_contra hn
  have : letterProb bitsLetter l = 0 := by
    rw [letterProb, mean_congr (g := fun _ => 0) fun b => if_neg fun hb => hn ⟨b, hb⟩, mean_const]
  linarith

/-- The letters of the word with number `v`. -/
def wordOf (m v : Nat) : Fin m → Fin 5 := fun i => ⟨v / 5 ^ (m - 1 - i) % 5, Nat.mod_lt _ (by omega)⟩

theorem wordOf_castSucc (m v : Nat) (i : Fin m) : wordOf (m + 1) v i.castSucc = wordOf m (v / 5) i := by
  apply Fin.ext
  show v / 5 ^ (m + 1 - 1 - i) % 5 = v / 5 / 5 ^ (m - 1 - i) % 5
  rw [Nat.div_div_eq_div_mul, ← pow_succ', show m + 1 - 1 - (i : ℕ) = m - 1 - i + 1 from by omega]

theorem wordOf_last (m v : Nat) : wordOf (m + 1) v (Fin.last m) = ⟨v % 5, Nat.mod_lt _ (by omega)⟩ := by
  apply Fin.ext
  show v / 5 ^ (m + 1 - 1 - m) % 5 = v % 5
  rw [show m + 1 - 1 - m = 0 from by omega, pow_zero, Nat.div_one]

theorem wordShare_prob : ∀ (m v : Nat), v < 5 ^ m → (wordShare m v : ℝ) = wordProb bitsLetter (wordOf m v)
  | 0, v, h => by
    have : v = 0 := by omega
    subst this
    simp [wordShare, byteStrings, base5, wordProb]
  | m + 1, v, h => by
    rw [wordShare_succ, Rat.cast_mul, wordShare_prob m (v / 5) (by rw [pow_succ] at h; omega), wordProb, wordProb, Fin.prod_univ_castSucc]
    congr 1
    · exact Finset.prod_congr rfl fun i _ => by rw [wordOf_castSucc]
    · rw [wordOf_last, bitsLetter_prob]
      push_cast
      rfl

theorem sum_words (m : Nat) (g : (Fin m → Fin 5) → ℝ) : ∑ v ∈ Finset.range (5 ^ m), g (wordOf m v) = ∑ w, g w := by
  rw [Finset.sum_range]
  let e : (Fin m → Fin 5) ≃ Fin (5 ^ m) := (Equiv.arrowCongr Fin.revPerm (Equiv.refl _)).trans finFunctionFinEquiv
  rw [← Equiv.sum_comp e.symm]
  refine Finset.sum_congr rfl fun v _ => ?_
  congr 1
  funext i
  apply Fin.ext
  show (v : ℕ) / 5 ^ (m - 1 - i) % 5 = ((finFunctionFinEquiv.symm v) (i.rev) : ℕ)
  rw [finFunctionFinEquiv_symm_apply_val, Fin.val_rev, show m - 1 - (i : ℕ) = m - (i + 1) from by omega]

theorem wordShare_sum (m : Nat) : ∑ v ∈ Finset.range (5 ^ m), wordShare m v = 1 := by
  have h : (∑ v ∈ Finset.range (5 ^ m), (wordShare m v : ℝ)) = 1 := by
    rw [Finset.sum_congr rfl fun v hv => wordShare_prob m v (Finset.mem_range.1 hv), sum_words, wordProb_sum]
  exact_mod_cast h

theorem base5_iff : ∀ (m : Nat) (l : Nat → Nat) (v : Nat), (∀ i < m, l i < 5) → v < 5 ^ m →
    (base5 ((List.range m).map l) = v ↔ ∀ i < m, l i = v / 5 ^ (m - 1 - i) % 5)
  | 0, l, v, _, h => by
    have : v = 0 := by omega
    subst this
    simp [base5]
  | m + 1, l, v, hl, h => by
    have hm := hl m (by omega)
    rw [List.range_succ, List.map_append, List.map_singleton, base5_append]
    have ih := base5_iff m l (v / 5) (fun i hi => hl i (by omega)) (by rw [pow_succ] at h; omega)
    have hd : ∀ i < m, v / 5 / 5 ^ (m - 1 - i) = v / 5 ^ (m + 1 - 1 - i) := by
      intro i hi
      rw [Nat.div_div_eq_div_mul, ← pow_succ', show m + 1 - 1 - i = m - 1 - i + 1 from by omega]
    constructor
    · intro e i hi
      rcases Nat.lt_succ_iff_lt_or_eq.1 hi with h1 | rfl
      · rw [← hd i h1]
        exact ih.1 (by omega) i h1
      · rw [show i + 1 - 1 - i = 0 from by omega, pow_zero, Nat.div_one]; omega
    · intro e
      have e1 := ih.2 fun i hi => by rw [hd i hi]; exact e i (by omega)
      have e2 := e m (by omega)
      rw [show m + 1 - 1 - m = 0 from by omega, pow_zero, Nat.div_one] at e2
      omega

/-- The statistic in terms of windows of letters. -/
theorem wordStat_windows {J : Type*} [Fintype J] [DecidableEq J] (m n : Nat) (pos : Fin n → Fin m → J) (x : J → Fin 8 → Bool) (X : Nat → Nat)
    (hX : ∀ t : Fin n, ∀ v < 5 ^ m, X t = v ↔ wordAt bitsLetter x (pos t) = wordOf m v) :
    (wordStat m n X : ℝ) = wordChi (wordProb bitsLetter) (fun t => wordAt bitsLetter x (pos t)) := by
  rw [wordStat, wordChi, Rat.cast_sum, ← sum_words]
  refine Finset.sum_congr rfl fun v hv => ?_
  have hv := Finset.mem_range.1 hv
  have hc : (List.range n).countP (fun t => X t = v) = (Finset.univ.filter fun t => wordAt bitsLetter x (pos t) = wordOf m v).card := by
    rw [List.countP_eq_length_filter, ← List.toFinset_card_of_nodup (List.Nodup.filter _ List.nodup_range)]
    refine Finset.card_bij' (fun t ht => (⟨t, ?_⟩ : Fin n)) (fun t _ => (t : ℕ)) ?_ ?_ (fun _ _ => rfl) (fun _ _ => rfl)
    · simp only [List.toFinset_filter, Finset.mem_filter, List.mem_toFinset, List.mem_range] at ht
      exact ht.1
    · intro t ht
      simp only [List.toFinset_filter, Finset.mem_filter, List.mem_toFinset, List.mem_range, decide_eq_true_eq] at ht
      rw [Finset.mem_filter]
      exact ⟨Finset.mem_univ _, (hX ⟨t, ht.1⟩ v hv).1 ht.2⟩
    · intro t ht
      rw [Finset.mem_filter] at ht
      simp only [List.toFinset_filter, Finset.mem_filter, List.mem_toFinset, List.mem_range, decide_eq_true_eq]
      exact ⟨t.2, (hX t v hv).2 ht.2⟩
  rw [hc, ← wordShare_prob m v hv]
  push_cast
  rfl

/-! ### What the code computes -/

theorem c1sExpVec_spec (m n : Nat) : ∀ (todo i : Nat) (y : List ℚ), i + todo = 5 ^ m → y = (List.range i).map (fun v => n * wordShare m v) →
    c1sExpVec m n todo i y = .ok ((List.range (5 ^ m)).map fun v => n * wordShare m v)
  | 0, i, y, h, hy => by rw [c1sExpVec, hy, show i = 5 ^ m from by omega]
  | todo + 1, i, y, h, hy => by
    rw [c1sExpVec, C33_word_probabilities m n i (by omega), Res.bind_ok, c1sExpVec_spec m n todo (i + 1) _ (by omega)]
    rw [hy, List.range_succ, List.map_append, List.map_singleton]
    rfl

/-- The pairs of a count and an expectation. -/
def wordCells (m n : Nat) (X : Nat → Nat) : List (ℚ × ℚ) :=
  (List.range (5 ^ m)).map fun v => ((((List.range n).countP (fun t => X t = v) : Nat) : ℚ), n * wordShare m v)

theorem c1sChisq_spec (m n : Nat) (X : Nat → Nat) (x : List Nat) (hl : x.length = 5 ^ m)
    (hx : ∀ v, x.getD v 0 = (List.range n).countP (fun t => X t = v)) :
    c1sChisq m n x = .ok ((usedCells 5 (wordCells m n X)).map pearson).sum := by
  have hx' : x = (List.range (5 ^ m)).map fun v => (List.range n).countP (fun t => X t = v) := by
    apply List.ext_getElem
    · simp [hl]
    · intro i h1 h2
      rw [List.getElem_map, List.getElem_range, ← hx i]
      simp [h1]
  obtain ⟨w, h1, h2, -⟩ := C16_created (x.map fun c : Nat => (c : ℚ)) ((List.range (5 ^ m)).map fun v => n * wordShare m v) (by simp [hl])
  rw [c1sChisq, c1sExpVec_spec m n (5 ^ m) 0 [] (by omega) rfl, Res.bind_ok]
  have hl' : (x.map fun c : Nat => (c : ℚ)).length = 5 ^ m := by rw [List.length_map, hl]
  rw [hl'] at h1
  rw [h1, Res.bind_ok, h2]
  congr 4
  rw [hx', List.map_map, wordCells, List.zip_map']
  rfl

theorem sum_map_range (f : Nat → ℚ) : ∀ K : Nat, ((List.range K).map f).sum = ∑ v ∈ Finset.range K, f v
  | 0 => rfl
  | K + 1 => by rw [List.range_succ, List.map_append, List.sum_append, sum_map_range f K, Finset.sum_range_succ]; simp

theorem usedCells_large (cs : List (ℚ × ℚ)) (h : ∀ c ∈ cs, 5 ≤ c.2) : usedCells 5 cs = cs := by
  have h1 : smallCells 5 cs = [] := by
    rw [smallCells, List.filter_eq_nil_iff]
    intro c hc
    simpa using h c hc
  have h2 : bigCells 5 cs = cs := by
    rw [bigCells, List.filter_eq_self]
    intro c hc
    simpa using h c hc
  rw [usedCells, h1, h2]
  simp

theorem c1sChisq_large (m n : Nat) (X : Nat → Nat) (hn : 5 ≤ n * (37 / 256 : ℚ) ^ m) (x : List Nat) (hl : x.length = 5 ^ m)
    (hx : ∀ v, x.getD v 0 = (List.range n).countP (fun t => X t = v)) : c1sChisq m n x = .ok (wordStat m n X) := by
  rw [c1sChisq_spec m n X x hl hx, usedCells_large, wordCells, List.map_map, sum_map_range]
  · rfl
  · intro c hc
    rw [wordCells, List.mem_map] at hc
    obtain ⟨v, hv, rfl⟩ := hc
    have := (wordShare_bounds m v (List.mem_range.1 hv)).1
    exact le_trans hn (mul_le_mul_of_nonneg_left this (Nat.cast_nonneg n))

theorem sum_counts (X : Nat → Nat) (K : Nat) : ∀ n : Nat, (∀ t < n, X t < K) →
    ∑ v ∈ Finset.range K, (((List.range n).countP (fun t => X t = v) : Nat) : ℚ) = n
  | 0, _ => by simp
  | n + 1, h => by
    have : ∀ v ∈ Finset.range K, (((List.range (n + 1)).countP (fun t => X t = v) : Nat) : ℚ) =
        (((List.range n).countP (fun t => X t = v) : Nat) : ℚ) + if v = X n then 1 else 0 := by
      intro v _
      rw [List.range_succ, List.countP_append, List.countP_singleton]
      by_cases e : X n = v
      · simp [e]
      · simp [e, Ne.symm e]
    rw [Finset.sum_congr rfl this, Finset.sum_add_distrib, sum_counts X K n fun t ht => h t (by omega), Finset.sum_ite_eq',
      if_pos (Finset.mem_range.2 (h n (by omega)))]
    push_cast
    rfl

theorem c1sChisq_small (m n : Nat) (X : Nat → Nat) (hX : ∀ t < n, X t < 5 ^ m) (hn : n * (70 / 256 : ℚ) ^ m < 5) (x : List Nat)
    (hl : x.length = 5 ^ m) (hx : ∀ v, x.getD v 0 = (List.range n).countP (fun t => X t = v)) : c1sChisq m n x = .ok 0 := by
  have hs : ∀ c ∈ wordCells m n X, ¬ 5 ≤ c.2 := by
    intro c hc
    rw [wordCells, List.mem_map] at hc
    obtain ⟨v, hv, rfl⟩ := hc
    have := (wordShare_bounds m v (List.mem_range.1 hv)).2
    exact not_le.2 (lt_of_le_of_lt (mul_le_mul_of_nonneg_left this (Nat.cast_nonneg n)) hn)
  have h1 : smallCells 5 (wordCells m n X) = wordCells m n X := by
    rw [smallCells, List.filter_eq_self]
    intro c hc
    simpa using hs c hc
  have h2 : bigCells 5 (wordCells m n X) = [] := by
    rw [bigCells, List.filter_eq_nil_iff]
    intro c hc
    simpa using hs c hc
  have hp : pooled (wordCells m n X) = ((n : ℚ), (n : ℚ)) := by
    rw [pooled, wordCells, List.map_map, List.map_map, sum_map_range, sum_map_range]
    simp only [Function.comp_apply]
    rw [sum_counts X _ n hX, ← Finset.mul_sum, wordShare_sum, mul_one]
  rw [c1sChisq_spec m n X x hl hx, usedCells, h1, h2, hp]
  split_ifs <;> simp [pearson]

theorem base5_range_lt : ∀ (m : Nat) (l : Nat → Nat), (∀ i < m, l i < 5) → base5 ((List.range m).map l) < 5 ^ m
  | 0, l, _ => by simp [base5]
  | m + 1, l, h => by
    rw [List.range_succ, List.map_append, List.map_singleton, base5_append, pow_succ]
    have h1 := base5_range_lt m l fun i hi => h i (by omega)
    have h2 := h m (by omega)
    omega

/-- **C85.** With at least 79280 samples every word is expected at least five times and the count-the-1s tests compare the difference of
Pearson's statistics of the five-letter and of the four-letter words with a normal variable of mean 2500 and variance 5000. -/
theorem C85_statistic (gaussP : ℝ → ℝ → ℝ) (w : Src) (n : Nat) (hn : 79280 ≤ n) :
    c1sStreamTest gaussP w n = .ok (gaussP (2500 - (wordStat 5 n (fun t => streamWord w t 5) - wordStat 4 n (fun t => streamWord w (t + 1) 4) : ℝ))
      (Real.sqrt 5000)) ∧
    c1sByteTest gaussP w n = .ok (gaussP (2500 - (wordStat 5 n (fun t => offsetWord w t (5 * t) 5) -
      wordStat 4 n (fun t => offsetWord w t (5 * t + 1) 4) : ℝ)) (Real.sqrt 5000)) := by
  have hn' : (79280 : ℚ) ≤ n := by exact_mod_cast hn
  have h4 : 5 ≤ n * (37 / 256 : ℚ) ^ 4 := le_trans (by norm_num) (mul_le_mul_of_nonneg_right hn' (by positivity))
  have h5 : 5 ≤ n * (37 / 256 : ℚ) ^ 5 := le_trans (by norm_num) (mul_le_mul_of_nonneg_right hn' (by positivity))
  obtain ⟨f, a1, a2, a3, -, -, a4, a5⟩ := C33_stream_words w n
  obtain ⟨g, b1, b2, b3, -, -, b4, b5⟩ := C33_byte_words w n
  constructor
  · rw [c1sStreamTest, a1, Res.bind_ok, c1sPvalue, c1sChisq_large 4 n _ h4 f.x4 a2 a4, Res.bind_ok, c1sChisq_large 5 n _ h5 f.x5 a3 a5, Res.bind_ok]
    rfl
  · rw [c1sByteTest, b1, Res.bind_ok, c1sPvalue, c1sChisq_large 4 n _ h4 g.x4 b2 b4, Res.bind_ok, c1sChisq_large 5 n _ h5 g.x5 b3 b5, Res.bind_ok]
    rfl

/-- **C85, a corner.** With at most 894 samples no word is expected five times, all words are pooled into one cell, and the p-value does
not depend on the generator. -/
theorem C85_small (gaussP : ℝ → ℝ → ℝ) (w : Src) (n : Nat) (hn : n ≤ 894) :
    c1sStreamTest gaussP w n = .ok (gaussP 2500 (Real.sqrt 5000)) ∧ c1sByteTest gaussP w n = .ok (gaussP 2500 (Real.sqrt 5000)) := by
  have hn' : (n : ℚ) ≤ 894 := by exact_mod_cast hn
  have h4 : n * (70 / 256 : ℚ) ^ 4 < 5 := lt_of_le_of_lt (mul_le_mul_of_nonneg_right hn' (by positivity)) (by norm_num)
  have h5 : n * (70 / 256 : ℚ) ^ 5 < 5 := lt_of_le_of_lt (mul_le_mul_of_nonneg_right hn' (by positivity)) (by norm_num)
  obtain ⟨f, a1, a2, a3, -, -, a4, a5⟩ := C33_stream_words w n
  obtain ⟨g, b1, b2, b3, -, -, b4, b5⟩ := C33_byte_words w n
  constructor
  · rw [c1sStreamTest, a1, Res.bind_ok, c1sPvalue, c1sChisq_small 4 n _ (fun t _ => base5_range_lt 4 _ fun _ _ => letter_lt _) h4 f.x4 a2 a4, Res.bind_ok,
      c1sChisq_small 5 n _ (fun t _ => base5_range_lt 5 _ fun _ _ => letter_lt _) h5 f.x5 a3 a5, Res.bind_ok]
    simp
  · rw [c1sByteTest, b1, Res.bind_ok, c1sPvalue, c1sChisq_small 4 n _ (fun t _ => base5_range_lt 4 _ fun _ _ => letter_lt _) h4 g.x4 b2 b4, Res.bind_ok,
      c1sChisq_small 5 n _ (fun t _ => base5_range_lt 5 _ fun _ _ => letter_lt _) h5 g.x5 b3 b5, Res.bind_ok]
    simp

/-! ### The mean -/

/-- A mean over bits grouped into bytes. -/
theorem mean_bytes {N K : Nat} (ι : Fin N × Fin 8 → Fin K × Fin 32) (hι : Function.Injective ι) (f : (Fin N → Fin 8 → Bool) → ℝ) :
    mean (fun b : Fin K × Fin 32 → Bool => f fun p i => b (ι (p, i))) = mean f := by
  rw [mean_restrict (A := Bool) ι hι (fun y => f fun p i => y (p, i)), ← mean_equiv (Equiv.curry (Fin N) (Fin 8) Bool) f]
  rfl

theorem wordStat_mean {N K : Nat} (ι : Fin N × Fin 8 → Fin K × Fin 32) (hι : Function.Injective ι) (m n : Nat) (hn : 0 < n)
    (start : Nat → Nat) (hmono : ∀ s t, s < t → start s < start t) (hN : ∀ t < n, start t + m ≤ N)
    (X : (Fin K × Fin 32 → Bool) → Nat → Nat)
    (hX : ∀ b t, t < n → ∀ v < 5 ^ m, X b t = v ↔ ∀ i (h : start t + i < N), i < m →
      letter (Nat.ofBits fun j => b (ι (⟨start t + i, h⟩, j))) = v / 5 ^ (m - 1 - i) % 5) :
    mean (fun b => (wordStat m n (X b) : ℝ)) = 5 ^ m - 1 := by
  let pos : Fin n → Fin m → Fin N := fun t i => ⟨start t + i, by have := hN t t.2; omega⟩
  have h1 : ∀ b, (wordStat m n (X b) : ℝ) = wordChi (wordProb bitsLetter) (fun t => wordAt bitsLetter (fun p i => b (ι (p, i))) (pos t)) := by
    intro b
    refine wordStat_windows m n pos _ (X b) fun t v hv => ?_
    rw [hX b t t.2 v hv]
    constructor
    · intro h
      funext i
      exact Fin.ext (h i _ i.2)
    · intro h i hi him
      exact congrArg Fin.val (congrFun h ⟨i, him⟩)
  rw [mean_congr h1, mean_bytes ι hι (fun x => wordChi (wordProb bitsLetter) (fun t => wordAt bitsLetter x (pos t))),
    windowChi_mean bitsLetter_surjective hn pos]
  · simp
  · intro t i j h
    have := congrArg Fin.val h
    apply Fin.ext
    simp only [pos] at this
    omega
  · have key : ∀ s t : Fin n, (s : ℕ) < t → After (pos s) (pos t) := by
      intro s t h
      have hm := hmono s t h
      have hb := hN t t.2
      refine ⟨start t - start s, by omega, fun j => ⟨start s + j, by omega⟩, ?_, fun i => rfl, fun i => ?_⟩
      · intro i j h
        have := congrArg Fin.val h
        apply Fin.ext
        simp only at this
        omega
      · apply Fin.ext
        show start t + (i : ℕ) = start s + (start t - start s + i)
        omega
    intro s t hst
    rcases Nat.lt_or_gt_of_ne (fun h => hst (Fin.ext h) : (s : ℕ) ≠ t) with h | h
    · exact Or.inl (key s t h)
    · exact Or.inr (key t s h)

theorem cyclicByte_bits {k : Nat} (b : Fin k × Fin 32 → Bool) (i : Fin k) (off : Nat) :
    cyclicByte (bitSrc b i) off = Nat.ofBits fun j : Fin 8 => b (i, ⟨(off + j) % 32, Nat.mod_lt _ (by omega)⟩) := by
  apply Nat.eq_of_testBit_eq
  intro j
  rw [cyclicByte, show (256 : Nat) = 2 ^ 8 from rfl, Nat.testBit_mod_two_pow]
  by_cases hj : j < 8
  · rw [Nat.testBit_ofBits_lt _ _ hj, ← bitSrc_getLsbD (le_refl 32) b i]
    simp only [hj, decide_true, Bool.true_and]
    rw [BitVec.testBit_toNat, BitVec.getLsbD_rotateRight]
    have h0 : off % 32 < 32 := Nat.mod_lt _ (by omega)
    by_cases h1 : j < 32 - off % 32
    · rw [decide_eq_true h1, cond_true]; congr 1; omega
    · rw [decide_eq_false h1, cond_false, decide_eq_true (show j < 32 by omega), Bool.true_and]; congr 1; omega
  · rw [Nat.testBit_ofBits_ge _ _ (by omega)]
    simp [hj]

/-- **C85.** For independent uniform words the difference has mean exactly 2500, for every number of samples, although the words of the
stream test overlap. -/
theorem C85_stream_mean (n K : Nat) (hn : 0 < n) (hK : n + 4 ≤ 4 * K) :
    mean (fun b : Fin K × Fin 32 → Bool => (wordStat 5 n (fun t => streamWord (bitSrc b) t 5) : ℝ) -
      wordStat 4 n (fun t => streamWord (bitSrc b) (t + 1) 4)) = 2500 := by
  let ι : Fin (4 * K) × Fin 8 → Fin K × Fin 32 := fun p => (⟨p.1 / 4, by omega⟩, ⟨8 * (p.1 % 4) + p.2, by omega⟩)
  have hι : Function.Injective ι := by
    rintro ⟨p, i⟩ ⟨q, j⟩ h
    simp only [ι, Prod.mk.injEq, Fin.mk.injEq] at h
    simp only [Prod.mk.injEq, Fin.ext_iff]
    omega
  have hb : ∀ (b : Fin K × Fin 32 → Bool) (p : Nat) (hp : p < 4 * K), streamByte (bitSrc b) p = Nat.ofBits fun j => b (ι (⟨p, hp⟩, j)) := by
    intro b p hp
    rw [← cyclicByte_stream, cyclicByte_bits b ⟨p / 4, by omega⟩]
    congr 1
    funext j
    congr 2
    apply Fin.ext
    show (8 * (p % 4) + (j : ℕ)) % 32 = 8 * (p % 4) + j
    omega
  have hX : ∀ (m s : Nat) (_ : ∀ t < n, t + s + m ≤ 4 * K) (b : Fin K × Fin 32 → Bool) (t : Nat), t < n → ∀ v < 5 ^ m,
      streamWord (bitSrc b) (t + s) m = v ↔ ∀ i (h : t + s + i < 4 * K), i < m →
        letter (Nat.ofBits fun j => b (ι (⟨t + s + i, h⟩, j))) = v / 5 ^ (m - 1 - i) % 5 := by
    intro m s hs b t ht v hv
    rw [streamWord, base5_iff m _ v (fun _ _ => letter_lt _) hv]
    constructor
    · intro h i hi him
      rw [← hb b _ hi]
      exact h i him
    · intro h i him
      have := hs t ht
      rw [hb b (t + s + i) (by omega)]
      exact h i _ him
  rw [mean_sub, wordStat_mean ι hι 5 n hn (fun t => t) (fun s t h => h) (fun t ht => by omega) (fun b t => streamWord (bitSrc b) t 5) (fun b t ht v hv => hX 5 0 (by intros; omega) b t ht v hv),
    wordStat_mean ι hι 4 n hn (fun t => t + 1) (fun s t h => by omega) (fun t ht => by omega) (fun b t => streamWord (bitSrc b) (t + 1) 4) (fun b t ht v hv => hX 4 1 (by intros; omega) b t ht v hv)]
  norm_num

/-- **C85.** The same for the byte test. -/
theorem C85_byte_mean (n K : Nat) (hn : 0 < n) (hK : 5 * n ≤ K) :
    mean (fun b : Fin K × Fin 32 → Bool => (wordStat 5 n (fun t => offsetWord (bitSrc b) t (5 * t) 5) : ℝ) -
      wordStat 4 n (fun t => offsetWord (bitSrc b) t (5 * t + 1) 4)) = 2500 := by
  let ι : Fin K × Fin 8 → Fin K × Fin 32 := fun p => (p.1, ⟨((p.1 : ℕ) / 5 % 32 + p.2) % 32, Nat.mod_lt _ (by omega)⟩)
  have hι : Function.Injective ι := by
    rintro ⟨p, i⟩ ⟨q, j⟩ h
    simp only [ι, Prod.mk.injEq, Fin.mk.injEq] at h
    obtain ⟨rfl, h⟩ := h
    simp only [Prod.mk.injEq, true_and, Fin.ext_iff]
    omega
  have hX : ∀ (m s : Nat) (_ : s + m ≤ 5) (b : Fin K × Fin 32 → Bool) (t : Nat), t < n → ∀ v < 5 ^ m,
      offsetWord (bitSrc b) t (5 * t + s) m = v ↔ ∀ i (h : 5 * t + s + i < K), i < m →
        letter (Nat.ofBits fun j => b (ι (⟨5 * t + s + i, h⟩, j))) = v / 5 ^ (m - 1 - i) % 5 := by
    intro m s hs b t ht v hv
    have hb : ∀ i (h : 5 * t + s + i < K), i < m →
        cyclicByte (bitSrc b (5 * t + s + i)) (t % 32) = Nat.ofBits fun j => b (ι (⟨5 * t + s + i, h⟩, j)) := by
      intro i h him
      rw [cyclicByte_bits b ⟨5 * t + s + i, h⟩]
      congr 1
      funext j
      congr 2
      apply Fin.ext
      show (t % 32 + (j : ℕ)) % 32 = ((5 * t + s + i) / 5 % 32 + j) % 32
      rw [show (5 * t + s + i) / 5 = t from by omega]
    rw [offsetWord, base5_iff m _ v (fun _ _ => letter_lt _) hv]
    constructor
    · intro h i hi him
      rw [← hb i hi him]
      exact h i him
    · intro h i him
      rw [hb i (by omega) him]
      exact h i _ him
  rw [mean_sub, wordStat_mean ι hι 5 n hn (fun t => 5 * t) (fun s t h => by omega) (fun t ht => by omega)
      (fun b t => offsetWord (bitSrc b) t (5 * t) 5) (fun b t ht v hv => hX 5 0 (by omega) b t ht v hv),
    wordStat_mean ι hι 4 n hn (fun t => 5 * t + 1) (fun s t h => by omega) (fun t ht => by omega)
      (fun b t => offsetWord (bitSrc b) t (5 * t + 1) 4) (fun b t ht v hv => hX 4 1 (by omega) b t ht v hv)]
  norm_num

/-- The word `0, 4` of two letters: 37 of 256 bytes each. -/
example : wordShare 2 4 = (37 / 256) ^ 2 := by
  rw [wordShare_succ, wordShare_succ, letter_count _ (by norm_num), letter_count _ (by norm_num)]
  norm_num [wordShare, byteStrings, base5]

/-- Two samples of one letter, both the letter 2 (four ones): `(2 - 2 * 70/256)^2 / (2 * 70/256) + 2 * (186/256)`. -/
example : wordStat 1 2 (fun _ => 2) = 186 / 35 := by
  have h : ∀ v, wordShare 1 v = wordShare 0 (v / 5) * (((List.range 256).countP (fun b => letter b = v % 5) : Nat) / 256) := wordShare_succ 0
  rw [wordStat]
  simp only [h, pow_one, Finset.sum_range_succ, Finset.sum_range_zero]
  rw [letter_count _ (by norm_num), letter_count _ (by norm_num), letter_count _ (by norm_num), letter_count _ (by norm_num), letter_count _ (by norm_num)]
  norm_num [wordShare, byteStrings, base5, List.range_succ]

end Dh
