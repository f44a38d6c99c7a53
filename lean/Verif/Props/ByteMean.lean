import Verif.Model.ByteStat
import Verif.Proof.BlockTrials
import Verif.Props.WordTests
import Verif.Props.Count1sMean
import Batteries.Data.Nat.Lemmas
/-
C97: the null mean of the statistic of dab_bytedistrib.
-/
namespace Dh
open Spec

/-! ### The bytes as trials -/

theorem ofBits_law (k c : Nat) (hc : c < 2 ^ k) : (mean fun b : Fin k → Bool => if Nat.ofBits b = c then (1 : ℝ) else 0) = 1 / 2 ^ k := by
  have hbij : Function.Bijective fun b : Fin k → Bool => (⟨Nat.ofBits b, Nat.ofBits_lt_two_pow b⟩ : Fin (2 ^ k)) := by
    rw [Fintype.bijective_iff_injective_and_card]
    refine ⟨fun b b' e => ?_, by simp⟩
    funext i
    have h := congrArg (fun v : Fin (2 ^ k) => v.1.testBit i) e
    simpa [Nat.testBit_ofBits_lt] using h
  have h := mean_equiv (Equiv.ofBijective _ hbij) fun v : Fin (2 ^ k) => if v.1 = c then (1 : ℝ) else 0
  refine Eq.trans h ?_
  have e : (Finset.univ.filter fun v : Fin (2 ^ k) => v.1 = c) = {⟨c, hc⟩} := by
    ext v; simp [Fin.ext_iff]
  rw [mean_indicator, e, Finset.card_singleton, Fintype.card_fin]
  norm_num

theorem field_ofBits (x : UInt) (o n : Nat) : field x o n = Nat.ofBits fun i : Fin n => x.getLsbD (o + i) := by
  refine Nat.eq_of_testBit_eq fun i => ?_
  rw [Nat.testBit_ofBits, field, Nat.testBit_mod_two_pow, Nat.testBit_div_two_pow]
  by_cases h : i < n
  · simp [h, BitVec.testBit_toNat, Nat.add_comm]
  · simp [h]

/-- Byte `j` of word `i` of the samples: every value has the probability 1/256, and any two samples are independent. -/
theorem byte_trials (r m n i j : Nat) (hr : 8 ≤ r) (h32 : r ≤ 32) (hi : i < 3) (hm : 3 * n ≤ m) :
    PairTrials n 256 (fun t (ω : Fin m → Fin (2 ^ r)) => sampledByte r (wordSrc ω (3 * t + i)) j) fun _ => 1 / 256 := by
  have hj : byteOffset r j + 8 ≤ r := by
    rw [byteOffset]; split_ifs <;> omega
  have hlt : ∀ (t : Nat) (b : Fin 8), byteOffset r j + b < r := fun t b => by have := b.2; omega
  have h := pairTrials_map (block_trials (I := Fin 8) n 256 (m * r) Nat.ofBits (fun b => Nat.ofBits_lt_two_pow b)
    (fun t b => r * (3 * t + i) + (byteOffset r j + b)) (fun t ht b => ?_) (fun s hs t ht b b' e => ?_))
    (Equiv.ofBijective _ (wordBits_bijective m r (by omega))) fun F => mean_equiv _ F
  · have h' : PairTrials n 256 (fun t (ω : Fin m → Fin (2 ^ r)) => sampledByte r (wordSrc ω (3 * t + i)) j)
        fun c => mean fun b : Fin 8 → Bool => if Nat.ofBits b = c then (1 : ℝ) else 0 := by
      refine pairTrials_congr h fun t ht ω => ?_
      rw [sampledByte, field_ofBits]
      congr 1
      funext b
      have hl := congrFun (lsbStream_wordSrc m r (by omega) h32 ω) (r * (3 * t + i) + (byteOffset r j + b))
      rw [lsbStream, Nat.mul_add_div (by omega), Nat.div_eq_of_lt (hlt t b), Nat.add_zero, Nat.mul_add_mod, Nat.mod_eq_of_lt (hlt t b)] at hl
      exact hl
    refine ⟨h'.range, fun t ht c hc => (h'.one t ht c hc).trans ?_, fun s hs t ht hst c hc d hd => (h'.two s hs t ht hst c hc d hd).trans ?_⟩
    · rw [ofBits_law 8 c hc]; norm_num
    · beta_reduce
      rw [ofBits_law 8 c hc, ofBits_law 8 d hd]; norm_num
  · have h1 : r * (3 * t + i + 1) ≤ r * m := Nat.mul_le_mul_left r (by omega)
    rw [Nat.mul_succ] at h1
    have := hlt t b
    rw [Nat.mul_comm m r]
    omega
  · have e1 : 3 * s + i = 3 * t + i := by
      have := congrArg (· / r) e
      simpa [Nat.mul_add_div (show 0 < r by omega), Nat.div_eq_of_lt (hlt s b), Nat.div_eq_of_lt (hlt t b')] using this
    have e2 : s = t := by omega
    subst e2
    exact ⟨rfl, Fin.ext (by omega)⟩

/-! ### The statistic -/

theorem byte_index (c : Nat) : c / 9 * 9 + c % 9 / 3 * 3 + c % 3 = c := by omega

theorem vtest_constant (K f : Nat) (hf : f ≠ 0) (counts : List Nat) (hl : counts.length = K) (y : ℚ) (g : Nat → Nat) (hg : ∀ c < K, counts.getD c 0 = g c) :
    ∃ w, vtestEval { vtestCreate K with ndof := f, x := counts.map (Nat.cast : Nat → ℚ), y := List.replicate K y } = .ok w ∧ w.ndof = f ∧
      w.chisq = ((usedCells 5 ((List.range K).map fun c => ((g c : ℚ), y))).map pearson).sum := by
  obtain ⟨w, k1, k2, -, -, k5, -⟩ := C16_vtest_eval { vtestCreate K with ndof := f, x := counts.map (Nat.cast : Nat → ℚ), y := List.replicate K y }
    (by simp [vtestCreate, hl]) (by simp [vtestCreate]) (by norm_num [vtestCreate])
  refine ⟨w, k1, k5 hf, k2.trans ?_⟩
  congr 3
  refine List.ext_getElem (by simp [hl]) fun c hc hc' => ?_
  have hc2 : c < K := by simpa using hc'
  have h5 := hg c hc2
  rw [List.getD_eq_getElem _ _ (by omega)] at h5
  simp [h5]

theorem byteStat_eval (r : Nat) (src : Src) (n : Nat) (hr : 8 ≤ r) (h32 : r ≤ 32) : ∃ w, byteStat r src n = .ok w ∧ w.ndof = 2295 ∧
    w.chisq = ((usedCells 5 ((List.range 2304).map fun c =>
      (((List.range n).countP (fun t => decide (sampledByte r (src (3 * t + c % 9 / 3)) (c % 3) = c / 9)) : ℚ), (n : ℚ) / 256))).map pearson).sum := by
  obtain ⟨counts, h1, h2, -, h4⟩ := C42_bytedistrib r hr h32 src n
  rw [byteStat, h1, Res.bind_ok]
  refine vtest_constant 2304 (255 * 9) (by norm_num) counts h2 _ _ fun c hc => ?_
  have h5 := h4 (c / 9) (by omega) (c % 9 / 3) (by omega) (c % 3) (by omega)
  rw [byte_index] at h5
  exact h5

/-- **C97.** On random words of 8 to 32 bits and with at least 1280 samples the mean of the statistic of `dab_bytedistrib` is exactly the number
of degrees of freedom that the code sets, 255*9; this holds for every width, although the bytes of a word overlap if it has less than 24 bits. -/
theorem C97_mean (r m n : Nat) (hr : 8 ≤ r) (h32 : r ≤ 32) (hn : 1280 ≤ n) (hm : 3 * n ≤ m) :
    ∃ w : (Fin m → Fin (2 ^ r)) → Vtest, (∀ ω, byteStat r (wordSrc ω) n = .ok (w ω) ∧ (w ω).ndof = 2295) ∧
      (mean fun ω => ((w ω).chisq : ℝ)) = 2295 := by
  have hne : Nonempty (Fin (2 ^ r)) := ⟨⟨0, by positivity⟩⟩
  choose w h1 h2 h3 using fun ω : Fin m → Fin (2 ^ r) => byteStat_eval r (wordSrc ω) n hr h32
  refine ⟨w, fun ω => ⟨h1 ω, h2 ω⟩, ?_⟩
  have hnq : (5 : ℚ) ≤ n / 256 := by
    have : (1280 : ℚ) ≤ n := by exact_mod_cast hn
    rw [le_div_iff₀ (by norm_num)]; linarith
  have e : ∀ ω, ((w ω).chisq : ℝ) = ∑ c ∈ Finset.range 2304,
      ((trialCount (fun t (ω : Fin m → Fin (2 ^ r)) => sampledByte r (wordSrc ω (3 * t + c % 9 / 3)) (c % 3)) n ω (c / 9) : ℝ) - n * (1 / 256)) ^ 2 / (n * (1 / 256)) := by
    intro ω
    rw [h3 ω, usedCells_large _ (fun c hc => by obtain ⟨_, _, rfl⟩ := List.mem_map.1 hc; exact hnq), List.map_map, sum_map_range, Rat.cast_sum]
    refine Finset.sum_congr rfl fun c _ => ?_
    simp only [Function.comp, pearson, trialCount]
    push_cast
    rw [mul_one_div]
  have hcell : ∀ c ∈ Finset.range 2304, (mean fun ω : Fin m → Fin (2 ^ r) =>
      ((trialCount (fun t (ω : Fin m → Fin (2 ^ r)) => sampledByte r (wordSrc ω (3 * t + c % 9 / 3)) (c % 3)) n ω (c / 9) : ℝ) - n * (1 / 256)) ^ 2 / (n * (1 / 256))) =
      255 / 256 := by
    intro c hc
    have hc' := Finset.mem_range.1 hc
    have ht := byte_trials r m n (c % 9 / 3) (c % 3) hr h32 (by omega) hm
    have hfil : (Finset.range 256).filter (fun x => x = c / 9) = {c / 9} := by
      ext x; simp only [Finset.mem_filter, Finset.mem_range, Finset.mem_singleton]; omega
    have h := mean_pearson ht (fun x => x = c / 9) (1 / 256) (by omega)
    simp only [hfil, Finset.sum_singleton] at h
    rw [h, cellMean]
    norm_num
  rw [mean_congr e, mean_sum, Finset.sum_congr rfl hcell, Finset.sum_const, Finset.card_range]
  norm_num

theorem usedCells_none (cs : List (ℚ × ℚ)) (h : ∀ c ∈ cs, ¬ 5 ≤ c.2) :
    usedCells 5 cs = if cs ≠ [] ∧ 5 ≤ (pooled cs).2 then [pooled cs] else [] := by
  have h1 : bigCells 5 cs = [] := by
    rw [bigCells, List.filter_eq_nil_iff]
    intro c hc
    simpa using h c hc
  have h2 : smallCells 5 cs = cs := by
    rw [smallCells, List.filter_eq_self]
    intro c hc
    simpa using h c hc
  rw [usedCells, h1, h2, List.nil_append]

theorem sum_getD (l : List Nat) : l.sum = ∑ c ∈ Finset.range l.length, l.getD c 0 := by
  induction l with
  | nil => rfl
  | cons a l ih => rw [List.sum_cons, List.length_cons, Finset.sum_range_succ', ih, Nat.add_comm]; simp

/-- **C97, failure.** With fewer than 1280 samples all cells are pooled into one: the statistic is 0, with 2295 degrees of freedom, whatever the
generator does. -/
theorem C97_few (r : Nat) (src : Src) (n : Nat) (hr : 8 ≤ r) (h32 : r ≤ 32) (hn : n < 1280) :
    ∃ w, byteStat r src n = .ok w ∧ w.ndof = 2295 ∧ w.chisq = 0 := by
  obtain ⟨w, h1, h2, h3⟩ := byteStat_eval r src n hr h32
  refine ⟨w, h1, h2, h3.trans ?_⟩
  have hnq : ¬ (5 : ℚ) ≤ n / 256 := by
    have : (n : ℚ) < 1280 := by exact_mod_cast hn
    rw [le_div_iff₀ (by norm_num)]; linarith
  obtain ⟨counts, k1, k2, k3, k4⟩ := C42_bytedistrib r hr h32 src n
  have hcs : ∀ c < 2304, counts.getD c 0 = (List.range n).countP (fun t => decide (sampledByte r (src (3 * t + c % 9 / 3)) (c % 3) = c / 9)) := by
    intro c hc
    have h5 := k4 (c / 9) (by omega) (c % 9 / 3) (by omega) (c % 3) (by omega)
    rw [byte_index] at h5
    exact h5
  rw [usedCells_none _ fun c hc => by obtain ⟨_, _, rfl⟩ := List.mem_map.1 hc; exact hnq]
  have hp : pooled ((List.range 2304).map fun c =>
      (((List.range n).countP (fun t => decide (sampledByte r (src (3 * t + c % 9 / 3)) (c % 3) = c / 9)) : ℚ), (n : ℚ) / 256)) = (9 * (n : ℚ), 9 * (n : ℚ)) := by
    rw [pooled, List.map_map, List.map_map]
    refine Prod.ext ?_ ?_
    · dsimp only
      rw [show (9 * n : ℚ) = ((counts.sum : Nat) : ℚ) by rw [k3]; push_cast; rfl]
      rw [sum_map_range, sum_getD counts, k2]
      push_cast
      exact Finset.sum_congr rfl fun c hc => by rw [hcs c (Finset.mem_range.1 hc)]; rfl
    · dsimp only
      rw [sum_map_range]
      refine (Finset.sum_const (s := Finset.range 2304) ((n : ℚ) / 256)).trans ?_
      rw [Finset.card_range, nsmul_eq_mul]; push_cast; ring
  rw [hp]
  split_ifs <;> simp [pearson]

/-- Non-vacuity: the default run of 51200000 samples from words of 32 bits and a short one from words of 9 bits; a generator that always
returns 0 passes with 1279 samples. -/
example : (∃ w : (Fin 153600000 → Fin (2 ^ 32)) → Vtest, (mean fun ω => ((w ω).chisq : ℝ)) = 2295) ∧
    (∃ w : (Fin 6000 → Fin (2 ^ 9)) → Vtest, (mean fun ω => ((w ω).chisq : ℝ)) = 2295) ∧
    ∃ w, byteStat 32 (fun _ => 0) 1279 = .ok w ∧ w.ndof = 2295 ∧ w.chisq = 0 := by
  obtain ⟨w, -, h⟩ := C97_mean 32 153600000 51200000 (by norm_num) le_rfl (by norm_num) (by norm_num)
  obtain ⟨w', -, h'⟩ := C97_mean 9 6000 2000 (by norm_num) (by norm_num) (by norm_num) (by norm_num)
  exact ⟨⟨w, h⟩, ⟨w', h'⟩, C97_few 32 _ 1279 (by norm_num) le_rfl (by norm_num)⟩

end Dh
