import Verif.Proof.BitdistLaw
import Verif.Props.VtestMean
import Verif.Props.Vtest
import Verif.Props.Count1sMean
/-
C98: the null mean of the statistic of rgb_bitdist.
-/
namespace Dh
open Spec

/-- The probability that `c` of 64 independent tuples of `nb` random bits have a given value. -/
def Spec.tupleProb (nb c : Nat) : ℚ := (Nat.choose 64 c : ℚ) * (1 / 2 ^ nb) ^ c * (1 - 1 / 2 ^ nb) ^ (64 - c)

/-- The bits of the tuple `v`, the highest first. -/
def tupleBits (nb v : Nat) : Fin nb → Bool := fun i => v.testBit (nb - 1 - i)

theorem tupleProb_law (nb v c : Nat) :
    (mean fun b : Fin 64 × Fin nb → Bool => if hits (tupleBits nb v) (fun t i => b (t, i)) = c then (1 : ℝ) else 0) = (tupleProb nb c : ℝ) := by
  have h1 := mean_equiv (Equiv.curry (Fin 64) (Fin nb) Bool) fun g => if hits (tupleBits nb v) g = c then (1 : ℝ) else 0
  have h2 := binomial_law (tupleBits nb v) 64 c
  refine Eq.trans h1 (h2.trans ?_)
  rw [tupleProb, Fintype.card_fun, Fintype.card_bool, Fintype.card_fin]
  push_cast
  rfl

theorem tupleProb_sum (nb : Nat) : ∑ c ∈ Finset.range 65, tupleProb nb c = 1 := by
  have h := add_pow ((1 : ℚ) / 2 ^ nb) (1 - 1 / 2 ^ nb) 64
  rw [add_sub_cancel, one_pow] at h
  rw [h]
  refine Finset.sum_congr rfl fun c _ => ?_
  rw [tupleProb]
  ring

theorem tupleProb_nonneg (nb c : Nat) : 0 ≤ tupleProb nb c := by
  have h : (1 : ℚ) / 2 ^ nb ≤ 1 := by
    rw [div_le_one (by positivity)]
    exact one_le_pow₀ (by norm_num)
  have h2 : (0 : ℚ) ≤ 1 - 1 / 2 ^ nb := by linarith
  rw [tupleProb]
  positivity

theorem countP_fin (P : Nat → Bool) : ∀ n, (List.range n).countP P = ∑ i : Fin n, if P i then 1 else 0 := by
  intro n
  induction n with
  | zero => rfl
  | succ n ih => rw [List.range_succ, List.countP_append, List.countP_singleton, ih, Fin.sum_univ_castSucc]; rfl

theorem tuples_getD (r : Nat) (src : Src) (nb N j : Nat) (h : j < N) :
    ((List.range N).map fun j => tupleWord r src nb (nb * j)).getD j 0 = tupleWord r src nb (nb * j) := by
  rw [List.getD_eq_getElem?_getD, List.getElem?_map, List.getElem?_range h]
  rfl

theorem inSample_hits (r : Nat) (src : Src) (nb v n t : Nat) (ht : t < n) (hnb : nb ≤ 32) (hv : v < 2 ^ nb) :
    inSample (fun j => ((List.range (64 * n)).map fun j => tupleWord r src nb (nb * j)).getD j 0) t v =
      hits (tupleBits nb v) fun (b : Fin 64) (i : Fin nb) => msbCat r src (nb * (64 * t + b) + i) := by
  rw [inSample, hits, List.count, List.countP_map, Finset.card_filter, countP_fin]
  refine Finset.sum_congr rfl fun b _ => ?_
  have hb := b.2
  simp only [Function.comp, tuples_getD r src nb (64 * n) (64 * t + b) (by omega), beq_iff_eq, tupleWord_eq r src nb _ v hnb hv, funext_iff, tupleBits]

/-- The numbers of tuples `v` in the samples, as trials. -/
theorem tuple_trials (r m nb n v : Nat) (hr : 0 < r) (h32 : r ≤ 32) (hm : 64 * nb * n ≤ m * r) :
    PairTrials n 65 (fun t (ω : Fin m → Fin (2 ^ r)) => hits (tupleBits nb v) fun (b : Fin 64) (i : Fin nb) => msbCat r (wordSrc ω) (nb * (64 * t + b) + i))
      fun c => (tupleProb nb c : ℝ) := by
  have h := word_trials n 65 r m hr h32 (fun b : Fin 64 × Fin nb → Bool => hits (tupleBits nb v) fun t i => b (t, i)) (fun b => by
      have := Finset.card_filter_le (Finset.univ : Finset (Fin 64)) fun t => (fun i => b (t, i)) = tupleBits nb v
      rw [Finset.card_univ, Fintype.card_fin] at this
      exact Nat.lt_succ_of_le this) (fun t p => nb * (64 * t + p.1) + p.2) ?_ ?_
  · simp only [tupleProb_law] at h
    exact h
  · rintro t ht ⟨b, i⟩
    have h1 := b.2
    have h2 := i.2
    have h3 : nb * (64 * t + b + 1) ≤ nb * (64 * n) := Nat.mul_le_mul_left nb (by omega)
    have h4 : 64 * nb * n = nb * (64 * n) := by ring
    rw [Nat.mul_succ] at h3
    dsimp only
    omega
  · rintro s hs t ht ⟨b, i⟩ ⟨b', i'⟩ e
    dsimp only at e
    have h1 := b.2
    have h2 := b'.2
    have h3 := i.2
    have h4 := i'.2
    have hp : 0 < nb := by omega
    have e1 : 64 * s + b = 64 * t + b' := by
      have := congrArg (· / nb) e
      simpa [Nat.mul_add_div hp, Nat.div_eq_of_lt h3, Nat.div_eq_of_lt h4] using this
    rw [e1] at e
    refine ⟨by omega, Prod.ext (Fin.ext (by dsimp only; omega)) (Fin.ext (by dsimp only; omega))⟩

/-- What the program evaluates. -/
theorem bitdistStat_vtest (r : Nat) (src : Src) (nb n v : Nat) (hr : 0 < r) (h32 : r ≤ 32) (hw : Width r src) (h0 : 0 < nb) (hnb : nb < 32) (hv : v < 2 ^ nb) :
    bitdistStat r src nb n v = vtestEval { vtestCreate 65 with
      cutoff := 20
      x := (List.range 65).map fun c => ((List.range n).countP (fun t => decide ((hits (tupleBits nb v) fun (b : Fin 64) (i : Fin nb) =>
        msbCat r src (nb * (64 * t + b) + i)) = c)) : ℚ)
      y := (List.range 65).map fun c => (n : ℚ) * tupleProb nb c } := by
  obtain ⟨s, h1⟩ := bitdist_values r src nb (64 * n) hr h32 hw hnb
  have hlt : ∀ j, (((List.range (64 * n)).map fun j => tupleWord r src nb (nb * j)).getD j 0).toNat < 2 ^ nb := by
    intro j
    by_cases h : j < 64 * n
    · rw [tuples_getD r src nb _ j h]
      exact tupleWord_lt r src nb _ hnb.le
    · rw [List.getD_eq_getElem?_getD, List.getElem?_eq_none (by simp; omega)]
      exact Nat.two_pow_pos nb
  obtain ⟨vt, h2, h3, h4⟩ := C41_tally nb h0 hnb (fun j => ((List.range (64 * n)).map fun j => tupleWord r src nb (nb * j)).getD j 0) hlt n
  obtain ⟨h5, h6⟩ := h4 v hv
  rw [bitdistStat, if_neg h0.ne', if_pos hnb, h1, Res.bind_ok]
  simp only
  rw [h2, Res.bind_ok, rd_dflt [] (by omega), Res.bind_ok]
  congr 2
  have h7 : vt.getD v [] = (List.range 65).map fun c => ((List.range n).countP (fun t => decide ((hits (tupleBits nb v) fun (b : Fin 64) (i : Fin nb) =>
        msbCat r src (nb * (64 * t + b) + i)) = c)) : Int) := by
    apply List.ext_getElem
    · rw [h5]; simp
    · intro c hc1 hc2
      have hc : c ≤ 64 := by omega
      have := h6 c hc
      rw [List.getD_eq_getElem _ _ (by omega)] at this
      rw [this, List.getElem_map, List.getElem_range]
      congr 1
      refine List.countP_congr fun t ht => ?_
      rw [inSample_hits r src nb v n t (List.mem_range.1 ht) hnb.le hv]
  rw [h7, List.map_map]
  refine List.map_congr_left fun c _ => ?_
  simp

/-- The cells of `rgb_bitdist` that expect 20 or more. -/
def Spec.tupleCells (nb n : Nat) : Finset Nat := (Finset.range 65).filter fun c => 20 ≤ (n : ℚ) * tupleProb nb c

/-- The probability of the other cells. -/
def Spec.tupleRest (nb n : Nat) : ℚ := ∑ c ∈ (Finset.range 65).filter (fun c => ¬ 20 ≤ (n : ℚ) * tupleProb nb c), tupleProb nb c

/-- **C98.** On random words and for every tuple `v` (the program picks one at random), `rgb_bitdist` with at least 20 samples uses the cells that
expect 20 or more and the rest as one cell if it expects 20 or more; the degrees of freedom are one less than the number of cells used, and
the mean of the statistic exceeds them by the probability of the cells that are not used, which is less than `20/n`. -/
theorem C98_mean (r m nb n v : Nat) (hr : 0 < r) (h32 : r ≤ 32) (h0 : 0 < nb) (hnb : nb < 32) (hv : v < 2 ^ nb) (hn : 20 ≤ n)
    (hm : 64 * nb * n ≤ m * r) :
    ∃ (w : (Fin m → Fin (2 ^ r)) → Vtest) (d : Nat) (left : ℝ), (∀ ω, bitdistStat r (wordSrc ω) nb n v = .ok (w ω) ∧ (w ω).ndof = d) ∧
      d + 1 = (tupleCells nb n).card + (if 20 ≤ n * tupleRest nb n then 1 else 0) ∧
      left = (if 20 ≤ n * tupleRest nb n then 0 else (tupleRest nb n : ℝ)) ∧
      (mean fun ω => ((w ω).chisq : ℝ)) = d + left ∧ 0 ≤ left ∧ left < 20 / n := by
  have hne : Nonempty (Fin (2 ^ r)) := ⟨⟨0, by positivity⟩⟩
  have hn0 : (0 : ℚ) < n := by exact_mod_cast (show 0 < n by omega)
  have hn0' : (0 : ℝ) < n := by exact_mod_cast (show 0 < n by omega)
  obtain ⟨w, h1, h2, h3⟩ := vtest_mean_cutoff (tuple_trials r m nb n v hr h32 hm) (by omega) (tupleProb nb) 20 (by norm_num)
  have hsplit : ∑ c ∈ tupleCells nb n, (tupleProb nb c : ℝ) + (tupleRest nb n : ℝ) = 1 := by
    rw [tupleCells, tupleRest, Rat.cast_sum, Finset.sum_filter_add_sum_filter_not, ← Rat.cast_sum, tupleProb_sum, Rat.cast_one]
  have hbig : ∑ c ∈ tupleCells nb n, cellMean n (tupleProb nb c) (tupleProb nb c) =
      (tupleCells nb n).card - ∑ c ∈ tupleCells nb n, (tupleProb nb c : ℝ) := by
    rw [Finset.sum_congr rfl fun c hc => cellMean_self n (q := tupleProb nb c) ?_]
    · rw [Finset.sum_sub_distrib]
      simp
    · intro h
      have := (Finset.mem_filter.1 hc).2
      rw [Rat.cast_eq_zero.1 h] at this
      norm_num at this
  have hrest : ∑ c ∈ (Finset.range 65).filter (fun c => ¬ 20 ≤ (n : ℚ) * tupleProb nb c), (tupleProb nb c : ℝ) = (tupleRest nb n : ℝ) := by
    rw [tupleRest, Rat.cast_sum]
  have hcard : (tupleCells nb n).card ≤ 65 := by
    have := Finset.card_filter_le (Finset.range 65) fun c => 20 ≤ (n : ℚ) * tupleProb nb c
    rwa [Finset.card_range] at this
  have hsome : ¬ 20 ≤ n * tupleRest nb n → 0 < (tupleCells nb n).card := by
    intro h
    by_contra hc
    have hc0 : tupleCells nb n = ∅ := by
      rw [← Finset.card_eq_zero]
      omega
    rw [hc0, Finset.sum_empty, zero_add] at hsplit
    have : tupleRest nb n = 1 := by exact_mod_cast hsplit
    rw [this, mul_one] at h
    exact h (by exact_mod_cast hn)
  have hr0 : 0 ≤ tupleRest nb n := Finset.sum_nonneg fun c _ => tupleProb_nonneg nb c
  have h2' : (mean fun ω => ((w ω).chisq : ℝ)) = ∑ c ∈ tupleCells nb n, cellMean n (tupleProb nb c) (tupleProb nb c) +
      if 20 ≤ n * tupleRest nb n then cellMean n (tupleRest nb n) (tupleRest nb n) else 0 := by
    rw [h2, hrest]
    rfl
  have h3' : ∀ ω, (w ω).ndof = ((tupleCells nb n).card + (if 20 ≤ n * tupleRest nb n then 1 else 0) + (2 ^ 32 - 1)) % 2 ^ 32 := h3
  refine ⟨w, (tupleCells nb n).card + (if 20 ≤ n * tupleRest nb n then 1 else 0) - 1, if 20 ≤ n * tupleRest nb n then 0 else (tupleRest nb n : ℝ), fun ω => ⟨?_, ?_⟩,
    ?_, rfl, ?_, ?_, ?_⟩
  · rw [bitdistStat_vtest r _ nb n v hr h32 (wordSrc_width ω) h0 hnb hv]
    exact h1 ω
  · rw [h3']
    by_cases h : 20 ≤ n * tupleRest nb n
    · rw [if_pos h]; omega
    · have := hsome h
      rw [if_neg h]; omega
  · by_cases h : 20 ≤ n * tupleRest nb n
    · rw [if_pos h]; omega
    · have := hsome h
      rw [if_neg h]; omega
  · rw [h2', hbig]
    by_cases h : 20 ≤ n * tupleRest nb n
    · rw [if_pos h, if_pos h, if_pos h, cellMean_self]
      · simp only [Nat.add_sub_cancel]
        linarith
      · intro h0
        rw [Rat.cast_eq_zero.1 h0] at h
        norm_num at h
    · have := hsome h
      rw [if_neg h, if_neg h, if_neg h, Nat.add_zero, Nat.cast_sub (by omega)]
      push_cast
      linarith
  · split
    · exact le_refl _
    · exact_mod_cast hr0
  · by_cases h : 20 ≤ n * tupleRest nb n
    · rw [if_pos h]
      positivity
    · rw [if_neg h, lt_div_iff₀ hn0']
      have : (n : ℝ) * (tupleRest nb n : ℝ) < 20 := by exact_mod_cast not_le.1 h
      linarith

/-- The statistic for any generator. -/
theorem bitdistStat_eval (r : Nat) (src : Src) (nb n v : Nat) (hr : 0 < r) (h32 : r ≤ 32) (hw : Width r src) (h0 : 0 < nb) (hnb : nb < 32) (hv : v < 2 ^ nb) :
    ∃ (w : Vtest) (x : Nat → Nat), bitdistStat r src nb n v = .ok w ∧ w.chisq = ((usedCells 20 ((List.range 65).map fun c => ((x c : ℚ), (n : ℚ) * tupleProb nb c))).map pearson).sum ∧
      w.ndof = ((usedCells 20 ((List.range 65).map fun c => ((x c : ℚ), (n : ℚ) * tupleProb nb c))).length + (2 ^ 32 - 1)) % 2 ^ 32 := by
  obtain ⟨w, h1, h2, -, h3, -⟩ := C16_vtest_eval { vtestCreate 65 with
      cutoff := 20
      x := (List.range 65).map fun c => ((List.range n).countP (fun t => decide ((hits (tupleBits nb v) fun (b : Fin 64) (i : Fin nb) =>
        msbCat r src (nb * (64 * t + b) + i)) = c)) : ℚ)
      y := (List.range 65).map fun c => (n : ℚ) * tupleProb nb c } (by simp [vtestCreate]) (by simp [vtestCreate]) (by norm_num)
  refine ⟨w, fun c => (List.range n).countP (fun t => decide ((hits (tupleBits nb v) fun (b : Fin 64) (i : Fin nb) =>
        msbCat r src (nb * (64 * t + b) + i)) = c)), (bitdistStat_vtest r src nb n v hr h32 hw h0 hnb hv).trans h1, ?_, ?_⟩
  · rw [h2, List.zip_map']
  · rw [h3 rfl, List.zip_map']

/-- The cells split at the first one. -/
theorem usedCells_first (x : Nat → Nat) (y : Nat → ℚ) (K : Nat) (h : ∀ c, c < K → y (c + 1) < 20) (hs : ∑ c ∈ Finset.range K, y (c + 1) < 20) (h0 : 20 ≤ y 0) :
    usedCells 20 ((List.range (K + 1)).map fun c => ((x c : ℚ), y c)) = [((x 0 : ℚ), y 0)] := by
  rw [List.range_succ_eq_map, List.map_cons, List.map_map]
  have hb : bigCells 20 ((List.range K).map ((fun c => ((x c : ℚ), y c)) ∘ Nat.succ)) = [] := by
    rw [bigCells, List.filter_eq_nil_iff]
    intro c hc
    obtain ⟨i, hi, rfl⟩ := List.mem_map.1 hc
    have := h i (List.mem_range.1 hi)
    simp only [Function.comp, decide_eq_true_eq]
    exact not_le.2 this
  have hsm : smallCells 20 ((List.range K).map ((fun c => ((x c : ℚ), y c)) ∘ Nat.succ)) = (List.range K).map ((fun c => ((x c : ℚ), y c)) ∘ Nat.succ) := by
    rw [smallCells, List.filter_eq_self]
    intro c hc
    obtain ⟨i, hi, rfl⟩ := List.mem_map.1 hc
    have := h i (List.mem_range.1 hi)
    simp only [Function.comp, decide_eq_true_eq]
    exact not_le.2 this
  have hb' : bigCells 20 (((x 0 : ℚ), y 0) :: (List.range K).map ((fun c => ((x c : ℚ), y c)) ∘ Nat.succ)) = [((x 0 : ℚ), y 0)] := by
    rw [bigCells, List.filter_cons_of_pos (by simpa using h0)]
    exact congrArg _ hb
  have hsm' : smallCells 20 (((x 0 : ℚ), y 0) :: (List.range K).map ((fun c => ((x c : ℚ), y c)) ∘ Nat.succ)) = (List.range K).map ((fun c => ((x c : ℚ), y c)) ∘ Nat.succ) := by
    rw [smallCells, List.filter_cons_of_neg (by simpa using h0)]
    exact hsm
  have hp : (pooled ((List.range K).map ((fun c => ((x c : ℚ), y c)) ∘ Nat.succ))).2 < 20 := by
    have := sum_map_range (fun c => y (c + 1)) K
    refine lt_of_eq_of_lt ?_ hs
    rw [← this, pooled]
    simp only [List.map_map]
    rfl
  rw [usedCells, hb', hsm', if_neg fun h => not_le.2 hp h.2, List.append_nil]

/-- **C98, failure.** If a sample rarely contains the tuple at all, namely if fewer than 20 samples are expected to, only the cell of no occurrence
is used: no degree of freedom is left, and the statistic is positive for every generator. -/
theorem C98_degenerate (r : Nat) (src : Src) (nb n v : Nat) (hr : 0 < r) (h32 : r ≤ 32) (hw : Width r src) (h0 : 0 < nb) (hnb : nb < 32) (hv : v < 2 ^ nb)
    (hn : 20 ≤ n * (1 - 1 / 2 ^ nb : ℚ) ^ 64) (hn' : n * (1 - (1 - 1 / 2 ^ nb : ℚ) ^ 64) < 20) (hn32 : n < 2 ^ 32) :
    ∃ w, bitdistStat r src nb n v = .ok w ∧ w.ndof = 0 ∧ 0 < w.chisq := by
  obtain ⟨w, x, h1, h2, h3⟩ := bitdistStat_eval r src nb n v hr h32 hw h0 hnb hv
  have hq0 : tupleProb nb 0 = (1 - 1 / 2 ^ nb : ℚ) ^ 64 := by
    rw [tupleProb, Nat.choose_zero_right, Nat.cast_one, pow_zero, mul_one, one_mul, Nat.sub_zero]
  have hnq : (0 : ℚ) ≤ n := Nat.cast_nonneg n
  have hs : ∑ c ∈ Finset.range 64, (n : ℚ) * tupleProb nb (c + 1) < 20 := by
    have h4 := tupleProb_sum nb
    rw [Finset.sum_range_succ'] at h4
    rw [← Finset.mul_sum, show ∑ c ∈ Finset.range 64, tupleProb nb (c + 1) = 1 - tupleProb nb 0 by linarith, hq0]
    exact hn'
  have h5 := usedCells_first x (fun c => n * tupleProb nb c) 64 (fun c hc => by
    refine lt_of_le_of_lt ?_ hs
    exact Finset.single_le_sum (f := fun c => (n : ℚ) * tupleProb nb (c + 1)) (fun i _ => mul_nonneg hnq (tupleProb_nonneg _ _)) (Finset.mem_range.2 hc)) hs
    (by rw [hq0]; exact hn)
  rw [h5] at h2 h3
  refine ⟨w, h1, h3.trans (by rw [List.length_singleton]; rfl), ?_⟩
  rw [h2, List.map_singleton, List.sum_singleton, pearson]
  have hy : (0 : ℚ) < n * tupleProb nb 0 := by rw [hq0]; linarith
  have hxy : (x 0 : ℚ) - n * tupleProb nb 0 ≠ 0 := by
    intro h
    have hp : (2 : ℚ) ^ nb ≠ 0 := by positivity
    have h6 : (n : ℚ) * (2 ^ nb - 1) ^ 64 = x 0 * (2 ^ nb) ^ 64 := by
      rw [sub_eq_zero.1 h, hq0, mul_assoc, ← mul_pow, sub_mul, one_div, inv_mul_cancel₀ hp, one_mul]
    have h7 : n * (2 ^ nb - 1) ^ 64 = x 0 * (2 ^ nb) ^ 64 := by
      have h8 : ((2 ^ nb - 1 : ℕ) : ℚ) = 2 ^ nb - 1 := by
        rw [Nat.cast_sub Nat.one_le_two_pow]
        push_cast
        rfl
      rw [← h8] at h6
      exact_mod_cast h6
    have h9 : Nat.Coprime (2 ^ nb) (2 ^ nb - 1) := by
      exact (Nat.coprime_self_sub_right (show 1 ≤ 2 ^ nb from Nat.one_le_two_pow)).2 (Nat.coprime_one_right _)
    have h10 : (2 ^ nb) ^ 64 ∣ n := (h9.pow 64 64).dvd_of_dvd_mul_right (Dvd.intro_left _ h7.symm)
    have h11 : 0 < n := by
      rcases Nat.eq_zero_or_pos n with h | h
      · rw [h, Nat.cast_zero, zero_mul] at hn
        norm_num at hn
      · exact h
    have h12 := Nat.le_of_dvd h11 h10
    have h13 : 2 ^ 32 ≤ (2 ^ nb) ^ 64 := by
      rw [← pow_mul]
      exact Nat.pow_le_pow_right (by norm_num) (by omega)
    omega
  have h14 := sq_pos_of_ne_zero hxy
  exact div_pos h14 hy

theorem usedCells_nil (x : Nat → Nat) (y : Nat → ℚ) (K : Nat) (h : ∀ c, c < K → y c < 20) (hs : ∑ c ∈ Finset.range K, y c < 20) :
    usedCells 20 ((List.range K).map fun c => ((x c : ℚ), y c)) = [] := by
  have hb : bigCells 20 ((List.range K).map fun c => ((x c : ℚ), y c)) = [] := by
    rw [bigCells, List.filter_eq_nil_iff]
    intro c hc
    obtain ⟨i, hi, rfl⟩ := List.mem_map.1 hc
    have := h i (List.mem_range.1 hi)
    simp only [decide_eq_true_eq]
    exact not_le.2 this
  have hsm : smallCells 20 ((List.range K).map fun c => ((x c : ℚ), y c)) = (List.range K).map fun c => ((x c : ℚ), y c) := by
    rw [smallCells, List.filter_eq_self]
    intro c hc
    obtain ⟨i, hi, rfl⟩ := List.mem_map.1 hc
    have := h i (List.mem_range.1 hi)
    simp only [decide_eq_true_eq]
    exact not_le.2 this
  have hp : (pooled ((List.range K).map fun c => ((x c : ℚ), y c))).2 < 20 := by
    refine lt_of_eq_of_lt ?_ hs
    rw [← sum_map_range, pooled]
    simp only [List.map_map]
    rfl
  rw [usedCells, hb, hsm, if_neg fun h => not_le.2 hp h.2, List.append_nil]

/-- **C98, failure.** With fewer than 20 samples no cell is used: the statistic is 0 with 4294967295 degrees of freedom, for every generator. -/
theorem C98_few (r : Nat) (src : Src) (nb n v : Nat) (hr : 0 < r) (h32 : r ≤ 32) (hw : Width r src) (h0 : 0 < nb) (hnb : nb < 32) (hv : v < 2 ^ nb) (hn : n < 20) :
    ∃ w, bitdistStat r src nb n v = .ok w ∧ w.ndof = 4294967295 ∧ w.chisq = 0 := by
  obtain ⟨w, x, h1, h2, h3⟩ := bitdistStat_eval r src nb n v hr h32 hw h0 hnb hv
  have hnq : (0 : ℚ) ≤ n := Nat.cast_nonneg n
  have hs : ∑ c ∈ Finset.range 65, (n : ℚ) * tupleProb nb c < 20 := by
    rw [← Finset.mul_sum, tupleProb_sum, mul_one]
    exact_mod_cast hn
  have h5 := usedCells_nil x (fun c => n * tupleProb nb c) 65 (fun c hc => by
    refine lt_of_le_of_lt ?_ hs
    exact Finset.single_le_sum (f := fun c => (n : ℚ) * tupleProb nb c) (fun i _ => mul_nonneg hnq (tupleProb_nonneg _ _)) (Finset.mem_range.2 hc)) hs
  rw [h5] at h2 h3
  exact ⟨w, h1, h3.trans (by rw [List.length_nil]; rfl), h2.trans (by rw [List.map_nil, List.sum_nil])⟩

/-- A default run of `rgb_bitdist -n 8` (100000 samples of 64 bytes) with a 32-bit generator: the mean is within 0.0002 of the degrees of freedom. -/
example : ∃ (w : (Fin 1600000 → Fin (2 ^ 32)) → Vtest) (d : Nat), (∀ ω, bitdistStat 32 (wordSrc ω) 8 100000 65 = .ok (w ω) ∧ (w ω).ndof = d) ∧
    |(mean fun ω => ((w ω).chisq : ℝ)) - d| < 0.0002 := by
  obtain ⟨w, d, left, h1, -, -, h2, h3, h4⟩ := C98_mean 32 1600000 8 100000 65 (by norm_num) le_rfl (by norm_num) (by norm_num) (by norm_num) (by norm_num) (by norm_num)
  refine ⟨w, d, h1, ?_⟩
  rw [h2, add_sub_cancel_left, abs_of_nonneg h3]
  norm_num at h4 ⊢
  linarith

/-- `rgb_bitdist -n 12 -t 1000`: no degree of freedom is left, whatever the generator. -/
example (src : Src) (v : Nat) (hv : v < 4096) : ∃ w, bitdistStat 32 src 12 1000 v = .ok w ∧ w.ndof = 0 ∧ 0 < w.chisq :=
  C98_degenerate 32 src 12 1000 v (by norm_num) le_rfl (fun k i hi => BitVec.getLsbD_of_ge _ _ hi) (by norm_num) (by norm_num) (by simpa using hv)
    (by norm_num) (by norm_num) (by norm_num)

end Dh
