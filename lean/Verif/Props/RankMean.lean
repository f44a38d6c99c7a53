import Verif.Proof.BlockTrials
import Verif.Props.RankTests
/-
C96: the null means of the statistics of the two rank tests.
-/
namespace Dh
open Spec

/-! ### The ranks as trials -/

/-- The cell of the matrix with the given bits. -/
noncomputable def rankCell (lo M N : Nat) (b : Fin M × Fin N → Bool) : Nat :=
  max lo (Matrix.rank (fun i j => if b (i, j) then (1 : ZMod 2) else 0 : Matrix (Fin M) (Fin N) (ZMod 2)))

theorem rankCell_lt (lo M N : Nat) (hlo : lo ≤ M) (b : Fin M × Fin N → Bool) : rankCell lo M N b < M + 1 := by
  have := Matrix.rank_le_card_height (fun i j => if b (i, j) then (1 : ZMod 2) else 0 : Matrix (Fin M) (Fin N) (ZMod 2))
  rw [Fintype.card_fin] at this
  rw [rankCell]
  omega

/-- Bits and matrices over GF(2). -/
def rankBits (M N : Nat) : (Fin M × Fin N → Bool) ≃ Matrix (Fin M) (Fin N) (ZMod 2) where
  toFun b := fun i j => if b (i, j) then 1 else 0
  invFun A := fun p => decide (A p.1 p.2 = 1)
  left_inv b := by
    funext p
    cases h : b (p.1, p.2) <;> simp_all
  right_inv A := by
    funext i j
    have h : ∀ z : ZMod 2, (if decide (z = 1) = true then (1 : ZMod 2) else 0) = z := by decide
    exact h (A i j)

theorem rankCell_law (lo M N c : Nat) : (mean fun b => if rankCell lo M N b = c then (1 : ℝ) else 0) = (rankProb M N (fun k => max lo k = c) : ℝ) := by
  classical
  have h := mean_equiv (rankBits M N) fun A => if max lo A.rank = c then (1 : ℝ) else 0
  refine Eq.trans h ?_
  rw [mean_indicator, rankProb, Fintype.card_subtype]
  push_cast
  congr

theorem rank_trials (r m n lo M N : Nat) (hr : 0 < r) (h32 : r ≤ 32) (hlo : lo ≤ M) (hN : N ≤ 32) (hm : 32 * (M * n) ≤ m * r) :
    PairTrials n (M + 1) (fun t (ω : Fin m → Fin (2 ^ r)) => max lo (sampleMatrix r (wordSrc ω) M N t).rank)
      fun c => (rankProb M N (fun k => max lo k = c) : ℝ) := by
  have h := word_trials n (M + 1) r m hr h32 (rankCell lo M N) (rankCell_lt lo M N hlo) (fun t p => 32 * (M * t + p.1) + (31 - p.2)) ?_ ?_
  · simp only [rankCell_law] at h
    exact h
  · rintro t ht ⟨i, j⟩
    have h1 : M * (t + 1) ≤ M * n := Nat.mul_le_mul_left M ht
    rw [Nat.mul_succ] at h1
    have := i.2
    dsimp only
    omega
  · rintro s hs t ht ⟨i, j⟩ ⟨i', j'⟩ e
    dsimp only at e
    have h1 := i.2
    have h2 := j.2
    have h3 := i'.2
    have h4 := j'.2
    have e1 : M * s + i = M * t + i' := by omega
    have hM : 0 < M := by omega
    have e2 : s = t := by
      have := congrArg (· / M) e1
      simpa [Nat.mul_add_div hM, Nat.div_eq_of_lt h1, Nat.div_eq_of_lt h3] using this
    subst e2
    refine ⟨rfl, Prod.ext (Fin.ext (by dsimp only; omega)) (Fin.ext (by dsimp only; omega))⟩

theorem rankTally_count (r : Nat) (src : Src) (M N n lo c : Nat) (p : Nat → Bool) (hp : ∀ k, p k = decide (max lo k = c)) :
    rankTally r src M N n p = (List.range n).countP fun t => decide (max lo (sampleMatrix r src M N t).rank = c) := by
  rw [rankTally, List.countP_map]
  congr 1
  funext t
  exact hp _

theorem rankProb_congr (M N : Nat) {p q : Nat → Prop} (h : ∀ k ≤ M, p k ↔ q k) : rankProb M N p = rankProb M N q := by
  classical
  unfold rankProb
  congr 2
  refine Fintype.card_congr (Equiv.subtypeEquivRight fun A => h _ ?_)
  simpa using Matrix.rank_le_card_height A

/-! ### 32x32 -/

/-- The probabilities that the 32x32 test works with. -/
def rank32Q (c : Nat) : ℚ := [0.0052854502, 0.1283502644, 0.5775761902, 0.2887880952].getD (c - 29) 0 * if c < 29 then 0 else 1

theorem rank32_vtest (r m n : Nat) (hr : 0 < r) (h32 : r ≤ 32) (ω : Fin m → Fin (2 ^ r)) :
    (diehardRank32 r (wordSrc ω) n GBState.init).map Prod.fst = vtestEval { vtestCreate 33 with
        x := (List.range 33).map (fun c => (trialCount (fun t (ω : Fin m → Fin (2 ^ r)) => max 29 (sampleMatrix r (wordSrc ω) 32 32 t).rank) n ω c : ℚ))
        y := (List.range 33).map (fun c => (n : ℚ) * rank32Q c) } := by
  rw [C67_rank_32x32 r _ hr h32 (wordSrc_width ω)]
  have hr33 : List.range 33 = List.range 29 ++ [29, 30, 31, 32] := rfl
  rw [rankTally_count r _ 32 32 n 29 29 _ (fun k => by simp), rankTally_count r _ 32 32 n 29 30 _ (fun k => by rw [decide_eq_decide]; omega),
    rankTally_count r _ 32 32 n 29 31 _ (fun k => by rw [decide_eq_decide]; omega),
    rankTally_count r _ 32 32 n 29 32 _ (fun k => by rw [decide_eq_decide]; omega)]
  congr 1
  rw [vtestCreate, hr33, List.map_append, List.map_append]
  congr 1
  · congr 1
    symm
    rw [List.eq_replicate_iff]
    refine ⟨by simp, fun b hb => ?_⟩
    obtain ⟨c, hc, rfl⟩ := List.mem_map.1 hb
    have hc' := List.mem_range.1 hc
    rw [trialCount, List.countP_eq_zero.2 fun t _ => by simp; omega]
    rfl
  · congr 1
    · symm
      rw [List.eq_replicate_iff]
      refine ⟨by simp, fun b hb => ?_⟩
      obtain ⟨c, hc, rfl⟩ := List.mem_map.1 hb
      have hc' := List.mem_range.1 hc
      rw [rank32Q, if_pos hc', mul_zero, mul_zero]
    · simp [rank32Q]

theorem rank32_cells (n : Nat) (hn : 946 ≤ n) : (Finset.range 33).filter (fun c => 5 ≤ (n : ℚ) * rank32Q c) = {29, 30, 31, 32} := by
  have h : (946 : ℚ) ≤ n := by exact_mod_cast hn
  ext c
  simp only [Finset.mem_filter, Finset.mem_range, Finset.mem_insert, Finset.mem_singleton]
  constructor
  · rintro ⟨h1, h2⟩
    by_contra h3
    have h4 : c < 29 := by omega
    rw [rank32Q, if_pos h4] at h2
    norm_num at h2
  · rintro (rfl | rfl | rfl | rfl) <;> refine ⟨by norm_num, ?_⟩ <;> norm_num [rank32Q] <;> linarith

/-- **C96.** On random words the statistic of the 32x32 rank test has 3 degrees of freedom and the mean 3, up to the rounding of the four
constants, for every number of matrices from 946 on (the default is 40000). -/
theorem C96_rank_32x32 (r m n : Nat) (hr : 0 < r) (h32 : r ≤ 32) (hn : 946 ≤ n) (hm : 1024 * n ≤ m * r) :
    ∃ w : (Fin m → Fin (2 ^ r)) → Vtest, (∀ ω, (diehardRank32 r (wordSrc ω) n GBState.init).map Prod.fst = .ok (w ω) ∧ (w ω).ndof = 3) ∧
      |(mean fun ω => ((w ω).chisq : ℝ)) - 3| ≤ 1.02e-8 + n * 5.1e-19 := by
  have hne : Nonempty (Fin (2 ^ r)) := ⟨⟨0, by positivity⟩⟩
  have ht := rank_trials r m n 29 32 32 hr h32 (by norm_num) le_rfl (by omega)
  obtain ⟨w, h1, h2, h3⟩ := C87_vtest_mean ht (by omega) rank32Q
  have hrest : ∀ c ∈ (Finset.range 33).filter (fun c => ¬ 5 ≤ (n : ℚ) * rank32Q c), rank32Q c = 0 := by
    intro c hc
    have hc' := Finset.mem_filter.1 hc
    have h4 : c ∉ (Finset.range 33).filter (fun c => 5 ≤ (n : ℚ) * rank32Q c) := fun h => hc'.2 (Finset.mem_filter.1 h).2
    rw [rank32_cells n hn] at h4
    have h5 := Finset.mem_range.1 hc'.1
    simp only [Finset.mem_insert, Finset.mem_singleton, not_or] at h4
    rw [rank32Q, if_pos (by omega), mul_zero]
  rw [if_neg (by rw [Finset.sum_eq_zero hrest]; norm_num)] at h2 h3
  rw [rank32_cells n hn] at h2 h3
  refine ⟨w, fun ω => ⟨(rank32_vtest r m n hr h32 ω).trans (h1 ω), (h3 ω).trans (by rfl)⟩, ?_⟩
  rw [h2]
  obtain ⟨p1, p2, p3, p4⟩ := C68_rank_32x32
  have e1 := rankProb_congr 32 32 (p := fun k => max 29 k = 29) (q := (· ≤ 29)) fun k hk => by omega
  have e2 := rankProb_congr 32 32 (p := fun k => max 29 k = 30) (q := (· = 30)) fun k hk => by omega
  have e3 := rankProb_congr 32 32 (p := fun k => max 29 k = 31) (q := (· = 31)) fun k hk => by omega
  have e4 := rankProb_congr 32 32 (p := fun k => max 29 k = 32) (q := (· = 32)) fun k hk => by omega
  have q1 : rank32Q 29 = 0.0052854502 := by norm_num [rank32Q]
  have q2 : rank32Q 30 = 0.1283502644 := by norm_num [rank32Q]
  have q3 : rank32Q 31 = 0.5775761902 := by norm_num [rank32Q]
  have q4 : rank32Q 32 = 0.2887880952 := by norm_num [rank32Q]
  rw [Finset.sum_insert (by decide), Finset.sum_insert (by decide), Finset.sum_insert (by decide), Finset.sum_singleton, e1, e2, e3, e4, q1, q2, q3, q4]
  rw [← Rat.cast_le (K := ℝ)] at p1 p2 p3 p4
  push_cast at p1 p2 p3 p4 ⊢
  have c1 := cellMean_near n (by omega) (by norm_num) (by norm_num) p1
  have c2 := cellMean_near n (by omega) (by norm_num) (by norm_num) p2
  have c3 := cellMean_near n (by omega) (by norm_num) (by norm_num) p3
  have c4 := cellMean_near n (by omega) (by norm_num) (by norm_num) p4
  have hn0 : (0 : ℝ) ≤ n := by positivity
  rw [abs_le] at *
  norm_num at c1 c2 c3 c4 ⊢
  constructor <;> linarith [c1.1, c1.2, c2.1, c2.2, c3.1, c3.2, c4.1, c4.2]

/-! ### 6x8 -/

/-- The probabilities that the 6x8 test works with. -/
def rank68Q (c : Nat) : ℚ := [0, 0, 0.000000149858, 0.0000808926, 0.00936197, 0.217439, 0.773118].getD c 0

theorem rank68_vtest (r m n : Nat) (junk : List UInt) (hr : 0 < r) (h32 : r ≤ 32) (ω : Fin m → Fin (2 ^ r)) :
    (diehardRank68 r (wordSrc ω) junk n GBState.init).map Prod.fst = vtestEval { vtestCreate 7 with
        x := (List.range 7).map (fun c => (trialCount (fun t (ω : Fin m → Fin (2 ^ r)) => max 2 (sampleMatrix r (wordSrc ω) 6 8 t).rank) n ω c : ℚ))
        y := (List.range 7).map (fun c => (n : ℚ) * rank68Q c) } := by
  rw [C67_rank_6x8 r _ junk hr h32 (wordSrc_width ω)]
  rw [rankTally_count r _ 6 8 n 2 2 _ (fun k => by simp), rankTally_count r _ 6 8 n 2 3 _ (fun k => by rw [decide_eq_decide]; omega),
    rankTally_count r _ 6 8 n 2 4 _ (fun k => by rw [decide_eq_decide]; omega),
    rankTally_count r _ 6 8 n 2 5 _ (fun k => by rw [decide_eq_decide]; omega),
    rankTally_count r _ 6 8 n 2 6 _ (fun k => by rw [decide_eq_decide]; omega)]
  have hz : ∀ c < 2, trialCount (fun t (ω : Fin m → Fin (2 ^ r)) => max 2 (sampleMatrix r (wordSrc ω) 6 8 t).rank) n ω c = 0 := by
    intro c hc
    rw [trialCount, List.countP_eq_zero.2 fun t _ => by simp; omega]
  have hr7 : List.range 7 = [0, 1, 2, 3, 4, 5, 6] := rfl
  rw [vtestCreate, hr7]
  simp only [List.map_cons, List.map_nil, hz 0 (by norm_num), hz 1 (by norm_num)]
  congr 2 <;> simp [rank68Q, trialCount]

/-- **C96.** On random words the statistic of the 6x8 rank test, for 61811 to 33364918 matrices (the default is 100000), has 3 degrees of
freedom and the mean 3 up to the rounding of the constants; the matrices of rank 2 or less are not used. -/
theorem C96_rank_6x8 (r m n : Nat) (junk : List UInt) (hr : 0 < r) (h32 : r ≤ 32) (hn : 61811 ≤ n) (hn' : n ≤ 33364918) (hm : 192 * n ≤ m * r) :
    ∃ w : (Fin m → Fin (2 ^ r)) → Vtest, (∀ ω, (diehardRank68 r (wordSrc ω) junk n GBState.init).map Prod.fst = .ok (w ω) ∧ (w ω).ndof = 3) ∧
      |(mean fun ω => ((w ω).chisq : ℝ)) - 3| ≤ 5e-6 + n * 1.5e-12 := by
  have hne : Nonempty (Fin (2 ^ r)) := ⟨⟨0, by positivity⟩⟩
  have ht := rank_trials r m n 2 6 8 hr h32 (by norm_num) (by norm_num) (by omega)
  obtain ⟨w, h1, h2, h3⟩ := C87_vtest_mean ht (by omega) rank68Q
  have hnq : (61811 : ℚ) ≤ n := by exact_mod_cast hn
  have hnq' : (n : ℚ) ≤ 33364918 := by exact_mod_cast hn'
  have hcells : (Finset.range 7).filter (fun c => 5 ≤ (n : ℚ) * rank68Q c) = {3, 4, 5, 6} := by
    ext c
    simp only [Finset.mem_filter, Finset.mem_range, Finset.mem_insert, Finset.mem_singleton]
    constructor
    · rintro ⟨h1, h2⟩
      by_contra h3
      have h4 : c < 3 := by omega
      interval_cases c <;> norm_num [rank68Q] at h2 <;> linarith
    · rintro (rfl | rfl | rfl | rfl) <;> refine ⟨by norm_num, ?_⟩ <;> norm_num [rank68Q] <;> linarith
  have hrest : (Finset.range 7).filter (fun c => ¬ 5 ≤ (n : ℚ) * rank68Q c) = {0, 1, 2} := by
    ext c
    have := Finset.ext_iff.1 hcells c
    simp only [Finset.mem_filter, Finset.mem_range, Finset.mem_insert, Finset.mem_singleton] at this ⊢
    constructor
    · rintro ⟨g1, g2⟩
      have := mt (fun h => (this.2 h).2) g2
      omega
    · intro g
      exact ⟨by omega, fun h => by have := this.1 ⟨by omega, h⟩; omega⟩
  rw [hrest, if_neg (by norm_num [rank68Q]; linarith)] at h2 h3
  rw [hcells] at h2 h3
  refine ⟨w, fun ω => ⟨(rank68_vtest r m n junk hr h32 ω).trans (h1 ω), (h3 ω).trans (by rfl)⟩, ?_⟩
  rw [h2]
  obtain ⟨-, p1, p2, p3, p4⟩ := C68_rank_6x8
  have e1 := rankProb_congr 6 8 (p := fun k => max 2 k = 3) (q := (· = 3)) fun k hk => by omega
  have e2 := rankProb_congr 6 8 (p := fun k => max 2 k = 4) (q := (· = 4)) fun k hk => by omega
  have e3 := rankProb_congr 6 8 (p := fun k => max 2 k = 5) (q := (· = 5)) fun k hk => by omega
  have e4 := rankProb_congr 6 8 (p := fun k => max 2 k = 6) (q := (· = 6)) fun k hk => by omega
  have q1 : rank68Q 3 = 0.0000808926 := by norm_num [rank68Q]
  have q2 : rank68Q 4 = 0.00936197 := by norm_num [rank68Q]
  have q3 : rank68Q 5 = 0.217439 := by norm_num [rank68Q]
  have q4 : rank68Q 6 = 0.773118 := by norm_num [rank68Q]
  rw [Finset.sum_insert (by decide), Finset.sum_insert (by decide), Finset.sum_insert (by decide), Finset.sum_singleton, e1, e2, e3, e4, q1, q2, q3, q4]
  rw [← Rat.cast_le (K := ℝ)] at p1 p2 p3 p4
  push_cast at p1 p2 p3 p4 ⊢
  have c1 := cellMean_near n (by omega) (by norm_num) (by norm_num) p1
  have c2 := cellMean_near n (by omega) (by norm_num) (by norm_num) p2
  have c3 := cellMean_near n (by omega) (by norm_num) (by norm_num) p3
  have c4 := cellMean_near n (by omega) (by norm_num) (by norm_num) p4
  have hn0 : (0 : ℝ) ≤ n := by positivity
  rw [abs_le] at *
  norm_num at c1 c2 c3 c4 ⊢
  constructor <;> linarith [c1.1, c1.2, c2.1, c2.2, c3.1, c3.2, c4.1, c4.2]

/-- Non-vacuity: the default runs from words of 32 and of 31 bits. -/
example : (∃ w : (Fin 1280000 → Fin (2 ^ 32)) → Vtest, |(mean fun ω => ((w ω).chisq : ℝ)) - 3| ≤ 1.1e-8) ∧
    ∃ w : (Fin 620000 → Fin (2 ^ 31)) → Vtest, |(mean fun ω => ((w ω).chisq : ℝ)) - 3| ≤ 6e-6 := by
  obtain ⟨w, -, h⟩ := C96_rank_32x32 32 1280000 40000 (by norm_num) le_rfl (by norm_num) (by norm_num)
  obtain ⟨w', -, h'⟩ := C96_rank_6x8 31 620000 100000 [] (by norm_num) (by norm_num) (by norm_num) (by norm_num) (by norm_num)
  exact ⟨⟨w, h.trans (by norm_num)⟩, ⟨w', h'.trans (by norm_num)⟩⟩

end Dh
