import Verif.Proof.RankTests
import Verif.Proof.RankCount
import Verif.Props.Vtest
import Mathlib.Algebra.BigOperators.Field
/-
C67, C68: the two binary rank tests.
-/
namespace Dh
open Spec

/-- How many of the first `t` sample matrices have a rank in a given set. -/
noncomputable def Spec.rankTally (r : Nat) (src : Src) (m n t : Nat) (p : Nat → Bool) : Nat :=
  ((List.range t).map fun t => (sampleMatrix r src m n t).rank).countP p

theorem count_max (lo v : Nat) (h : lo ≤ v) (l : List Nat) :
    (l.map (max lo)).count v = l.countP (fun k => if v = lo then decide (k ≤ lo) else decide (k = v)) := by
  rw [List.count, List.countP_map]
  congr 1
  funext k
  simp only [Function.comp_apply]
  by_cases hv : v = lo
  · subst hv
    by_cases hk : k ≤ v
    · simp [hk]
    · have : max v k ≠ v := by omega
      simp [hk]
  · by_cases hk : k = v
    · subst hk; simp [hv, h]
    · have : max lo k ≠ v := by omega
      simp [hv, hk, this]

theorem count_max_lt (lo v : Nat) (h : v < lo) (l : List Nat) : (l.map (max lo)).count v = 0 := by
  rw [List.count_eq_zero]
  intro hm
  obtain ⟨k, _, hk⟩ := List.mem_map.1 hm
  omega

theorem tally_cells (cells lo : Nat) (l x : List Nat) (hlo : lo < cells)
    (h : Tallied (List.replicate cells 0) (l.map (max lo)) x) :
    x = (List.range cells).map fun k => if k < lo then 0 else
      l.countP (fun j => if k = lo then decide (j ≤ lo) else decide (j = k)) := by
  apply List.ext_getElem
  · rw [h.len]; simp
  · intro i h1 h2
    have hg := h.get i
    rw [h.len, List.length_replicate] at h1
    rw [List.getD_eq_getElem?_getD, List.getD_eq_getElem?_getD, List.getElem?_replicate, if_pos h1,
      List.getElem?_eq_getElem (by rw [h.len]; simpa using h1)] at hg
    simp only [Option.getD_some, Nat.zero_add] at hg
    rw [hg, List.getElem_map, List.getElem_range]
    split
    · exact count_max_lt lo i (by assumption) l
    · exact count_max lo i (by omega) l

theorem rank32_x (l : List Nat) : ((List.range 33).map fun k => if k < 29 then 0 else
      l.countP (fun j => if k = 29 then decide (j ≤ 29) else decide (j = k))) = List.replicate 29 0 ++
    [l.countP (fun j => decide (j ≤ 29)), l.countP (fun j => decide (j = 30)), l.countP (fun j => decide (j = 31)),
      l.countP (fun j => decide (j = 32))] := by
  rw [show (33 : Nat) = 29 + 4 from rfl, List.range_add, List.map_append]
  congr 1

theorem rank32_y (a b c d : ℚ) : (((wr (List.replicate 33 0) 29 a).bind fun y => (wr y 30 b).bind fun y => (wr y 31 c).bind fun y =>
    wr y 32 d)) = .ok (List.replicate 29 0 ++ [a, b, c, d]) := rfl

/-- **C67.** `diehard_rank_32x32` evaluates, for every generator with `r`-bit values (`1 ≤ r ≤ 32`) and every number of samples, the
chi-square vector whose cells 30, 31 and 32 are the numbers of sample matrices with exactly that rank over GF(2), whose cell 29
is the number of matrices of rank at most 29 and whose other cells are 0, against `tsamples` times the four constants.  Matrix
`t` is made of the `1024` bits number `1024 t, ...` of the generator's stream. -/
theorem C67_rank_32x32 (r : Nat) (src : Src) (hr : 0 < r) (hr32 : r ≤ 32) (hw : Width r src) (tsamples : Nat) :
    (diehardRank32 r src tsamples GBState.init).map Prod.fst =
      vtestEval ⟨33, 0, 5,
        List.replicate 29 0 ++ [(rankTally r src 32 32 tsamples (· ≤ 29) : ℚ), rankTally r src 32 32 tsamples (· = 30),
          rankTally r src 32 32 tsamples (· = 31), rankTally r src 32 32 tsamples (· = 32)],
        List.replicate 29 0 ++ [(tsamples * 0.0052854502 : ℚ), tsamples * 0.1283502644, tsamples * 0.5775761902,
          tsamples * 0.2887880952], 0⟩ := by
  obtain ⟨x, s', h1, -, h2⟩ := rankSamples_spec hr hr32 hw [] 32 32 29 (le_refl _) (by omega) (List.replicate 33 0) (by simp) tsamples 0
    (List.replicate 33 0) GBState.init (by simpa using AtBit.init r src hr) (by simpa using Tallied.nil (List.replicate 33 0))
  rw [Nat.zero_add, show (fun t => max 29 (sampleMatrix r src 32 32 t).rank) = (max 29) ∘ (fun t => (sampleMatrix r src 32 32 t).rank)
    from rfl, ← List.map_map] at h2
  have hx := tally_cells 33 29 _ x (by omega) h2
  rw [rank32_x] at hx
  unfold diehardRank32
  have hy := rank32_y (tsamples * (52854502 / 10 ^ 10)) (tsamples * (1283502644 / 10 ^ 10)) (tsamples * (5775761902 / 10 ^ 10))
    (tsamples * (2887880952 / 10 ^ 10))
  simp only [vtestCreate]
  obtain ⟨y1, e1, hy⟩ := Res.bind_eq_ok.1 hy
  obtain ⟨y2, e2, hy⟩ := Res.bind_eq_ok.1 hy
  obtain ⟨y3, e3, e4⟩ := Res.bind_eq_ok.1 hy
  rw [e1, Res.bind_ok, e2, Res.bind_ok, e3, Res.bind_ok, e4, Res.bind_ok, h1, Res.bind_ok]
  have ex : x.map (Nat.cast : Nat → ℚ) = List.replicate 29 0 ++ [(rankTally r src 32 32 tsamples (· ≤ 29) : ℚ),
      rankTally r src 32 32 tsamples (· = 30), rankTally r src 32 32 tsamples (· = 31), rankTally r src 32 32 tsamples (· = 32)] := by
    rw [hx, List.map_append, List.map_replicate, Nat.cast_zero]
    rfl
  simp only [ex]
  rw [show (52854502 / 10 ^ 10 : ℚ) = 0.0052854502 by norm_num, show (1283502644 / 10 ^ 10 : ℚ) = 0.1283502644 by norm_num,
    show (5775761902 / 10 ^ 10 : ℚ) = 0.5775761902 by norm_num, show (2887880952 / 10 ^ 10 : ℚ) = 0.2887880952 by norm_num]
  generalize vtestEval _ = w
  cases w <;> rfl

/-- **C67.** `diehard_rank_6x8`: the same with six rows per matrix, made of the last eight bits of six consecutive 32-bit groups of
the stream, ranks at most 2 pooled in cell 2.  The words of the rows that are never assigned have no influence. -/
theorem C67_rank_6x8 (r : Nat) (src : Src) (junk : List UInt) (hr : 0 < r) (hr32 : r ≤ 32) (hw : Width r src) (tsamples : Nat) :
    (diehardRank68 r src junk tsamples GBState.init).map Prod.fst =
      vtestEval ⟨7, 0, 5,
        [0, 0, (rankTally r src 6 8 tsamples (· ≤ 2) : ℚ), rankTally r src 6 8 tsamples (· = 3), rankTally r src 6 8 tsamples (· = 4),
          rankTally r src 6 8 tsamples (· = 5), rankTally r src 6 8 tsamples (· = 6)],
        [0, 0, (tsamples * 0.000000149858 : ℚ), tsamples * 0.0000808926, tsamples * 0.00936197, tsamples * 0.217439,
          tsamples * 0.773118], 0⟩ := by
  obtain ⟨x, s', h1, -, h2⟩ := rankSamples_spec hr hr32 hw junk 6 8 2 (by omega) (by omega) (List.replicate 7 0) (by simp) tsamples 0
    (List.replicate 7 0) GBState.init (by simpa using AtBit.init r src hr) (by simpa using Tallied.nil (List.replicate 7 0))
  rw [Nat.zero_add, show (fun t => max 2 (sampleMatrix r src 6 8 t).rank) = (max 2) ∘ (fun t => (sampleMatrix r src 6 8 t).rank)
    from rfl, ← List.map_map] at h2
  have hx := tally_cells 7 2 _ x (by omega) h2
  have hx' : x.map (Nat.cast : Nat → ℚ) = [0, 0, (rankTally r src 6 8 tsamples (· ≤ 2) : ℚ), rankTally r src 6 8 tsamples (· = 3),
      rankTally r src 6 8 tsamples (· = 4), rankTally r src 6 8 tsamples (· = 5), rankTally r src 6 8 tsamples (· = 6)] := by
    rw [hx]
    simp [List.range_succ, rankTally]
  unfold diehardRank68
  simp only [vtestCreate, wr, List.length_set, List.length_replicate, h1, Res.bind_ok, hx']
  norm_num [List.replicate, List.set, Res.bind_ok]
  generalize vtestEval _ = w
  cases w <;> rfl

/-- Three matrices of ranks 6, 1 (pooled in cell 2) and 4 from a 32-bit generator; the bit above the low byte is ignored. -/
example : (rankSamples 32 (fun k => [1, 2, 4, 8, 16, 32, 3, 0x103, 3, 3, 3, 3, 1, 2, 4, 8, 3, 5].getD k 0) [7, 7] 6 8 2 3
    (List.replicate 7 0) GBState.init).map Prod.fst = .ok [0, 0, 1, 0, 1, 0, 1] := by decide +kernel

/-- **C67.** Every matrix is counted in exactly one cell. -/
theorem C67_conserved (r : Nat) (src : Src) (t : Nat) :
    rankTally r src 32 32 t (· ≤ 29) + rankTally r src 32 32 t (· = 30) + rankTally r src 32 32 t (· = 31) +
      rankTally r src 32 32 t (· = 32) = t ∧
    rankTally r src 6 8 t (· ≤ 2) + rankTally r src 6 8 t (· = 3) + rankTally r src 6 8 t (· = 4) +
      rankTally r src 6 8 t (· = 5) + rankTally r src 6 8 t (· = 6) = t := by
  unfold rankTally
  constructor
  · induction t with
    | zero => simp
    | succ t ih =>
      have hle : (sampleMatrix r src 32 32 t).rank ≤ 32 := by
        simpa using Matrix.rank_le_card_height (sampleMatrix r src 32 32 t)
      simp only [List.range_succ, List.map_append, List.countP_append, List.map_cons, List.map_nil, List.countP_singleton,
        decide_eq_true_eq] at ih ⊢
      split_ifs <;> omega
  · induction t with
    | zero => simp
    | succ t ih =>
      have hle : (sampleMatrix r src 6 8 t).rank ≤ 6 := by
        simpa using Matrix.rank_le_card_height (sampleMatrix r src 6 8 t)
      simp only [List.range_succ, List.map_append, List.countP_append, List.map_cons, List.map_nil, List.countP_singleton,
        decide_eq_true_eq] at ih ⊢
      split_ifs <;> omega

/-- `∏ (b - 2^i)` for `i < k`. -/
def fallProd (b : ℤ) : Nat → ℤ
  | 0 => 1
  | k + 1 => fallProd b k * (b - 2 ^ k)

theorem fallProd_double (b : ℤ) : ∀ k, fallProd (2 * b) (k + 1) = (2 * b - 1) * 2 ^ k * fallProd b k := by
  intro k
  induction k with
  | zero => simp [fallProd]
  | succ k ih =>
    rw [fallProd, ih, fallProd, pow_succ]
    ring

/-- `rankNum n m k · ∏(2^k - 2^i) = ∏(2^m - 2^i) · ∏(2^n - 2^i)`. -/
theorem rankNum_closed (n : Nat) : ∀ m k, (rankNum n m k : ℤ) * fallProd (2 ^ k) k = fallProd (2 ^ m) k * fallProd (2 ^ n) k := by
  intro m
  induction m with
  | zero =>
    intro k
    cases k with
    | zero => simp [rankNum, fallProd]
    | succ k =>
      have : ∀ k, fallProd (2 ^ 0) (k + 1) = 0 := by
        intro k
        induction k with
        | zero => simp [fallProd]
        | succ k ih => rw [fallProd, ih, zero_mul]
      rw [this]; simp [rankNum]
  | succ m ih =>
    intro k
    cases k with
    | zero => simpa [rankNum, fallProd] using ih 0
    | succ k =>
      have h1 := ih (k + 1)
      have h2 := ih k
      have hd : fallProd (2 ^ (k + 1)) (k + 1) = (2 * 2 ^ k - 1) * 2 ^ k * fallProd (2 ^ k) k := by
        rw [pow_succ, mul_comm, fallProd_double]
      have hm : fallProd (2 ^ (m + 1)) (k + 1) = (2 * 2 ^ m - 1) * 2 ^ k * fallProd (2 ^ m) k := by
        rw [pow_succ, mul_comm, fallProd_double]
      by_cases hk : k ≤ n
      · have hc : (((2 ^ n - 2 ^ k : Nat)) : ℤ) = 2 ^ n - 2 ^ k := by
          rw [Nat.cast_sub (Nat.pow_le_pow_right (by omega) hk)]; push_cast; ring
        rw [rankNum, hm]
        push_cast
        rw [hc]
        have e : ((2 : ℤ) ^ (k + 1) * rankNum n m (k + 1) + (2 ^ n - 2 ^ k) * rankNum n m k) * fallProd (2 ^ (k + 1)) (k + 1) =
            2 ^ (k + 1) * (rankNum n m (k + 1) * fallProd (2 ^ (k + 1)) (k + 1)) +
            (2 ^ n - 2 ^ k) * ((2 * 2 ^ k - 1) * 2 ^ k) * (rankNum n m k * fallProd (2 ^ k) k) := by
          rw [hd]; ring
        rw [e, h1, h2, fallProd, fallProd, pow_succ]
        ring
      · have hz : fallProd (2 ^ n) (k + 1) = 0 := by
          have : ∀ j, n ≤ j → fallProd (2 ^ n) (j + 1) = 0 := by
            intro j hj
            induction j, hj using Nat.le_induction with
            | base => rw [fallProd]; ring
            | succ j _ ihj => rw [fallProd, ihj, zero_mul]
          exact this k (by omega)
        have hz' : fallProd (2 ^ n) k = 0 := by
          have : ∀ j, n ≤ j → fallProd (2 ^ n) (j + 1) = 0 := by
            intro j hj
            induction j, hj using Nat.le_induction with
            | base => rw [fallProd]; ring
            | succ j _ ihj => rw [fallProd, ihj, zero_mul]
          obtain ⟨j, rfl⟩ : ∃ j, k = j + 1 := ⟨k - 1, by omega⟩
          exact this j (by omega)
        rw [hz, mul_zero] at h1 ⊢
        rw [hz', mul_zero] at h2
        have hp : ∀ k, fallProd (2 ^ k) k ≠ 0 := by
          intro k
          induction k with
          | zero => simp [fallProd]
          | succ k ih =>
            rw [pow_succ, mul_comm, fallProd_double]
            have : (2 * 2 ^ k - 1 : ℤ) ≠ 0 := by
              have : (0 : ℤ) < 2 ^ k := by positivity
              omega
            exact mul_ne_zero (mul_ne_zero this (by positivity)) ih
        have z1 : (rankNum n m (k + 1) : ℤ) = 0 := (mul_eq_zero.1 h1).resolve_right (hp _)
        have z2 : (rankNum n m k : ℤ) = 0 := (mul_eq_zero.1 h2).resolve_right (hp _)
        rw [rankNum]
        push_cast
        rw [z1, z2]
        ring

open Classical in
/-- The probability that a uniformly random `m × n` bit matrix has a rank in a given set. -/
noncomputable def Spec.rankProb (m n : Nat) (p : Nat → Prop) : ℚ :=
  Fintype.card {M : Matrix (Fin m) (Fin n) (ZMod 2) // p M.rank} / Fintype.card (Matrix (Fin m) (Fin n) (ZMod 2))

theorem card_bitMatrix (m n : Nat) : Fintype.card (Matrix (Fin m) (Fin n) (ZMod 2)) = 2 ^ (m * n) := by
  have : Fintype.card (Fin m → Fin n → ZMod 2) = 2 ^ (m * n) := by
    rw [Fintype.card_fun, Fintype.card_fun, ZMod.card, Fintype.card_fin, Fintype.card_fin, ← pow_mul, mul_comm]
  rw [← this]
  exact Fintype.card_congr (Equiv.refl _)

theorem rankProb_eq (m n k : Nat) : rankProb m n (· = k) = rankNum n m k / 2 ^ (m * n) := by
  have h := card_matrix_rank m n k
  unfold rankProb
  rw [card_bitMatrix, ← h]
  push_cast
  congr
  exact Subsingleton.elim _ _

/-- A bound on a rank probability follows from integer inequalities between the products. -/
theorem rankProb_bound (m n k : Nat) (lo hi den : ℤ) (hden : 0 < den) (hd : 0 < fallProd (2 ^ k) k)
    (h1 : lo * (2 ^ (m * n) * fallProd (2 ^ k) k) ≤ den * (fallProd (2 ^ m) k * fallProd (2 ^ n) k))
    (h2 : den * (fallProd (2 ^ m) k * fallProd (2 ^ n) k) ≤ hi * (2 ^ (m * n) * fallProd (2 ^ k) k)) :
    (lo : ℚ) / den ≤ rankProb m n (· = k) ∧ rankProb m n (· = k) ≤ (hi : ℚ) / den := by
  rw [rankProb_eq]
  have hden' : (0 : ℚ) < den := by exact_mod_cast hden
  have hp : (0 : ℚ) < 2 ^ (m * n) := by positivity
  rw [← rankNum_closed] at h1 h2
  have h1' : lo * 2 ^ (m * n) ≤ den * rankNum n m k := by
    refine le_of_mul_le_mul_right ?_ hd
    calc _ = lo * (2 ^ (m * n) * fallProd (2 ^ k) k) := by ring
      _ ≤ _ := h1
      _ = _ := by ring
  have h2' : den * rankNum n m k ≤ hi * 2 ^ (m * n) := by
    refine le_of_mul_le_mul_right ?_ hd
    calc _ = den * (rankNum n m k * fallProd (2 ^ k) k) := by ring
      _ ≤ _ := h2
      _ = _ := by ring
  constructor
  · rw [div_le_div_iff₀ hden' hp]
    have : (lo : ℚ) * 2 ^ (m * n) ≤ den * rankNum n m k := by exact_mod_cast h1'
    linarith
  · rw [div_le_div_iff₀ hp hden']
    have : (den : ℚ) * rankNum n m k ≤ hi * 2 ^ (m * n) := by exact_mod_cast h2'
    linarith

theorem rankProb_sum (m n : Nat) : ∑ k ∈ Finset.range (m + 1), rankProb m n (· = k) = 1 := by
  classical
  unfold rankProb
  rw [← Finset.sum_div]
  rw [div_eq_one_iff_eq (by rw [card_bitMatrix]; positivity)]
  simp_rw [Fintype.card_subtype]
  rw [← Nat.cast_sum, ← Finset.card_eq_sum_card_fiberwise (s := Finset.univ) (f := fun M : Matrix (Fin m) (Fin n) (ZMod 2) => M.rank)
    (t := Finset.range (m + 1))]
  · rw [Finset.card_univ]
  · intro M _
    have := Matrix.rank_le_card_height M
    simp only [Fintype.card_fin] at this
    simp only [Finset.coe_range, Set.mem_Iio]
    omega

theorem rankProb_le_eq (m n lo : Nat) : rankProb m n (· ≤ lo) = ∑ k ∈ Finset.range (lo + 1), rankProb m n (· = k) := by
  classical
  unfold rankProb
  rw [← Finset.sum_div]
  congr 1
  simp_rw [Fintype.card_subtype]
  rw [← Nat.cast_sum]
  congr 1
  rw [Finset.card_eq_sum_card_fiberwise (s := Finset.univ.filter fun M : Matrix (Fin m) (Fin n) (ZMod 2) => M.rank ≤ lo)
    (f := fun M => M.rank) (t := Finset.range (lo + 1))]
  · apply Finset.sum_congr rfl
    intro k hk
    congr 1
    ext M
    simp only [Finset.mem_filter, Finset.mem_univ, true_and, Finset.mem_range] at hk ⊢
    constructor
    · exact fun h => h.2
    · intro h; exact ⟨by omega, h⟩
  · intro M hM
    simp only [Finset.coe_filter, Finset.mem_univ, true_and, Set.mem_setOf_eq] at hM
    simp only [Finset.coe_range, Set.mem_Iio]
    omega

/-- **C68.** The expected frequencies of the 32x32 rank test are the probabilities of the pooled ranks of a uniformly random 32x32
matrix over GF(2), correctly rounded to ten decimals. -/
theorem C68_rank_32x32 :
    |rankProb 32 32 (· ≤ 29) - 0.0052854502| ≤ 0.00000000005 ∧ |rankProb 32 32 (· = 30) - 0.1283502644| ≤ 0.00000000005 ∧
    |rankProb 32 32 (· = 31) - 0.5775761902| ≤ 0.00000000005 ∧ |rankProb 32 32 (· = 32) - 0.2887880952| ≤ 0.00000000005 := by
  have b30 := rankProb_bound 32 32 30 1283502644231 1283502644232 (10 ^ 13) (by decide +kernel) (by decide +kernel)
    (by decide +kernel) (by decide +kernel)
  have b31 := rankProb_bound 32 32 31 5775761901732 5775761901733 (10 ^ 13) (by decide +kernel) (by decide +kernel)
    (by decide +kernel) (by decide +kernel)
  have b32 := rankProb_bound 32 32 32 2887880951538 2887880951539 (10 ^ 13) (by decide +kernel) (by decide +kernel)
    (by decide +kernel) (by decide +kernel)
  have hs := rankProb_sum 32 32
  rw [show (32 + 1 : Nat) = 29 + 1 + 1 + 1 + 1 from rfl, Finset.sum_range_succ, Finset.sum_range_succ, Finset.sum_range_succ,
    ← rankProb_le_eq] at hs
  simp only [Nat.reduceAdd] at hs
  push_cast at b30 b31 b32
  obtain ⟨p1, p2⟩ := b30
  obtain ⟨q1, q2⟩ := b31
  obtain ⟨u1, u2⟩ := b32
  refine ⟨?_, ?_, ?_, ?_⟩ <;> rw [abs_le] <;> constructor <;> linarith

/-- Six of the sixteen 2x2 bit matrices are invertible, nine have rank 1. -/
example : rankNum 2 2 2 = 6 ∧ rankNum 2 2 1 = 9 ∧ rankNum 2 2 0 = 1 := by decide

/-- **C68.** The expected frequencies of the 6x8 rank test are the probabilities of the pooled ranks of a uniformly random 6x8
matrix over GF(2), correctly rounded to six significant digits. -/
theorem C68_rank_6x8 :
    |rankProb 6 8 (· ≤ 2) - 0.000000149858| ≤ 0.0000000000005 ∧ |rankProb 6 8 (· = 3) - 0.0000808926| ≤ 0.00000000005 ∧
    |rankProb 6 8 (· = 4) - 0.00936197| ≤ 0.000000005 ∧ |rankProb 6 8 (· = 5) - 0.217439| ≤ 0.0000005 ∧
    |rankProb 6 8 (· = 6) - 0.773118| ≤ 0.0000005 := by
  refine ⟨?_, ?_, ?_, ?_, ?_⟩
  · rw [rankProb_le_eq, Finset.sum_range_succ, Finset.sum_range_succ, Finset.sum_range_succ, Finset.sum_range_zero,
      rankProb_eq, rankProb_eq, rankProb_eq]
    norm_num [rankNum, abs_le]
  all_goals rw [rankProb_eq]; norm_num [rankNum, abs_le]

end Dh
