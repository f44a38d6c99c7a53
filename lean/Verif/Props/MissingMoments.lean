import Mathlib.Tactic.NormNum
import Mathlib.Analysis.Real.Sqrt
import Mathlib.Logic.Equiv.Prod
import Mathlib.Data.Nat.Cast.Order.Field
import Verif.Proof.Uniform
import Verif.Props.Missing
/-
C83: mean and variance of the number of missing words of the opso, oqso and opso2 tests for independent uniform draws.
-/
namespace Dh
open Spec

/-- When the bits of the words are different bits of the draws, the words are independent and uniform. -/
theorem words_transfer {k r m n : Nat} (W : Src → Nat → Nat) (ι : Fin n × Fin m → Fin k × Fin r) (hι : Function.Injective ι)
    (hlt : ∀ (src : Src) (t : Nat), W src t < 2 ^ m)
    (hbit : ∀ (b : Fin k × Fin r → Bool) (t : Fin n) (j : Fin m), (W (bitSrc b) t).testBit j = b (ι (t, j))) (g : Nat → ℝ) :
    mean (fun b : Fin k × Fin r → Bool => g (missing (2 ^ m) ((List.range n).map (W (bitSrc b))))) =
      mean (fun X : Fin n → (Fin m → Bool) => g (missCount X)) := by
  have h : ∀ b : Fin k × Fin r → Bool, missing (2 ^ m) ((List.range n).map (W (bitSrc b))) =
      missCount (fun (t : Fin n) (j : Fin m) => b (ι (t, j))) := by
    intro b
    rw [missing, List.countP_eq_length_filter, missCount,
      ← List.toFinset_card_of_nodup (List.Nodup.filter _ List.nodup_range)]
    refine Finset.card_bij' (fun v _ (j : Fin m) => v.testBit j) (fun a _ => Nat.ofBits a) ?_ ?_ ?_ ?_
    · intro v hv
      simp only [List.toFinset_filter, Finset.mem_filter, List.mem_toFinset, List.mem_range, decide_eq_true_eq, List.mem_map,
        not_exists, not_and] at hv
      rw [Finset.mem_filter]
      refine ⟨Finset.mem_univ _, fun t ht => hv.2 t t.2 ?_⟩
      apply Nat.eq_of_testBit_eq
      intro i
      by_cases hi : i < m
      · rw [hbit b t ⟨i, hi⟩]
        exact congrFun ht ⟨i, hi⟩
      · have hp : 2 ^ m ≤ 2 ^ i := Nat.pow_le_pow_right (by omega) (by omega)
        rw [Nat.testBit_lt_two_pow (lt_of_lt_of_le (hlt _ _) hp), Nat.testBit_lt_two_pow (lt_of_lt_of_le hv.1 hp)]
    · intro a ha
      rw [Finset.mem_filter] at ha
      simp only [List.toFinset_filter, Finset.mem_filter, List.mem_toFinset, List.mem_range, decide_eq_true_eq, List.mem_map,
        not_exists, not_and]
      refine ⟨Nat.ofBits_lt_two_pow a, fun t ht e => ha.2 ⟨t, ht⟩ ?_⟩
      funext j
      rw [← hbit b ⟨t, ht⟩ j]
      show (W (bitSrc b) t).testBit j = a j
      rw [e, Nat.testBit_ofBits_lt _ _ j.2]
    · intro v hv
      simp only [List.toFinset_filter, Finset.mem_filter, List.mem_toFinset, List.mem_range] at hv
      rw [Nat.ofBits_testBit, Nat.mod_eq_of_lt hv.1]
    · intro a ha
      funext j
      rw [Nat.testBit_ofBits_lt _ _ j.2]
  rw [mean_congr fun b => by rw [h b],
    mean_restrict ι hι (fun c : Fin n × Fin m → Bool => g (missCount (fun t j => c (t, j)))),
    ← mean_equiv (Equiv.curry (Fin n) (Fin m) Bool)]
  rfl

theorem words_moments {k r m n : Nat} (W : Src → Nat → Nat) (ι : Fin n × Fin m → Fin k × Fin r) (hι : Function.Injective ι)
    (hlt : ∀ (src : Src) (t : Nat), W src t < 2 ^ m)
    (hbit : ∀ (b : Fin k × Fin r → Bool) (t : Fin n) (j : Fin m), (W (bitSrc b) t).testBit j = b (ι (t, j))) :
    mean (fun b : Fin k × Fin r → Bool => (missing (2 ^ m) ((List.range n).map (W (bitSrc b))) : ℝ)) =
      2 ^ m * (1 - 1 / 2 ^ m) ^ n ∧
    var (fun b : Fin k × Fin r → Bool => (missing (2 ^ m) ((List.range n).map (W (bitSrc b))) : ℝ)) =
      2 ^ m * (1 - 1 / 2 ^ m) ^ n + 2 ^ m * (2 ^ m - 1) * (1 - 2 / 2 ^ m) ^ n - (2 ^ m * (1 - 1 / 2 ^ m) ^ n) ^ 2 := by
  have hc : (Fintype.card (Fin m → Bool) : ℝ) = 2 ^ m := by simp
  have h1 := words_transfer W ι hι hlt hbit (fun x => (x : ℝ))
  have h2 := words_transfer W ι hι hlt hbit (fun x => (x : ℝ) ^ 2)
  rw [missCount_mean, hc] at h1
  rw [missCount_sq, hc] at h2
  exact ⟨h1, by rw [var_eq, h1, h2]⟩

theorem testBit_field (x : UInt) (off n j : Nat) : (field x off n).testBit j = (decide (j < n) && x.getLsbD (off + j)) := by
  rw [field, Nat.testBit_mod_two_pow, Nat.testBit_div_two_pow, BitVec.testBit_toNat, Nat.add_comm]

/-- **C83.** For independent uniform draws of `20 ≤ r ≤ 32` bits the statistic of the opso test has the mean and the variance of the
number of empty cells when `n` balls fall independently into `2^20` cells. -/
theorem C83_opso (r k n : Nat) (hr : 20 ≤ r) (hr' : r ≤ 32) (hk : n + 1 ≤ k) :
    ∃ X : (Fin k × Fin r → Bool) → ℕ, (∀ b, opso (bitSrc b) n = .ok (X b)) ∧
      mean (fun b => (X b : ℝ)) = 2 ^ 20 * (1 - 1 / 2 ^ 20) ^ n ∧
      var (fun b => (X b : ℝ)) = 2 ^ 20 * (1 - 1 / 2 ^ 20) ^ n + 2 ^ 20 * (2 ^ 20 - 1) * (1 - 2 / 2 ^ 20) ^ n -
        (2 ^ 20 * (1 - 1 / 2 ^ 20) ^ n) ^ 2 := by
  refine ⟨fun b => missing (2 ^ 20) ((List.range n).map (opsoWord (bitSrc b))), fun b => C45_opso _ _, ?_⟩
  refine words_moments opsoWord (fun p => (⟨2 * (p.1 / 2) + (if (p.2 : ℕ) < 10 then 1 else 0), by split <;> omega⟩,
    ⟨10 * (p.1 % 2) + p.2 % 10, by omega⟩)) ?_ (fun src t => opsoWord_lt src t) ?_
  · rintro ⟨t, j⟩ ⟨t', j'⟩ h
    simp only [Prod.mk.injEq, Fin.mk.injEq] at h
    have : (t : ℕ) = t' ∧ (j : ℕ) = j' := by
      obtain ⟨h1, h2⟩ := h
      split at h1 <;> split at h1 <;> omega
    exact Prod.ext (Fin.ext this.1) (Fin.ext this.2)
  · intro b t j
    rw [opsoWord, show 1024 = 2 ^ 10 from rfl, Nat.testBit_two_pow_mul_add _ (field_lt _ _ _), testBit_field, testBit_field]
    have hb := bitSrc_getLsbD hr' b
    rw [← hb]
    simp only
    by_cases hj : (j : ℕ) < 10
    · rw [if_pos hj, if_pos hj, Nat.mod_eq_of_lt hj]; simp [hj]
    · rw [if_neg hj, if_neg hj, show (j : ℕ) % 10 = j - 10 from by omega]
      simp [show (j : ℕ) - 10 < 10 from by omega]

/-- **C83.** The same for the oqso test, for draws of 30, 31 or 32 bits. -/
theorem C83_oqso (r k n : Nat) (hr : 30 ≤ r) (hr' : r ≤ 32) (hk : n + 3 ≤ k) :
    ∃ X : (Fin k × Fin r → Bool) → ℕ, (∀ b, oqso (bitSrc b) n = .ok (X b)) ∧
      mean (fun b => (X b : ℝ)) = 2 ^ 20 * (1 - 1 / 2 ^ 20) ^ n ∧
      var (fun b => (X b : ℝ)) = 2 ^ 20 * (1 - 1 / 2 ^ 20) ^ n + 2 ^ 20 * (2 ^ 20 - 1) * (1 - 2 / 2 ^ 20) ^ n -
        (2 ^ 20 * (1 - 1 / 2 ^ 20) ^ n) ^ 2 := by
  refine ⟨fun b => missing (2 ^ 20) ((List.range n).map (oqsoWord (bitSrc b))), fun b => C45_oqso _ _, ?_⟩
  refine words_moments oqsoWord (fun p => (⟨4 * (p.1 / 6) + (3 - p.2 / 5), by omega⟩,
    ⟨5 * (p.1 % 6) + p.2 % 5, by omega⟩)) ?_ (fun src t => oqsoWord_lt src t) ?_
  · rintro ⟨t, j⟩ ⟨t', j'⟩ h
    simp only [Prod.mk.injEq, Fin.mk.injEq] at h
    have : (t : ℕ) = t' ∧ (j : ℕ) = j' := by omega
    exact Prod.ext (Fin.ext this.1) (Fin.ext this.2)
  · intro b t j
    have hb := bitSrc_getLsbD hr' b
    rw [← hb]
    simp only [oqsoWord]
    have h5 : ∀ (a : Nat) {x : Nat} (i : Nat), x < 2 ^ 5 → (32 * a + x).testBit i = if i < 5 then x.testBit i else a.testBit (i - 5) :=
      fun a x i hx => Nat.testBit_two_pow_mul_add a hx i
    rw [h5 _ _ (field_lt _ _ _), h5 _ _ (field_lt _ _ _), h5 _ _ (field_lt _ _ _)]
    simp only [testBit_field]
    by_cases h1 : (j : ℕ) < 5
    · rw [if_pos h1, show (j : ℕ) / 5 = 0 from by omega, Nat.mod_eq_of_lt h1]; simp [h1]
    · rw [if_neg h1]
      by_cases h2 : (j : ℕ) - 5 < 5
      · rw [if_pos h2, show (j : ℕ) / 5 = 1 from by omega, show (j : ℕ) % 5 = j - 5 from by omega]; simp [h2]
      · rw [if_neg h2]
        by_cases h3 : (j : ℕ) - 5 - 5 < 5
        · rw [if_pos h3, show (j : ℕ) / 5 = 2 from by omega, show (j : ℕ) % 5 = j - 5 - 5 from by omega]; simp [h3]
        · have h4 : (j : ℕ) - 5 - 5 - 5 < 5 := by omega
          rw [if_neg h3, show (j : ℕ) / 5 = 3 from by omega, show (j : ℕ) % 5 = j - 5 - 5 - 5 from by omega]; simp [h4]

/-- **C83.** Both statistics of the opso2 test, for draws of at least 24 bits, are numbers of empty cells among `2^24`. -/
theorem C83_opso2 (r k n : Nat) (hr : 24 ≤ r) (hr' : r ≤ 32) (hk : n + 1 ≤ k) :
    ∃ X Y : (Fin k × Fin r → Bool) → ℕ, (∀ b, opso2 r (bitSrc b) n = .ok (some (X b, Y b))) ∧
      mean (fun b => (X b : ℝ)) = 2 ^ 24 * (1 - 1 / 2 ^ 24) ^ n ∧ mean (fun b => (Y b : ℝ)) = 2 ^ 24 * (1 - 1 / 2 ^ 24) ^ n ∧
      var (fun b => (X b : ℝ)) = 2 ^ 24 * (1 - 1 / 2 ^ 24) ^ n + 2 ^ 24 * (2 ^ 24 - 1) * (1 - 2 / 2 ^ 24) ^ n -
        (2 ^ 24 * (1 - 1 / 2 ^ 24) ^ n) ^ 2 ∧
      var (fun b => (Y b : ℝ)) = 2 ^ 24 * (1 - 1 / 2 ^ 24) ^ n + 2 ^ 24 * (2 ^ 24 - 1) * (1 - 2 / 2 ^ 24) ^ n -
        (2 ^ 24 * (1 - 1 / 2 ^ 24) ^ n) ^ 2 := by
  have hX := words_moments (k := k) (r := r) (m := 24) (n := n) opso2Low (fun p => (⟨p.1, by omega⟩, ⟨p.2, by omega⟩))
    (by
      rintro ⟨t, j⟩ ⟨t', j'⟩ h
      simp only [Prod.mk.injEq, Fin.mk.injEq] at h
      exact Prod.ext (Fin.ext h.1) (Fin.ext h.2))
    (fun src t => field_lt _ _ _)
    (by
      intro b t j
      have hb := bitSrc_getLsbD hr' b
      rw [← hb, opso2Low, testBit_field]
      simp)
  have hY := words_moments (k := k) (r := r) (m := 24) (n := n) opso2Pair
    (fun p => (⟨2 * (p.1 / 2) + (if (p.2 : ℕ) < 12 then 1 else 0), by split <;> omega⟩, ⟨12 * (p.1 % 2) + p.2 % 12, by omega⟩))
    (by
      rintro ⟨t, j⟩ ⟨t', j'⟩ h
      simp only [Prod.mk.injEq, Fin.mk.injEq] at h
      have : (t : ℕ) = t' ∧ (j : ℕ) = j' := by
        obtain ⟨h1, h2⟩ := h
        split at h1 <;> split at h1 <;> omega
      exact Prod.ext (Fin.ext this.1) (Fin.ext this.2))
    opso2Pair_lt
    (by
      intro b t j
      have hb := bitSrc_getLsbD hr' b
      rw [← hb, opso2Pair, show 4096 = 2 ^ 12 from rfl, Nat.testBit_two_pow_mul_add _ (field_lt _ _ _), testBit_field, testBit_field]
      simp only
      by_cases hj : (j : ℕ) < 12
      · rw [if_pos hj, if_pos hj, Nat.mod_eq_of_lt hj]; simp [hj]
      · rw [if_neg hj, if_neg hj, show (j : ℕ) % 12 = j - 12 from by omega]
        simp [show (j : ℕ) - 12 < 12 from by omega])
  exact ⟨_, _, fun b => C45_opso2 r hr _ _, hX.1, hY.1, hX.2, hY.2⟩

/-! ### The constants in the code -/

/-- Repeated squaring with rounding to multiples of `2^-160`. -/
def sqBounds : Nat → Nat × Nat → Nat × Nat
  | 0, p => p
  | k + 1, p => sqBounds k (p.1 * p.1 / 2 ^ 160, p.2 * p.2 / 2 ^ 160 + 1)

theorem sqBounds_spec : ∀ (k : Nat) (p : Nat × Nat) (x : ℝ), 0 ≤ x → (p.1 : ℝ) ≤ x * 2 ^ 160 → x * 2 ^ 160 ≤ p.2 →
    ((sqBounds k p).1 : ℝ) ≤ x ^ 2 ^ k * 2 ^ 160 ∧ x ^ 2 ^ k * 2 ^ 160 ≤ (sqBounds k p).2
  | 0, p, x, _, h1, h2 => by simpa [sqBounds] using ⟨h1, h2⟩
  | k + 1, p, x, hx, h1, h2 => by
    have hS : (0 : ℝ) < 2 ^ 160 := by positivity
    rw [sqBounds, pow_succ 2 k, mul_comm (2 ^ k) 2, pow_mul]
    refine sqBounds_spec k _ (x ^ 2) (by positivity) ?_ ?_
    · refine le_trans Nat.cast_div_le ?_
      rw [Nat.cast_mul, Nat.cast_pow, Nat.cast_ofNat, div_le_iff₀ hS]
      calc (p.1 : ℝ) * p.1 ≤ (x * 2 ^ 160) * (x * 2 ^ 160) := mul_self_le_mul_self (Nat.cast_nonneg _) h1
        _ = x ^ 2 * 2 ^ 160 * 2 ^ 160 := by ring
    · have h3 : p.2 * p.2 < (p.2 * p.2 / 2 ^ 160 + 1) * 2 ^ 160 := by
        have := Nat.div_add_mod (p.2 * p.2) (2 ^ 160)
        have := Nat.mod_lt (p.2 * p.2) (show 2 ^ 160 > 0 by positivity)
        linarith
      have h4 : ((p.2 * p.2 : ℕ) : ℝ) ≤ (((p.2 * p.2 / 2 ^ 160 + 1) * 2 ^ 160 : ℕ) : ℝ) := by exact_mod_cast h3.le
      rw [Nat.cast_mul, Nat.cast_mul, Nat.cast_pow, Nat.cast_ofNat] at h4
      have h5 : (x * 2 ^ 160) * (x * 2 ^ 160) ≤ (p.2 : ℝ) * p.2 := mul_self_le_mul_self (by positivity) h2
      have h6 : x ^ 2 * 2 ^ 160 * 2 ^ 160 ≤ ((p.2 * p.2 / 2 ^ 160 + 1 : ℕ) : ℝ) * 2 ^ 160 := by
        calc x ^ 2 * 2 ^ 160 * 2 ^ 160 = (x * 2 ^ 160) * (x * 2 ^ 160) := by ring
          _ ≤ _ := h5.trans h4
      exact le_of_mul_le_mul_right h6 hS

theorem pow_bounds (k lo hi p : Nat) (x : ℝ) (hx : x = p / 2 ^ 160) (h : sqBounds k (p, p) = (lo, hi)) :
    (lo : ℝ) / 2 ^ 160 ≤ x ^ 2 ^ k ∧ x ^ 2 ^ k ≤ hi / 2 ^ 160 := by
  have hS : (0 : ℝ) < 2 ^ 160 := by positivity
  have hp : x * 2 ^ 160 = p := by rw [hx, div_mul_cancel₀ _ hS.ne']
  have := sqBounds_spec k (p, p) x (by rw [hx]; positivity) hp.ge hp.le
  rw [h] at this
  exact ⟨by rw [div_le_iff₀ hS]; exact this.1, by rw [le_div_iff₀ hS]; exact this.2⟩

theorem bounds20_1 : (197792549409066726372065437532859201198991209500 : ℝ) / 2 ^ 160 ≤ (1 - 1 / 2 ^ 20 : ℝ) ^ 2 ^ 21 ∧
    (1 - 1 / 2 ^ 20 : ℝ) ^ 2 ^ 21 ≤ 197792549409066726372065437532859201198991387094 / 2 ^ 160 := by
  simpa only [Nat.cast_ofNat] using pow_bounds 21 197792549409066726372065437532859201198991209500
    197792549409066726372065437532859201198991387094 1461500243534328010039738486733890979133338419200 (1 - 1 / 2 ^ 20)
    (by norm_num) (by decide +kernel)

theorem bounds20_2 : (26768234111612484046125224745009233253392430823 : ℝ) / 2 ^ 160 ≤ (1 - 2 / 2 ^ 20 : ℝ) ^ 2 ^ 21 ∧
    (1 - 2 / 2 ^ 20 : ℝ) ^ 2 ^ 21 ≤ 26768234111612484046125224745009233253392454854 / 2 ^ 160 := by
  simpa only [Nat.cast_ofNat] using pow_bounds 21 26768234111612484046125224745009233253392430823
    26768234111612484046125224745009233253392454854 1461498849737753101875792140751498938610744295424 (1 - 2 / 2 ^ 20)
    (by norm_num) (by decide +kernel)

theorem bounds24_1 : (26768333033612283317768306939301655948170869803 : ℝ) / 2 ^ 160 ≤ (1 - 1 / 2 ^ 24 : ℝ) ^ 2 ^ 26 ∧
    (1 - 1 / 2 ^ 24 : ℝ) ^ 2 ^ 26 ≤ 26768333033612283317768306939301655948171791959 / 2 ^ 160 := by
  simpa only [Nat.cast_ofNat] using pow_bounds 26 26768333033612283317768306939301655948170869803
    26768333033612283317768306939301655948171791959 1461501550218616986443438186092383517123270410240 (1 - 1 / 2 ^ 24)
    (by norm_num) (by decide +kernel)

theorem bounds24_2 : (490278946159554760122174087758035795734164083 : ℝ) / 2 ^ 160 ≤ (1 - 2 / 2 ^ 24 : ℝ) ^ 2 ^ 26 ∧
    (1 - 2 / 2 ^ 24 : ℝ) ^ 2 ^ 26 ≤ 490278946159554760122174087758035795734178161 / 2 ^ 160 := by
  simpa only [Nat.cast_ofNat] using pow_bounds 26 490278946159554760122174087758035795734164083
    490278946159554760122174087758035795734178161 1461501463106331054683191539468484014590608277504 (1 - 2 / 2 ^ 24)
    (by norm_num) (by decide +kernel)

theorem var_bounds {N a b al ah bl bh : ℝ} (hN : 1 ≤ N) (h0 : 0 ≤ al) (ha : al ≤ a ∧ a ≤ ah) (hb : bl ≤ b ∧ b ≤ bh) :
    N * al + N * (N - 1) * bl - (N * ah) ^ 2 ≤ N * a + N * (N - 1) * b - (N * a) ^ 2 ∧
    N * a + N * (N - 1) * b - (N * a) ^ 2 ≤ N * ah + N * (N - 1) * bh - (N * al) ^ 2 := by
  have hN0 : 0 ≤ N := by linarith
  have hN1 : 0 ≤ N * (N - 1) := mul_nonneg hN0 (by linarith)
  have h1 := mul_le_mul_of_nonneg_left ha.1 hN0
  have h2 := mul_le_mul_of_nonneg_left ha.2 hN0
  have h3 := mul_le_mul_of_nonneg_left hb.1 hN1
  have h4 := mul_le_mul_of_nonneg_left hb.2 hN1
  have h5 : (N * al) ^ 2 ≤ (N * a) ^ 2 := pow_le_pow_left₀ (mul_nonneg hN0 h0) h1 2
  have h6 : (N * a) ^ 2 ≤ (N * ah) ^ 2 := pow_le_pow_left₀ (mul_nonneg hN0 (h0.trans ha.1)) h2 2
  constructor <;> linarith

/-- The mean and the standard deviation of `C83_opso` and `C83_oqso` for the `2^21` words these tests examine by default are
141909.1946 and 290.33306. -/
theorem moments20 :
    |2 ^ 20 * (1 - 1 / 2 ^ 20 : ℝ) ^ 2 ^ 21 - 141909.19462| < 0.00001 ∧
    |2 ^ 20 * (1 - 1 / 2 ^ 20 : ℝ) ^ 2 ^ 21 + 2 ^ 20 * (2 ^ 20 - 1) * (1 - 2 / 2 ^ 20) ^ 2 ^ 21 - (2 ^ 20 * (1 - 1 / 2 ^ 20) ^ 2 ^ 21) ^ 2 -
      84293.28642| < 0.00001 := by
  have ha := bounds20_1
  have hb := bounds20_2
  generalize (1 - 1 / 2 ^ 20 : ℝ) ^ 2 ^ 21 = a at *
  generalize (1 - 2 / 2 ^ 20 : ℝ) ^ 2 ^ 21 = b at *
  have hv := var_bounds (N := 2 ^ 20) (by norm_num) (by norm_num) ha hb
  rw [abs_lt, abs_lt]
  norm_num at ha hv ⊢
  refine ⟨⟨?_, ?_⟩, ?_, ?_⟩ <;> linarith

theorem moments24 :
    |2 ^ 24 * (1 - 1 / 2 ^ 24 : ℝ) ^ 2 ^ 26 - 307285.3931830163| < 0.0000000001 ∧
    |2 ^ 24 * (1 - 1 / 2 ^ 24 : ℝ) ^ 2 ^ 26 + 2 ^ 24 * (2 ^ 24 - 1) * (1 - 2 / 2 ^ 24) ^ 2 ^ 26 - (2 ^ 24 * (1 - 1 / 2 ^ 24) ^ 2 ^ 26) ^ 2 -
      279144.75639287828| < 0.0000000001 := by
  have ha := bounds24_1
  have hb := bounds24_2
  generalize (1 - 1 / 2 ^ 24 : ℝ) ^ 2 ^ 26 = a at *
  generalize (1 - 2 / 2 ^ 24 : ℝ) ^ 2 ^ 26 = b at *
  have hv := var_bounds (N := 2 ^ 24) (by norm_num) (by norm_num) ha hb
  rw [abs_lt, abs_lt]
  norm_num at ha hv ⊢
  refine ⟨⟨?_, ?_⟩, ?_, ?_⟩ <;> linarith

/-- The normal score `(y - x) / sigma` which `Xtest_eval` (Xtest.c:36) turns into the p-value has these moments. -/
theorem score_moments {Ω : Type*} [Fintype Ω] [Nonempty Ω] (X : Ω → ℝ) (y s : ℝ) :
    mean (fun ω => (y - X ω) / s) = (y - mean X) / s ∧ var (fun ω => (y - X ω) / s) = var X / s ^ 2 := by
  have h : mean (fun ω => (y - X ω) / s) = (y - mean X) / s := by
    rw [mean_div, mean_sub, mean_const]
  refine ⟨h, ?_⟩
  rw [var, var, h, ← mean_div]
  refine mean_congr fun ω => ?_
  rw [← sub_div, div_pow]
  ring

/-- **C83.** With the default `2^21` words and the constants of diehard_opso.c:74-75 the score of the opso test has, for independent
uniform draws, a mean between 0.00046 and 0.00047 and a variance between 0.9991 and 0.9992 (0 and 1 would be exact). -/
theorem C83_opso_score (r k : Nat) (hr : 20 ≤ r) (hr' : r ≤ 32) (hk : 2 ^ 21 + 1 ≤ k) :
    ∃ X : (Fin k × Fin r → Bool) → ℕ, (∀ b, opso (bitSrc b) (2 ^ 21) = .ok (X b)) ∧
      (0.00046 < mean (fun b => (141909.3299550069 - X b) / 290.4622634038) ∧
        mean (fun b => (141909.3299550069 - X b) / 290.4622634038) < 0.00047) ∧
      (0.9991 < var (fun b => (141909.3299550069 - X b) / 290.4622634038) ∧
        var (fun b => (141909.3299550069 - X b) / 290.4622634038) < 0.9992) := by
  obtain ⟨X, h1, h2, h3⟩ := C83_opso r k (2 ^ 21) hr hr' hk
  refine ⟨X, h1, ?_⟩
  obtain ⟨h4, h5⟩ := moments20
  obtain ⟨e1, e2⟩ := score_moments (fun b => (X b : ℝ)) 141909.3299550069 290.4622634038
  rw [e1, e2]
  rw [← h2] at h4
  rw [← h3] at h5
  rw [abs_lt] at h4 h5
  norm_num at h4 h5 ⊢
  refine ⟨⟨?_, ?_⟩, ?_, ?_⟩ <;> first | (rw [lt_div_iff₀ (by norm_num)]; linarith) | (rw [div_lt_iff₀ (by norm_num)]; linarith)

/-- **C83.** The words of the oqso test do not overlap, but `sigma` (diehard_oqso.c:60) is that of overlapping words: for independent
uniform draws the score has a mean between 0.0013 and 0.0014 and a variance below 0.971. -/
theorem C83_oqso_score (r k : Nat) (hr : 30 ≤ r) (hr' : r ≤ 32) (hk : 2 ^ 21 + 3 ≤ k) :
    ∃ X : (Fin k × Fin r → Bool) → ℕ, (∀ b, oqso (bitSrc b) (2 ^ 21) = .ok (X b)) ∧
      (0.0013 < mean (fun b => (141909.6005321316 - X b) / 294.6558723658) ∧
        mean (fun b => (141909.6005321316 - X b) / 294.6558723658) < 0.0014) ∧
      (0.9708 < var (fun b => (141909.6005321316 - X b) / 294.6558723658) ∧
        var (fun b => (141909.6005321316 - X b) / 294.6558723658) < 0.971) := by
  obtain ⟨X, h1, h2, h3⟩ := C83_oqso r k (2 ^ 21) hr hr' hk
  refine ⟨X, h1, ?_⟩
  obtain ⟨h4, h5⟩ := moments20
  obtain ⟨e1, e2⟩ := score_moments (fun b => (X b : ℝ)) 141909.6005321316 294.6558723658
  rw [e1, e2]
  rw [← h2] at h4
  rw [← h3] at h5
  rw [abs_lt] at h4 h5
  norm_num at h4 h5 ⊢
  refine ⟨⟨?_, ?_⟩, ?_, ?_⟩ <;> first | (rw [lt_div_iff₀ (by norm_num)]; linarith) | (rw [div_lt_iff₀ (by norm_num)]; linarith)

/-- **C83.** The constants of the opso2 test (dab_opso2.c:74-75) are exact to nine digits. -/
theorem C83_opso2_score (r k : Nat) (hr : 24 ≤ r) (hr' : r ≤ 32) (hk : 2 ^ 26 + 1 ≤ k) :
    ∃ X Y : (Fin k × Fin r → Bool) → ℕ, (∀ b, opso2 r (bitSrc b) (2 ^ 26) = .ok (some (X b, Y b))) ∧
      |mean (fun b => (307285.393182468 - X b) / 528.341514924662)| < 0.00000001 ∧
      |mean (fun b => (307285.393182468 - Y b) / 528.341514924662)| < 0.00000001 ∧
      |var (fun b => (307285.393182468 - X b) / 528.341514924662) - 1| < 0.0000000001 ∧
      |var (fun b => (307285.393182468 - Y b) / 528.341514924662) - 1| < 0.0000000001 := by
  obtain ⟨X, Y, h1, h2, h2', h3, h3'⟩ := C83_opso2 r k (2 ^ 26) hr hr' hk
  refine ⟨X, Y, h1, ?_⟩
  obtain ⟨h4, h5⟩ := moments24
  obtain ⟨e1, e2⟩ := score_moments (fun b => (X b : ℝ)) 307285.393182468 528.341514924662
  obtain ⟨e3, e4⟩ := score_moments (fun b => (Y b : ℝ)) 307285.393182468 528.341514924662
  rw [e1, e2, e3, e4, h2, h2', h3, h3']
  generalize 2 ^ 24 * (1 - 1 / 2 ^ 24 : ℝ) ^ 2 ^ 26 + 2 ^ 24 * (2 ^ 24 - 1) * (1 - 2 / 2 ^ 24) ^ 2 ^ 26 -
    (2 ^ 24 * (1 - 1 / 2 ^ 24) ^ 2 ^ 26) ^ 2 = V at *
  generalize 2 ^ 24 * (1 - 1 / 2 ^ 24 : ℝ) ^ 2 ^ 26 = M at *
  have hm : |(307285.393182468 - M) / 528.341514924662| < 0.00000001 := by
    rw [abs_lt] at h4 ⊢
    norm_num at h4 ⊢
    constructor
    · rw [lt_div_iff₀ (by norm_num)]; linarith
    · rw [div_lt_iff₀ (by norm_num)]; linarith
  have hv : |V / 528.341514924662 ^ 2 - 1| < 0.0000000001 := by
    rw [abs_lt] at h5 ⊢
    norm_num at h5 ⊢
    constructor
    · rw [← sub_lt_iff_lt_add', lt_div_iff₀ (by norm_num)]; linarith
    · rw [sub_lt_iff_lt_add, div_lt_iff₀ (by norm_num)]; linarith
  exact ⟨hm, hm, hv, hv⟩

/-- Two draws of one letter each into two cells: all four outcomes are equally likely, the number of empty cells has mean 1/2. -/
example : mean (fun X : Fin 2 → Bool => (missCount X : ℝ)) = 1 / 2 ∧ missCount ![true, true] = 1 ∧ missCount ![false, true] = 0 := by
  refine ⟨?_, by decide, by decide⟩
  rw [missCount_mean]
  norm_num [Fintype.card_bool]

/-- All values the two-bit draws can take. -/
example : bitSrc (k := 2) (r := 2) (fun p => p.1 = 1) 1 = 3 ∧ bitSrc (k := 2) (r := 2) (fun p => p.1 = 1) 0 = 0 := by decide

end Dh
