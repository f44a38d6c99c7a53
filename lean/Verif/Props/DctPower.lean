import Verif.Props.Dct
import Verif.Props.Operm5Power
/-
C155: what dab_dct always finds.
-/
namespace Dh
open Spec

theorem gammaTail_exp {a c : ℝ} (ha : 0 < a) (hc0 : 0 ≤ c) (x : ℝ) (hc : c ≤ x) :
    0 ≤ gammaTail a (x / 2) ∧ gammaTail a (x / 2) ≤ Real.exp (a * 0.6931471808 - c / 4) := by
  refine ⟨(C138_tail ha).2.1 _ (by linarith), ?_⟩
  refine ((C138_tail ha).2.2 (c / 2) _ (by linarith) (by linarith)).trans
    (((C138_chernoff ha (by linarith) (1 / 2) (by norm_num)).1 (by norm_num)).trans ?_)
  rw [show (1 : ℝ) / (1 - 1 / 2) = 2 by norm_num, Real.rpow_def_of_pos (by norm_num), ← Real.exp_add]
  have hl := mul_le_mul_of_nonneg_left Real.log_two_lt_d9.le ha.le
  refine Real.exp_le_exp.2 ?_
  linarith

theorem half_places (n len : Nat) (hlen : 0 < len) (hn : 0 < n) (peak : ℕ → ℕ) (hp : ∀ j < n, peak j < len) (S : Finset ℕ) (hS : 2 * S.card ≤ len)
    (hin : ∀ j < n, peak j ∈ S) :
    (n : ℝ) ≤ ∑ k ∈ Finset.range len, ((((Finset.range n).filter fun j => peak j = k).card : ℝ) - n / len) ^ 2 / (n / len) := by
  have hl : (0 : ℝ) < len := by exact_mod_cast hlen
  have hnn : (0 : ℝ) < n := by exact_mod_cast hn
  have he : (0 : ℝ) < n / len := by positivity
  have htot : ∑ k ∈ Finset.range len, (((Finset.range n).filter fun j => peak j = k).card : ℝ) = n := by
    have := Finset.card_eq_sum_card_fiberwise (f := peak) (s := Finset.range n) (t := Finset.range len)
      fun j hj => Finset.mem_coe.2 (Finset.mem_range.2 (hp j (Finset.mem_range.1 (Finset.mem_coe.1 hj))))
    rw [Finset.card_range] at this
    exact_mod_cast this.symm
  have hpt : ∀ k ∈ Finset.range len, 2 * (((Finset.range n).filter fun j => peak j = k).card : ℝ) + n / len - (if k ∈ S then 4 * ((n : ℝ) / len) else 0) ≤
      ((((Finset.range n).filter fun j => peak j = k).card : ℝ) - n / len) ^ 2 / (n / len) := by
    intro k _
    rw [le_div_iff₀ he]
    by_cases hk : k ∈ S
    · rw [if_pos hk]
      nlinarith [sq_nonneg ((((Finset.range n).filter fun j => peak j = k).card : ℝ) - 2 * (n / len))]
    · rw [if_neg hk]
      have h0 : ((Finset.range n).filter fun j => peak j = k).card = 0 := by
        rw [Finset.card_eq_zero, Finset.filter_eq_empty_iff]
        intro j hj e
        exact hk (e ▸ hin j (Finset.mem_range.1 hj))
      rw [h0]
      push_cast
      nlinarith
  refine le_trans ?_ (Finset.sum_le_sum hpt)
  rw [Finset.sum_sub_distrib, Finset.sum_add_distrib, ← Finset.mul_sum, htot, Finset.sum_const, Finset.card_range, nsmul_eq_mul,
    ← Finset.sum_filter, Finset.sum_const, nsmul_eq_mul]
  have hc : 2 * (((Finset.range len).filter (· ∈ S)).card : ℝ) ≤ len := by
    have : ((Finset.range len).filter (· ∈ S)).card ≤ S.card := Finset.card_le_card fun k hk => (Finset.mem_filter.1 hk).2
    exact_mod_cast (Nat.mul_le_mul_left 2 this).trans hS
  have e1 : (len : ℝ) * (n / len) = n := by field_simp
  have e2 := mul_le_mul_of_nonneg_right hc he.le
  rw [e1] at e2
  rw [e1]
  linarith

/-- **C155, few places.**  If the largest coefficients of the blocks of a run are found at no more than half of the `len` places, the
p-value of `dab_dct` is at most `exp(-0.9 len)`, which is below `10⁻¹⁰⁰` for the default length 256. -/
theorem C155_places (cdf : ℝ → ℝ → ℝ) (kstest : List ℝ → ℝ) (masked : Bool) (r : Nat) (src : Src) (ntuple len n : Nat)
    (input0 : List UInt) (dct0 pv0 : List ℝ) (hr0 : 0 < r) (hr : r ≤ 32) (hm : masked = true ∨ r < 32) (hw : Width r src)
    (hnt : len = if ntuple = 0 then 256 else ntuple) (hlen : (∃ e, len = 2 ^ e) ∨ len ≤ 4) (hl2 : 2 ≤ len) (hn : 12 ≤ n) (h5 : 5 * len < n)
    (hi : input0.length = len) (hd : dct0.length = len) (S : Finset ℕ) (hS : 2 * S.card ≤ len)
    (hin : ∀ j < n, ∀ k, IsPeak (dctAdjusted r (fun i => dctBlock r n len src j i) len) len k → k ∈ S) :
    ∃ p, dabDct cdf gammaTail kstest masked r (BitVec.ofNat 32 (2 ^ r - 1)) src ntuple n input0 dct0 pv0 = .ok p ∧ 0 ≤ p ∧ p ≤ Real.exp (-(0.9 * len)) := by
  obtain ⟨peak, h1, h2⟩ := C73_dct cdf gammaTail kstest masked r src ntuple len n input0 dct0 pv0 hr0 hr hm hw hnt hlen hn h5 hi hd
  have hc := half_places n len (by omega) (by omega) peak (fun j hj => (h1 j hj).1) S hS fun j hj => hin j hj _ (h1 j hj)
  have hl : (2 : ℝ) ≤ len := by exact_mod_cast hl2
  have h5' : 5 * (len : ℝ) ≤ n := by exact_mod_cast h5.le
  obtain ⟨h3, h4⟩ := gammaTail_exp (a := ((len : ℝ) - 1) / 2) (c := n) (by linarith) (by positivity) _ hc
  refine ⟨_, h2, h3, h4.trans (Real.exp_le_exp.2 ?_)⟩
  linarith

/-- **C155, periods.**  So it is on every generator whose period divides the length of the blocks, 16 or more: the blocks are equal
but for the rotation, and there are at most five rotations. -/
theorem C155_period (cdf : ℝ → ℝ → ℝ) (kstest : List ℝ → ℝ) (masked : Bool) (r : Nat) (src : Src) (ntuple len n T : Nat)
    (input0 : List UInt) (dct0 pv0 : List ℝ) (hr0 : 0 < r) (hr : r ≤ 32) (hm : masked = true ∨ r < 32) (hw : Width r src)
    (hnt : len = if ntuple = 0 then 256 else ntuple) (hlen : ∃ e, len = 2 ^ e) (hl : 16 ≤ len) (h5 : 5 * len < n)
    (hi : input0.length = len) (hd : dct0.length = len) (hT : T ∣ len) (h : ∀ k, src (k + T) = src k) :
    ∃ p, dabDct cdf gammaTail kstest masked r (BitVec.ofNat 32 (2 ^ r - 1)) src ntuple n input0 dct0 pv0 = .ok p ∧ 0 ≤ p ∧ p ≤ Real.exp (-(0.9 * len)) := by
  obtain ⟨peak, h1, -⟩ := C73_dct cdf gammaTail kstest masked r src ntuple len n input0 dct0 pv0 hr0 hr hm hw hnt (.inl hlen) (by omega) h5 hi hd
  refine C155_places cdf kstest masked r src ntuple len n input0 dct0 pv0 hr0 hr hm hw hnt (.inl hlen) (by omega) (by omega) h5 hi hd
    ((Finset.range 5).image fun q => peak (q * (n / 4))) ?_ fun j hj k hk => ?_
  · have : ((Finset.range 5).image fun q => peak (q * (n / 4))).card ≤ 5 := Finset.card_image_le.trans (by rw [Finset.card_range])
    omega
  · have hq0 : 0 < n / 4 := by omega
    have hq5 : j / (n / 4) < 5 := by
      rw [Nat.div_lt_iff_lt_mul hq0]
      omega
    refine Finset.mem_image.2 ⟨j / (n / 4), Finset.mem_range.2 hq5, ?_⟩
    have hper : ∀ m k, src (k + T * m) = src k := by
      intro m
      induction m with
      | zero => exact fun _ => rfl
      | succ m ih => intro k; rw [show k + T * (m + 1) = k + T * m + T by ring, h, ih]
    obtain ⟨q, hq⟩ := hT
    have hsrc : ∀ j i, src (j * len + i) = src i := fun j i => by
      rw [show j * len + i = i + T * (q * j) by rw [hq]; ring, hper]
    have hb : (fun i => (dctBlock r n len src (j / (n / 4) * (n / 4)) i : ℝ)) = fun i => (dctBlock r n len src j i : ℝ) := by
      funext i
      rw [dctBlock, dctBlock, hsrc, hsrc, Nat.mul_div_cancel _ hq0]
    have h3 := h1 (j / (n / 4) * (n / 4)) (lt_of_le_of_lt (Nat.div_mul_le_self _ _) hj)
    rw [hb] at h3
    exact h3.unique hk

/-- **C155, slow generators.**  And so it is on every generator that is constant within each block, whatever the values are from
block to block: all coefficients but the first are 0. -/
theorem C155_slow (cdf : ℝ → ℝ → ℝ) (kstest : List ℝ → ℝ) (masked : Bool) (r : Nat) (src : Src) (ntuple len n : Nat)
    (input0 : List UInt) (dct0 pv0 : List ℝ) (hr0 : 0 < r) (hr : r ≤ 32) (hm : masked = true ∨ r < 32) (hw : Width r src)
    (hnt : len = if ntuple = 0 then 256 else ntuple) (hlen : (∃ e, len = 2 ^ e) ∨ len ≤ 4) (hl2 : 2 ≤ len) (hn : 12 ≤ n) (h5 : 5 * len < n)
    (hi : input0.length = len) (hd : dct0.length = len) (h : ∀ j < n, ∀ i < len, src (j * len + i) = src (j * len)) :
    ∃ p, dabDct cdf gammaTail kstest masked r (BitVec.ofNat 32 (2 ^ r - 1)) src ntuple n input0 dct0 pv0 = .ok p ∧ 0 ≤ p ∧ p ≤ Real.exp (-(0.9 * len)) := by
  refine C155_places cdf kstest masked r src ntuple len n input0 dct0 pv0 hr0 hr hm hw hnt hlen hl2 hn h5 hi hd {0} (by simpa using hl2) fun j hj k hk => ?_
  rw [Finset.mem_singleton]
  refine hk.unique ⟨by omega, fun i hi => ?_, by omega⟩
  rcases Nat.eq_zero_or_pos i with rfl | hpos
  · exact le_refl _
  · have : dctAdjusted r (fun i => (dctBlock r n len src j i : ℝ)) len i = 0 := by
      rw [dctAdjusted, if_neg (by omega), dctCoeff]
      have e : ∀ t ∈ Finset.range len, (dctBlock r n len src j t : ℝ) = (dctBlock r n len src j 0 : ℝ) := fun t ht => by
        rw [dctBlock, dctBlock, h j hj t (Finset.mem_range.1 ht), Nat.add_zero]
      rw [Finset.sum_congr rfl fun t ht => by rw [e t ht], ← Finset.mul_sum]
      have := cos_sum_zero len i (by omega) (by omega) (by omega)
      push_cast at this
      rw [this, mul_zero]
    rw [this, abs_zero]
    exact abs_nonneg _

/-- A whole test (with `-p`, for any number of p-values) then fails too. -/
theorem C155_fails (cdf : ℝ → ℝ → ℝ) (kstest : List ℝ → ℝ) (masked : Bool) (r : Nat) (ntuple len n : Nat)
    (input0 : List UInt) (dct0 pv0 : List ℝ) (hr0 : 0 < r) (hr : r ≤ 32) (hm : masked = true ∨ r < 32)
    (hnt : len = if ntuple = 0 then 256 else ntuple) (hlen : ∃ e, len = 2 ^ e) (hl : 16 ≤ len) (h5 : 5 * len < n)
    (hi : input0.length = len) (hd : dct0.length = len) (srcs : List Src)
    (h : ∀ src ∈ srcs, Width r src ∧ ∃ S : Finset ℕ, 2 * S.card ≤ len ∧
      ∀ j < n, ∀ k, IsPeak (dctAdjusted r (fun i => dctBlock r n len src j i) len) len k → k ∈ S) :
    ∃ ps : List ℝ, srcs.map (fun src => dabDct cdf gammaTail kstest masked r (BitVec.ofNat 32 (2 ^ r - 1)) src ntuple n input0 dct0 pv0) =
      ps.map .ok ∧ FailsLow ps := by
  obtain ⟨ps, h1, h2⟩ := runs_exist (fun src => dabDct cdf gammaTail kstest masked r (BitVec.ofNat 32 (2 ^ r - 1)) src ntuple n input0 dct0 pv0)
    (fun p => 0 ≤ p ∧ p ≤ 0.0004) srcs fun src hs => by
      obtain ⟨hw, S, hS, hin⟩ := h src hs
      obtain ⟨p, h3, h4, h6⟩ := C155_places cdf kstest masked r src ntuple len n input0 dct0 pv0 hr0 hr hm hw hnt (.inl hlen) (by omega) (by omega) h5 hi hd S hS hin
      have hl' : (16 : ℝ) ≤ len := by exact_mod_cast hl
      exact ⟨p, h3, h4, h6.trans (exp_small (by linarith))⟩
  exact ⟨ps, h1, C137_low ps h2⟩

/-- A counter of bytes has period 256, the default length. -/
example (cdf : ℝ → ℝ → ℝ) (kstest : List ℝ → ℝ) (input0 : List UInt) (dct0 pv0 : List ℝ) (hi : input0.length = 256) (hd : dct0.length = 256) :
    ∃ p, dabDct cdf gammaTail kstest false 8 (BitVec.ofNat 32 (2 ^ 8 - 1)) (fun k => BitVec.ofNat 32 (k % 256)) 0 50000 input0 dct0 pv0 = .ok p ∧
      0 ≤ p ∧ p ≤ Real.exp (-(0.9 * (256 : ℕ))) :=
  C155_period cdf kstest false 8 _ 0 256 50000 256 input0 dct0 pv0 (by omega) (by omega) (.inr (by omega))
    (fun k i hi => by
      rw [BitVec.getLsbD_ofNat]
      simp only [Bool.and_eq_false_iff]
      exact .inr (Nat.testBit_lt_two_pow (lt_of_lt_of_le (Nat.mod_lt _ (by norm_num)) (Nat.pow_le_pow_right (n := 2) (by omega) hi)))) rfl ⟨8, rfl⟩ (by omega)
    (by omega) hi hd (dvd_refl _) fun k => by rw [Nat.add_mod_right]

/-- A generator that gives each value of a 31-bit counter 256 times. -/
example (cdf : ℝ → ℝ → ℝ) (kstest : List ℝ → ℝ) (input0 : List UInt) (dct0 pv0 : List ℝ) (hi : input0.length = 256) (hd : dct0.length = 256) :
    ∃ p, dabDct cdf gammaTail kstest false 31 (BitVec.ofNat 32 (2 ^ 31 - 1)) (fun k => BitVec.ofNat 32 (k / 256 % 2 ^ 31)) 0 50000 input0 dct0 pv0 = .ok p ∧
      0 ≤ p ∧ p ≤ Real.exp (-(0.9 * (256 : ℕ))) :=
  C155_slow cdf kstest false 31 _ 0 256 50000 input0 dct0 pv0 (by omega) (by omega) (.inr (by omega))
    (fun k i hi => by
      rw [BitVec.getLsbD_ofNat]
      simp only [Bool.and_eq_false_iff]
      exact .inr (Nat.testBit_lt_two_pow (lt_of_lt_of_le (Nat.mod_lt _ (by norm_num)) (Nat.pow_le_pow_right (n := 2) (by omega) hi)))) rfl (.inl ⟨8, rfl⟩) (by omega)
    (by omega) (by omega) hi hd fun j _ i hi => by rw [show (j * 256 + i) / 256 = j * 256 / 256 by omega]

end Dh
