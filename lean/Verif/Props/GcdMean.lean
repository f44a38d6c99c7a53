import Verif.Model.GcdStat
import Verif.Proof.GcdLaw
import Verif.Proof.IidTrials
import Verif.Props.SmallTests
import Mathlib.Data.List.GetD
/-
C92: the chi-square test of the greatest common divisors, on random pairs.
-/
namespace Dh
open Spec

namespace Spec

/-- The probability the test gives to the cell `c` of a table of size `g`, for `2 ≤ c`: the last cell stands for all greater values, up to
99999. -/
def gcdHyp (g c : Nat) : ℚ := if c = g - 1 then ∑ j ∈ Finset.Ico c 100000, gnorm / (j : ℚ) ^ 2 else gnorm / (c : ℚ) ^ 2

end Spec

theorem gnorm_pos : 0 < gnorm := by norm_num [gnorm, gcdPi]

theorem gcdTail_eq (n : Nat) : ∀ todo j y, gcdTail n todo j y = y + ∑ i ∈ Finset.Ico j (j + todo), (n : ℚ) * (gnorm / (i : ℚ) ^ 2)
  | 0, j, y => by simp [gcdTail]
  | todo + 1, j, y => by
    rw [gcdTail, gcdTail_eq n todo, Finset.sum_eq_sum_Ico_succ_bot (by omega : j < j + (todo + 1)), show j + 1 + todo = j + (todo + 1) by omega]
    ring

/-- The size of the table. -/
theorem gcdSize_spec (n : Nat) : 100 * ((gcdSize n : ℚ)) ^ 2 ≤ n * gnorm ∧ (n : ℚ) * gnorm < 100 * ((gcdSize n : ℚ) + 1) ^ 2 := by
  have h0 : (0 : ℚ) ≤ (n : ℚ) * gnorm / 100 := by have := gnorm_pos; positivity
  have h1 := Nat.sqrt_le' (Nat.floor ((n : ℚ) * gnorm / 100))
  have h2 := Nat.lt_succ_sqrt' (Nat.floor ((n : ℚ) * gnorm / 100))
  have h3 := Nat.floor_le h0
  have h4 := Nat.lt_floor_add_one ((n : ℚ) * gnorm / 100)
  have h5 : ((gcdSize n : ℚ)) ^ 2 ≤ (Nat.floor ((n : ℚ) * gnorm / 100) : ℚ) := by exact_mod_cast h1
  have h6 : (Nat.floor ((n : ℚ) * gnorm / 100) : ℚ) + 1 ≤ ((gcdSize n : ℚ) + 1) ^ 2 := by exact_mod_cast h2
  constructor <;> linarith

theorem gcdSize_lt {n : Nat} (hn : n < 2 ^ 32) : gcdSize n < 5112 := by
  by_contra h
  have h1 : (5112 : ℚ) ≤ gcdSize n := by exact_mod_cast not_lt.1 h
  have h2 := (gcdSize_spec n).1
  have h3 : (n : ℚ) < 2 ^ 32 := by exact_mod_cast hn
  have h4 : gnorm < 0.6080 := by norm_num [gnorm, gcdPi]
  nlinarith [gnorm_pos]

theorem gcdCells_spec (n g : Nat) (gcd : List Nat) (hg : gcd.length = g) (h3 : 3 ≤ g) (hg2 : g < 65536) : ∀ todo i x y, i + todo = g → x.length = g → y.length = g →
    (∀ k, i ≤ k → y.getD k 0 = 0) →
    ∃ x' y', gcdCells n g gcd todo i x y = .ok (x', y') ∧ x'.length = g ∧ y'.length = g ∧
      (∀ k < g, x'.getD k 0 = if k < i then x.getD k 0 else if k ≤ 1 then 0 else (gcd.getD k 0 : ℚ)) ∧
      ∀ k < g, y'.getD k 0 = if k < i then y.getD k 0 else if k ≤ 1 then 0 else (n : ℚ) * gcdHyp g k
  | 0, i, x, y, hi, hx, hy, _ => ⟨x, y, rfl, hx, hy, fun k hk => by rw [if_pos (by omega)], fun k hk => by rw [if_pos (by omega)]⟩
  | todo + 1, i, x, y, hi, hx, hy, h0 => by
    have key : ∀ (a b : ℚ), (i ≤ 1 → a = 0 ∧ b = 0) → (1 < i → a = (gcd.getD i 0 : ℚ) ∧ b = (n : ℚ) * gcdHyp g i) →
        ∃ x' y', gcdCells n g gcd todo (i + 1) (x.set i a) (y.set i b) = .ok (x', y') ∧ x'.length = g ∧ y'.length = g ∧
      (∀ k < g, x'.getD k 0 = if k < i then x.getD k 0 else if k ≤ 1 then 0 else (gcd.getD k 0 : ℚ)) ∧
      ∀ k < g, y'.getD k 0 = if k < i then y.getD k 0 else if k ≤ 1 then 0 else (n : ℚ) * gcdHyp g k := by
      intro a b hlo hhi
      obtain ⟨x', y', e, l1, l2, hx', hy'⟩ := gcdCells_spec n g gcd hg h3 hg2 todo (i + 1) (x.set i a) (y.set i b) (by omega) (by simpa using hx)
        (by simpa using hy) (fun k hk => by
          rw [getD_set _ _ _ _ (by omega), if_neg (by omega)]
          exact h0 k (by omega))
      refine ⟨x', y', e, l1, l2, fun k hk => ?_, fun k hk => ?_⟩
      · rw [hx' k hk, getD_set _ _ _ _ (by omega)]
        by_cases hki : k = i
        · subst hki
          rw [if_pos (by omega), if_pos rfl, if_neg (by omega)]
          by_cases h1 : k ≤ 1
          · rw [if_pos h1, (hlo h1).1]
          · rw [if_neg h1, (hhi (by omega)).1]
        · rw [if_neg hki]
          by_cases hlt : k < i
          · rw [if_pos (by omega), if_pos hlt]
          · rw [if_neg (by omega), if_neg hlt]
      · rw [hy' k hk, getD_set _ _ _ _ (by omega)]
        by_cases hki : k = i
        · subst hki
          rw [if_pos (by omega), if_pos rfl, if_neg (by omega)]
          by_cases h1 : k ≤ 1
          · rw [if_pos h1, (hlo h1).2]
          · rw [if_neg h1, (hhi (by omega)).2]
        · rw [if_neg hki]
          by_cases hlt : k < i
          · rw [if_pos (by omega), if_pos hlt]
          · rw [if_neg (by omega), if_neg hlt]
    rw [gcdCells]
    by_cases h1 : i > 1
    · rw [if_pos h1, rd_ok (by omega), Res.bind_ok, wr, if_pos (by omega), Res.bind_ok]
      have hgi : gcd[i]'(by omega) = gcd.getD i 0 := by rw [List.getD_eq_getElem]
      by_cases hl : i = g - 1
      · rw [if_pos hl, rd_ok (by omega), Res.bind_ok, wr, if_pos (by omega), Res.bind_ok]
        refine key _ _ (by omega) fun _ => ⟨by rw [hgi], ?_⟩
        have hyi : y[i]'(by omega) = 0 := by rw [← h0 i le_rfl, List.getD_eq_getElem]
        rw [hyi, gcdTail_eq, gcdHyp, if_pos hl, zero_add, Finset.mul_sum]
        rw [show i + (100000 - i) = 100000 by omega]
      · rw [if_neg hl, wr, if_pos (by omega), Res.bind_ok]
        refine key _ _ (by omega) fun _ => ⟨by rw [hgi], ?_⟩
        rw [gcdHyp, if_neg hl, Nat.mod_eq_of_lt (by nlinarith)]
        push_cast
        ring
    · rw [if_neg h1, wr, if_pos (by omega), Res.bind_ok, wr, if_pos (by omega), Res.bind_ok]
      exact key 0 0 (fun _ => ⟨rfl, rfl⟩) (by omega)

theorem inv_sq_ge (a b : Nat) (ha : 1 ≤ a) (hab : a ≤ b) : (1 : ℚ) / a - 1 / b ≤ ∑ j ∈ Finset.Ico a b, 1 / (j : ℚ) ^ 2 := by
  induction b, hab using Nat.le_induction with
  | base => simp
  | succ b hb ih =>
    rw [Finset.sum_Ico_succ_top hb]
    have hb' : (0 : ℚ) < b := by exact_mod_cast (by omega : 0 < b)
    have : (1 : ℚ) / b - 1 / (b + 1 : ℕ) ≤ 1 / (b : ℚ) ^ 2 := by
      push_cast
      rw [div_sub_div _ _ hb'.ne' (by positivity), div_le_div_iff₀ (by positivity) (by positivity)]
      nlinarith
    linarith

theorem inv_sq_le (a b : Nat) (ha : 1 ≤ a) (hab : a ≤ b) : ∑ j ∈ Finset.Ico (a + 1) (b + 1), 1 / (j : ℚ) ^ 2 ≤ (1 : ℚ) / a - 1 / b := by
  induction b, hab using Nat.le_induction with
  | base => simp
  | succ b hb ih =>
    rw [Finset.sum_Ico_succ_top (by omega)]
    have hb' : (0 : ℚ) < b := by exact_mod_cast (by omega : 0 < b)
    have : 1 / ((b + 1 : ℕ) : ℚ) ^ 2 ≤ (1 : ℚ) / b - 1 / (b + 1 : ℕ) := by
      push_cast
      rw [div_sub_div _ _ hb'.ne' (by positivity), div_le_div_iff₀ (by positivity) (by positivity)]
      nlinarith
    linarith

theorem gcdHyp_last {g : Nat} (h3 : 3 ≤ g) (hg : g < 65536) :
    gnorm * (1 / ((g : ℚ) - 1) - 1 / 100000) ≤ gcdHyp g (g - 1) ∧ gcdHyp g (g - 1) ≤ gnorm * (1 / ((g : ℚ) - 2) - 1 / 99999) := by
  have h1 := inv_sq_ge (g - 1) 100000 (by omega) (by omega)
  have h2 := inv_sq_le (g - 2) 99999 (by omega) (by omega)
  rw [show g - 2 + 1 = g - 1 by omega, show 99999 + 1 = 100000 by norm_num] at h2
  have e : gcdHyp g (g - 1) = gnorm * ∑ j ∈ Finset.Ico (g - 1) 100000, 1 / (j : ℚ) ^ 2 := by
    rw [gcdHyp, if_pos rfl, Finset.mul_sum]
    exact Finset.sum_congr rfl fun j _ => by ring
  rw [e]
  have c1 : ((g - 1 : ℕ) : ℚ) = (g : ℚ) - 1 := by push_cast [Nat.cast_sub (by omega : 1 ≤ g)]; ring
  have c2 : ((g - 2 : ℕ) : ℚ) = (g : ℚ) - 2 := by push_cast [Nat.cast_sub (by omega : 2 ≤ g)]; ring
  rw [c1] at h1
  rw [c2] at h2
  push_cast at h1 h2
  exact ⟨mul_le_mul_of_nonneg_left h1 gnorm_pos.le, mul_le_mul_of_nonneg_left h2 gnorm_pos.le⟩

/-- Every cell from the third on expects more than five values. -/
theorem gcdHyp_big {n : Nat} (hn : n < 2 ^ 32) (h3 : 3 ≤ gcdSize n) {c : Nat} (h2 : 2 ≤ c) (hc : c < gcdSize n) : 5 ≤ (n : ℚ) * gcdHyp (gcdSize n) c := by
  have hs := (gcdSize_spec n).1
  have hl := gcdSize_lt hn
  set g := gcdSize n
  have hg3 : (3 : ℚ) ≤ g := by exact_mod_cast h3
  have hgl : (g : ℚ) < 5112 := by exact_mod_cast hl
  by_cases h : c = g - 1
  · subst h
    have h4 := (gcdHyp_last h3 (by omega)).1
    have h5 : (1 : ℚ) / ((g : ℚ) - 1) - 1 / 100000 ≥ 1 / (2 * g) := by
      rw [ge_iff_le, div_sub_div _ _ (by linarith) (by norm_num), div_le_div_iff₀ (by linarith) (by linarith)]
      nlinarith
    calc (5 : ℚ) ≤ 100 * g ^ 2 * (1 / (2 * g)) := by
          have : (100 : ℚ) * g ^ 2 * (1 / (2 * g)) = 50 * g := by field_simp; norm_num
          rw [this]; linarith
      _ ≤ n * gnorm * (1 / (2 * g)) := mul_le_mul_of_nonneg_right hs (by positivity)
      _ ≤ n * gnorm * (1 / ((g : ℚ) - 1) - 1 / 100000) := mul_le_mul_of_nonneg_left h5 (mul_nonneg (Nat.cast_nonneg n) gnorm_pos.le)
      _ ≤ n * gcdHyp g (g - 1) := by rw [mul_assoc]; exact mul_le_mul_of_nonneg_left h4 (Nat.cast_nonneg n)
  · rw [gcdHyp, if_neg h]
    have hc' : (c : ℚ) ≤ g := by exact_mod_cast hc.le
    have hc2 : (2 : ℚ) ≤ c := by exact_mod_cast h2
    rw [← mul_div_assoc, le_div_iff₀ (by positivity)]
    nlinarith

/-- **C92.** The statistic of the second p-value of the gcd test: Pearson's sum over the values from 2 on, the values from `g - 1` on
taken together; the degrees of freedom are one less than the number of these cells. -/
theorem C92_statistic (n : Nat) (hn : n < 2 ^ 32) (h3 : 3 ≤ gcdSize n) (gcd : List Nat) (hg : gcd.length = gcdSize n) :
    ∃ v, gcdVtest n (gcdSize n) gcd = .ok v ∧ v.ndof = gcdSize n - 3 ∧
      v.chisq = ∑ c ∈ Finset.Ico 2 (gcdSize n), ((gcd.getD c 0 : ℚ) - n * gcdHyp (gcdSize n) c) ^ 2 / (n * gcdHyp (gcdSize n) c) := by
  have hl := gcdSize_lt hn
  have hbig := fun c => gcdHyp_big hn h3 (c := c)
  generalize gcdSize n = g at *
  obtain ⟨x, y, e, lx, ly, hx, hy⟩ := gcdCells_spec n g gcd hg h3 (by omega) g 0 (vtestCreate g).x (vtestCreate g).y (by omega) (by simp [vtestCreate])
    (by simp [vtestCreate]) (fun k _ => by
      simp only [vtestCreate, List.getD, List.getElem?_replicate]
      split <;> rfl)
  have hx' : x = (List.range g).map fun c => if c ≤ 1 then 0 else (gcd.getD c 0 : ℚ) := by
    refine List.ext_getElem (by simp [lx]) fun k h1 h2 => ?_
    have := hx k (by omega)
    rw [List.getD_eq_getElem _ _ h1, if_neg (by omega)] at this
    rw [this]
    simp
  have hy' : y = (List.range g).map fun c => if c ≤ 1 then 0 else (n : ℚ) * gcdHyp g c := by
    refine List.ext_getElem (by simp [ly]) fun k h1 h2 => ?_
    have := hy k (by omega)
    rw [List.getD_eq_getElem _ _ h1, if_neg (by omega)] at this
    rw [this]
    simp
  obtain ⟨v, a1, a2, a3⟩ := C16_created x y (lx.trans ly.symm)
  rw [lx] at a1
  have hcell : usedCells 5 (x.zip y) = ((List.range g).filter fun c => decide (2 ≤ c)).map fun c => ((gcd.getD c 0 : ℚ), (n : ℚ) * gcdHyp g c) := by
    have hz : x.zip y = (List.range g).map fun c => if c ≤ 1 then ((0 : ℚ), (0 : ℚ)) else ((gcd.getD c 0 : ℚ), (n : ℚ) * gcdHyp g c) := by
      rw [hx', hy', List.zip_map']
      refine List.map_congr_left fun c _ => ?_
      split <;> rfl
    have hb : bigCells 5 (x.zip y) = ((List.range g).filter fun c => decide (2 ≤ c)).map fun c => ((gcd.getD c 0 : ℚ), (n : ℚ) * gcdHyp g c) := by
      rw [bigCells, hz, List.filter_map]
      have : (List.range g).filter ((fun c : ℚ × ℚ => decide (5 ≤ c.2)) ∘ fun c => if c ≤ 1 then ((0 : ℚ), (0 : ℚ)) else ((gcd.getD c 0 : ℚ), (n : ℚ) * gcdHyp g c)) =
          (List.range g).filter fun c => decide (2 ≤ c) := by
        refine List.filter_congr fun c hc => ?_
        rw [Function.comp]
        by_cases h1 : c ≤ 1
        · simp [h1, show ¬ 2 ≤ c by omega]
        · simp [h1, show 2 ≤ c by omega, hbig c (by omega) (List.mem_range.1 hc)]
      rw [this]
      refine List.map_congr_left fun c hc => ?_
      have := (List.mem_filter.1 hc).2
      rw [decide_eq_true_eq] at this
      rw [if_neg (by omega)]
    have hsm : ∀ p ∈ smallCells 5 (x.zip y), p.2 = 0 := by
      intro p hp
      rw [smallCells, hz] at hp
      obtain ⟨h1, h2⟩ := List.mem_filter.1 hp
      obtain ⟨c, hc, rfl⟩ := List.mem_map.1 h1
      by_cases h1 : c ≤ 1
      · rw [if_pos h1]
      · rw [if_neg h1] at h2
        exact absurd (hbig c (by omega) (List.mem_range.1 hc)) (by simpa using h2)
    have hpool : (pooled (smallCells 5 (x.zip y))).2 = 0 := by
      rw [pooled]
      exact List.sum_eq_zero fun z hz => by
        obtain ⟨p, hp, rfl⟩ := List.mem_map.1 hz
        exact hsm p hp
    rw [usedCells, hb, if_neg (by rw [hpool]; norm_num), List.append_nil]
  refine ⟨v, ?_, ?_, ?_⟩
  · rw [gcdVtest, e, Res.bind_ok]
    exact a1
  · rw [a3, hcell, List.length_map]
    have := list_sum_filter g (fun c => 2 ≤ c) (fun _ => 1)
    have hs : (Finset.range g).filter (fun c => 2 ≤ c) = Finset.Ico 2 g := by ext c; simp; omega
    rw [hs] at this
    simp only [List.map_const', List.sum_replicate, Finset.sum_const, Nat.card_Ico, smul_eq_mul, mul_one] at this
    rw [this]
    omega
  · rw [a2, hcell, List.map_map, list_sum_filter g (fun c => 2 ≤ c)]
    have hs : (Finset.range g).filter (fun c => 2 ≤ c) = Finset.Ico 2 g := by ext c; simp; omega
    rw [hs]
    exact Finset.sum_congr rfl fun c _ => by rw [Function.comp_apply, pearson]

/-! ### Random pairs -/

namespace Spec

/-- The words that are not zero. -/
abbrev NzWord := Fin (2 ^ 32 - 1)

/-- Such a word. -/
def nzWord (a : NzWord) : UInt := BitVec.ofNat 32 (a.val + 1)

/-- The greatest common divisor of a pair. -/
def pairGcd (b : NzWord × NzWord) : Nat := Nat.gcd (b.1.val + 1) (b.2.val + 1)

/-- The generator that returns the pairs one after the other. -/
def pairSrc {n : Nat} (ω : Fin n → NzWord × NzWord) : Src := fun p =>
  if h : p / 2 < n then (if p % 2 = 0 then nzWord (ω ⟨p / 2, h⟩).1 else nzWord (ω ⟨p / 2, h⟩).2) else 1

/-- The probability of the cell `c` of a table of size `g`: the last cell is for all greater values. -/
noncomputable def gcdProb (g c : Nat) : ℝ := mean fun b : NzWord × NzWord => if min (pairGcd b) (g - 1) = c then (1 : ℝ) else 0

end Spec

theorem nzWord_toNat (a : NzWord) : (nzWord a).toNat = a.val + 1 := by
  have := a.2
  rw [nzWord, BitVec.toNat_ofNat, Nat.mod_eq_of_lt (by omega)]

theorem nzWord_ne (a : NzWord) : nzWord a ≠ 0 := by
  intro h
  have := congrArg BitVec.toNat h
  rw [nzWord_toNat] at this
  simp at this

/-- Every word but zero is there, once. -/
theorem nzWord_bijective : Function.Bijective fun a : NzWord => (⟨nzWord a, nzWord_ne a⟩ : {x : UInt // x ≠ 0}) := by
  refine ⟨fun a b e => Fin.ext ?_, fun x => ?_⟩
  · have := congrArg BitVec.toNat (Subtype.mk.inj e)
    rw [nzWord_toNat, nzWord_toNat] at this
    omega
  · have h1 := x.1.isLt
    have h2 : x.1.toNat ≠ 0 := fun h => x.2 (BitVec.eq_of_toNat_eq (by rw [h]; rfl))
    refine ⟨⟨x.1.toNat - 1, by omega⟩, Subtype.ext (BitVec.eq_of_toNat_eq ?_)⟩
    rw [nzWord_toNat]
    change x.1.toNat - 1 + 1 = _
    omega

theorem pairSrc_ne {n : Nat} (ω : Fin n → NzWord × NzWord) (p : Nat) : pairSrc ω p ≠ 0 := by
  rw [pairSrc]
  split
  · split <;> exact nzWord_ne _
  · decide

theorem pair_card (N k : Nat) : (Finset.univ.filter fun b : Fin N × Fin N => Nat.gcd (b.1.val + 1) (b.2.val + 1) = k).card = (gcdPairs N k).card := by
  refine Finset.card_bij (fun b _ => (b.1.val + 1, b.2.val + 1)) ?_ ?_ ?_
  · rintro ⟨a, b⟩ h
    have ha := a.2
    have hb := b.2
    have h5 := (Finset.mem_filter.1 h).2
    simp only [gcdPairs, Finset.mem_filter, Finset.mem_product, Finset.mem_Icc]
    exact ⟨⟨⟨by omega, by omega⟩, by omega, by omega⟩, h5⟩
  · rintro ⟨a, b⟩ _ ⟨c, d⟩ _ h
    simp only [Prod.mk.injEq] at h
    exact Prod.ext (Fin.ext (by simpa using h.1)) (Fin.ext (by simpa using h.2))
  · rintro ⟨a, b⟩ h
    simp only [gcdPairs, Finset.mem_filter, Finset.mem_product, Finset.mem_Icc] at h
    obtain ⟨⟨⟨h1, h2⟩, h3, h4⟩, h5⟩ := h
    refine ⟨(⟨a - 1, by omega⟩, ⟨b - 1, by omega⟩), ?_, ?_⟩
    · refine Finset.mem_filter.2 ⟨Finset.mem_univ _, ?_⟩
      change Nat.gcd (a - 1 + 1) (b - 1 + 1) = k
      rw [show a - 1 + 1 = a by omega, show b - 1 + 1 = b by omega]
      exact h5
    · simp only [Prod.mk.injEq]
      omega

theorem pairGcd_card (k : Nat) : (Finset.univ.filter fun b : NzWord × NzWord => pairGcd b = k).card = (gcdPairs (2 ^ 32 - 1) k).card :=
  pair_card _ k

/-- **C92.** Two random non-zero words have the greatest common divisor `k` with a probability near `6/(π² k²)`. -/
theorem C92_law (k : Nat) (hk : 1 ≤ k) :
    |(mean fun b : NzWord × NzWord => if pairGcd b = k then (1 : ℝ) else 0) - 6 / (Real.pi ^ 2 * (k : ℝ) ^ 2)| ≤ 49 / ((k : ℝ) * (2 ^ 32 - 1)) := by
  have h := gcd_error (2 ^ 32 - 1) k hk (by norm_num) (by norm_num)
  rw [mean_indicator, pairGcd_card, Fintype.card_prod, Fintype.card_fin]
  have e : ((2 ^ 32 - 1 : ℕ) : ℝ) = 2 ^ 32 - 1 := by norm_num
  rw [Nat.cast_mul, ← sq, ← e]
  exact h

/-- **C92.** The mean of the statistic over `n` independent pairs of random non-zero words. -/
theorem C92_mean (fuel n : Nat) (hn : n < 2 ^ 32) (h3 : 3 ≤ gcdSize n) :
    ∃ v : (Fin n → NzWord × NzWord) → Vtest, (∀ ω, gcdRun (fuel + 1) (pairSrc ω) n = .ok (v ω) ∧ (v ω).ndof = gcdSize n - 3) ∧
      (mean fun ω => ((v ω).chisq : ℝ)) = ∑ c ∈ Finset.Ico 2 (gcdSize n), cellMean n (gcdProb (gcdSize n) c) (gcdHyp (gcdSize n) c) := by
  have hl := gcdSize_lt hn
  have hst := C92_statistic n hn h3
  have hn0 : 0 < n := by
    rcases Nat.eq_zero_or_pos n with rfl | h
    · have h1 := (gcdSize_spec 0).1
      have h2 : (3 : ℚ) ≤ gcdSize 0 := by exact_mod_cast h3
      norm_num at h1
      nlinarith
    · exact h
  obtain ⟨g, hg⟩ : ∃ g, g = gcdSize n := ⟨_, rfl⟩
  rw [← hg] at h3 hl hst ⊢
  haveI : Nonempty (NzWord × NzWord) := ⟨(⟨0, by norm_num⟩, ⟨0, by norm_num⟩)⟩
  have htr := iid_trials (B := NzWord × NzWord) n g (fun b => min (pairGcd b) (g - 1)) (fun b => by omega)
  have hex : ∀ ω : Fin n → NzWord × NzWord, ∃ v, gcdRun (fuel + 1) (pairSrc ω) n = .ok v ∧ v.ndof = g - 3 ∧
      v.chisq = ∑ c ∈ Finset.Ico 2 g, ((trialCount (fun t (ω : Fin n → NzWord × NzWord) => if h : t < n then min (pairGcd (ω ⟨t, h⟩)) (g - 1) else 0) n ω c : ℚ) -
        n * gcdHyp g c) ^ 2 / (n * gcdHyp g c) := by
    intro ω
    obtain ⟨st, gt, kt, pos, gs, ds, e1, -, e2, e3, e4, e5, e6, -⟩ := C34_gcd_test gcdSize false (fuel + 1) (pairSrc ω) ⟨none, 0⟩ n
      (by simp [GcdStatics.Good]) (Or.inr (by omega)) ⟨by omega, by norm_num⟩ (fun p => ⟨p, le_rfl, by omega, pairSrc_ne ω p⟩)
    rw [if_pos rfl, ← hg] at e2
    obtain ⟨v, f1, f2, f3⟩ := hst gt (by rw [e5, e2])
    refine ⟨v, ?_, f2, ?_⟩
    · rw [gcdRun, e1, Res.bind_ok]
      simp only [e2]
      exact f1
    · rw [f3]
      refine Finset.sum_congr rfl fun c _ => ?_
      have hnz : ((List.range pos).map (pairSrc ω)).filter (· ≠ 0) = (List.range pos).map (pairSrc ω) := by
        refine List.filter_eq_self.2 fun x hx => ?_
        obtain ⟨p, -, rfl⟩ := List.mem_map.1 hx
        simpa using pairSrc_ne ω p
      rw [hnz] at e3
      have hlen := (GcdSamples.length e3).1
      rw [List.length_map, List.length_range, e4] at hlen
      have hget : gs = (List.range n).map fun t => if h : t < n then pairGcd (ω ⟨t, h⟩) else 0 := by
        refine List.ext_getElem (by simp [e4]) fun t h1 h2 => ?_
        have htn : t < n := by omega
        have h3 := (GcdSamples.get e3 t h1).1
        rw [List.getD_eq_getElem _ _ h1, List.getD_eq_getElem _ _ (by simp; omega), List.getD_eq_getElem _ _ (by simp; omega)] at h3
        rw [h3]
        simp only [List.getElem_map, List.getElem_range, dif_pos htn]
        rw [pairSrc, pairSrc]
        have a1 : 2 * t / 2 = t := by omega
        have a2 : (2 * t + 1) / 2 = t := by omega
        have a3 : 2 * t % 2 = 0 := by omega
        have a4 : ¬ (2 * t + 1) % 2 = 0 := by omega
        simp only [a1, a2, a3, a4, dif_pos htn, if_true, if_false, nzWord_toNat, pairGcd]
      have hcount : gt.getD c 0 = trialCount (fun t (ω : Fin n → NzWord × NzWord) => if h : t < n then min (pairGcd (ω ⟨t, h⟩)) (g - 1) else 0) n ω c := by
        rw [(e6 (by omega)).2 c, hget, List.map_map, e2, List.count_eq_countP, List.countP_map, trialCount]
        refine List.countP_congr fun t ht => ?_
        have htn := List.mem_range.1 ht
        simp [htn]
      rw [hcount]
  choose v hv1 hv2 hv3 using hex
  refine ⟨v, fun ω => ⟨hv1 ω, hv2 ω⟩, ?_⟩
  have e : ∀ ω, ((v ω).chisq : ℝ) = ∑ c ∈ Finset.Ico 2 g, ((trialCount (fun t (ω : Fin n → NzWord × NzWord) => if h : t < n then min (pairGcd (ω ⟨t, h⟩)) (g - 1) else 0) n ω c : ℝ) -
      n * (gcdHyp g c : ℝ)) ^ 2 / (n * (gcdHyp g c : ℝ)) := by
    intro ω
    rw [hv3, Rat.cast_sum]
    refine Finset.sum_congr rfl fun c _ => ?_
    push_cast
    rfl
  rw [mean_congr e, mean_sum]
  refine Finset.sum_congr rfl fun c hc => ?_
  have hcg := (Finset.mem_Ico.1 hc).2
  have := mean_pearson htr (fun d => d = c) (gcdHyp g c) hn0
  have hs : (Finset.range g).filter (fun d => d = c) = {c} := by
    ext d
    simp only [Finset.mem_filter, Finset.mem_range, Finset.mem_singleton]
    omega
  simp only [hs, Finset.sum_singleton] at this
  exact this

end Dh
