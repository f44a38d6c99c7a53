import Verif.Props.FillTreePower
/-
C157: dab_filltree2 and bit streams of small period.
-/
namespace Dh
open Spec

theorem trial_period {A : Type*} (T : Nat) (hT : 0 < T) (s : Nat → A) (hs : ∀ i, s (i + T) = s i) (τ X : (Nat → A) → Nat) (t : Nat) :
    ∃ k, k < T ∧ trialAt τ X t s = X (dropSeq k s) := by
  have hper : ∀ q i, s (i + T * q) = s i := by
    intro q
    induction q with
    | zero => exact fun _ => rfl
    | succ q ih => intro i; rw [show i + T * (q + 1) = i + T * q + T by ring, hs, ih]
  have hmod : ∀ k, dropSeq k s = dropSeq (k % T) s := fun k => by
    funext i
    have e : k + i = k % T + i + T * (k / T) := by have := Nat.mod_add_div k T; omega
    rw [dropSeq, dropSeq, e, hper]
  have gen : ∀ t k, ∃ k', trialAt τ X t (dropSeq k s) = X (dropSeq k' s) := by
    intro t
    induction t with
    | zero => exact fun k => ⟨k, rfl⟩
    | succ t ih =>
      intro k
      obtain ⟨k', h⟩ := ih (τ (dropSeq k s) + k)
      refine ⟨k', ?_⟩
      rw [trialAt, dropSeq_dropSeq, h]
  obtain ⟨k, h⟩ := gen t 0
  rw [dropSeq_zero] at h
  exact ⟨k % T, Nat.mod_lt _ hT, by rw [h, hmod]⟩

theorem empty_cell {x : ℝ} (h : 213 ≤ x) : 213 ≤ (0 - x) ^ 2 / x := by
  rw [le_div_iff₀ (by linarith)]
  nlinarith

theorem ft2_common : ∀ c ∈ Finset.Ico 10 83, (213 : ℝ) ≤ (5000000 : ℕ) * (ft2Table.getD c 0 : ℝ) := by
  intro c hc
  have hc' := Finset.mem_Ico.1 hc
  have key : ∀ i < 83, 10 ≤ i → 213 * 10 ^ (ft2Digits.getD i (0, 0)).2 ≤ 5000000 * (ft2Digits.getD i (0, 0)).1 := by decide +kernel
  have h := key c hc'.2 hc'.1
  rw [ft2Table_getD c (by omega)]
  generalize (ft2Digits.getD c (0, 0)).1 = d at h ⊢
  generalize (ft2Digits.getD c (0, 0)).2 = e at h ⊢
  have h' : (213 : ℝ) * 10 ^ e ≤ 5000000 * d := by exact_mod_cast h
  push_cast
  rw [← mul_div_assoc, le_div_iff₀ (by positivity)]
  exact h'

/-- **C157.**  The first p-value of a default run of dab_filltree2 is at most `exp(-25)` if the bits it reads have a period of 72 or less. -/
theorem C157_bits (r : Nat) (src : Src) (hr : 1 ≤ r) (T : Nat) (hT0 : 0 < T) (hT : T ≤ 72) (h : ∀ k, lsbStream r src (k + T) = lsbStream r src k) :
    ∃ p1 p2, fillTree2Test gammaTail r src 0 5000000 = .ok (some (p1, p2)) ∧ 0 ≤ p1 ∧ p1 ≤ Real.exp (-25) := by
  obtain ⟨ex, h1, h2⟩ := ft2_range 5000000
  have hsc : ftScan (ft2Lt 5000000) (ft2Gt 5000000) 128 0 0 0 = (6, 89) := by decide +kernel
  rw [hsc] at h1
  obtain ⟨p2, hp⟩ := ft2_pvalue r src hr 5000000 7 89 (by norm_num) (by norm_num) ⟨ex, h1, h2⟩ gammaTail
  refine ⟨_, p2, hp, ?_⟩
  obtain ⟨c, hc, hmiss⟩ : ∃ c ∈ Finset.Ico 10 83, ∀ k < T, treeIndex 6 (dropSeq k (lsbStream r src)) ≠ c := by
    by_contra hall
    push Not at hall
    have hsub : Finset.Ico 10 83 ⊆ (Finset.range T).image fun k => treeIndex 6 (dropSeq k (lsbStream r src)) := fun c hc => by
      obtain ⟨k, hk, e⟩ := hall c hc
      exact Finset.mem_image.2 ⟨k, Finset.mem_range.2 hk, e⟩
    have := (Finset.card_le_card hsub).trans Finset.card_image_le
    rw [Nat.card_Ico, Finset.card_range] at this
    omega
  have h0 : trialCount (trialAt (treeBits 6) (treeIndex 6)) 5000000 (lsbStream r src) c = 0 := by
    rw [trialCount, List.countP_eq_zero]
    intro t _ e
    obtain ⟨k, hk, e'⟩ := trial_period T hT0 (lsbStream r src) h (treeBits 6) (treeIndex 6) t
    exact hmiss k hk (e' ▸ of_decide_eq_true e)
  have hchi : (213 : ℝ) ≤ ft2Chisq 5000000 7 89 (lsbStream r src) := by
    have hc' := Finset.mem_Ico.1 hc
    have hmem : c ∈ Finset.Ico 7 89 := Finset.mem_Ico.2 ⟨by omega, by omega⟩
    rw [ft2Chisq]
    refine le_trans ?_ (Finset.single_le_sum (f := fun c => ((trialCount (trialAt (treeBits 6) (treeIndex 6)) 5000000 (lsbStream r src) c : ℝ) -
      (5000000 : ℕ) * (ft2Table.getD c 0 : ℝ)) ^ 2 / ((5000000 : ℕ) * (ft2Table.getD c 0 : ℝ)))
      (fun c hc => div_nonneg (sq_nonneg _) (mul_nonneg (Nat.cast_nonneg _) (ft2_small c hc).1.le)) hmem)
    have := ft2_common c hc
    simp only [h0]
    rw [Nat.cast_zero]
    exact empty_cell this
  obtain ⟨g1, g2⟩ := gammaTail_exp (a := (((89 - 7 : ℕ) : ℝ) - 1) / 2) (c := 213) (by norm_num) (by norm_num) _ hchi
  exact ⟨g1, g2.trans (Real.exp_le_exp.2 (by norm_num))⟩

/-- **C157, words.**  So it is for `r`-bit generators of period `P` with `P r ≤ 72`: all generators of period 1 or 2, and those of 18 bits
with period 4. -/
theorem C157_words (r : Nat) (src : Src) (hr : 1 ≤ r) (P : Nat) (hP0 : 0 < P) (hP : P * r ≤ 72) (h : ∀ k, src (k + P) = src k) :
    ∃ p1 p2, fillTree2Test gammaTail r src 0 5000000 = .ok (some (p1, p2)) ∧ 0 ≤ p1 ∧ p1 ≤ Real.exp (-25) := by
  refine C157_bits r src hr (P * r) (Nat.mul_pos hP0 hr) hP fun k => ?_
  rw [lsbStream, lsbStream, Nat.add_mul_div_right _ _ hr, Nat.add_mul_mod_self_right, h]

/-- Two 32-bit words in turn. -/
example (a b : UInt) : ∃ p1 p2, fillTree2Test gammaTail 32 (fun k => if k % 2 = 0 then a else b) 0 5000000 = .ok (some (p1, p2)) ∧ 0 ≤ p1 ∧ p1 ≤ Real.exp (-25) :=
  C157_words 32 _ (by omega) 2 (by omega) (by omega) fun k => by rw [Nat.add_mod_right]

/-- Bits: 0, 1, 1, 0, ... of period 3, read from 31-bit words that have period 3. -/
example : ∃ p1 p2, fillTree2Test gammaTail 31 (fun k => BitVec.ofNat 32 (if k % 3 = 0 then 0x36DB6DB6 else if k % 3 = 1 then 0x5B6DB6DB else 0x6DB6DB6D)) 0 5000000 =
    .ok (some (p1, p2)) ∧ 0 ≤ p1 ∧ p1 ≤ Real.exp (-25) := by
  refine C157_bits 31 _ (by omega) 3 (by omega) (by omega) fun k => ?_
  have hq : k = 93 * (k / 93) + k % 93 := (Nat.div_add_mod k 93).symm
  have hm : k % 93 < 93 := Nat.mod_lt _ (by norm_num)
  have key : ∀ m < 93, lsbStream 31 (fun k => BitVec.ofNat 32 (if k % 3 = 0 then 0x36DB6DB6 else if k % 3 = 1 then 0x5B6DB6DB else 0x6DB6DB6D)) (m + 3) =
      lsbStream 31 (fun k => BitVec.ofNat 32 (if k % 3 = 0 then 0x36DB6DB6 else if k % 3 = 1 then 0x5B6DB6DB else 0x6DB6DB6D)) m := by decide +kernel
  have hs : ∀ q m, lsbStream 31 (fun k => BitVec.ofNat 32 (if k % 3 = 0 then 0x36DB6DB6 else if k % 3 = 1 then 0x5B6DB6DB else 0x6DB6DB6D)) (93 * q + m) =
      lsbStream 31 (fun k => BitVec.ofNat 32 (if k % 3 = 0 then 0x36DB6DB6 else if k % 3 = 1 then 0x5B6DB6DB else 0x6DB6DB6D)) m := by
    intro q m
    rw [lsbStream, lsbStream, show 93 * q + m = m + 31 * (3 * q) by ring, Nat.add_mul_div_left _ _ (by norm_num), Nat.add_mul_mod_self_left,
      Nat.add_mul_mod_self_left]
  have := key _ hm
  rw [← hs (k / 93), ← hs (k / 93) (k % 93), ← Nat.add_assoc, ← hq] at this
  exact this

end Dh
