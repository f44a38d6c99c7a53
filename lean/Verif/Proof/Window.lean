import Verif.Proof.Bits
import Verif.Spec.Bits
set_option linter.unusedSimpArgs false
namespace Dh
open Spec

theorem not_exit_iff (bstart bstop : UInt) :
    ¬ (bstop > 31 ∨ bstop < bstart) ↔ bstart.toNat ≤ bstop.toNat ∧ bstop.toNat ≤ 31 := by
  rw [gt_iff_lt, BitVec.lt_def, BitVec.lt_def]
  have : (31 : UInt).toNat = 31 := rfl
  omega

theorem bUmask_ok (bstart bstop : UInt) (h : bstart.toNat ≤ bstop.toNat) (h31 : bstop.toNat ≤ 31) :
    ∃ v, bUmask bstart bstop = .ok v ∧
      ∀ i, v.getLsbD i = (decide (31 - bstop.toNat ≤ i ∧ i ≤ 31 - bstart.toNat)) := by
  have hn := (not_exit_iff bstart bstop).2 ⟨h, h31⟩
  unfold bUmask
  rw [if_neg hn]
  refine ⟨onesLoop (bstop.toNat - bstart.toNat + 1 - 1) <<< (32 - (bstop.toNat - bstart.toNat + 1) - bstart.toNat), ?_, ?_⟩
  · unfold shl
    rw [if_pos (by omega)]
  · intro i
    rw [BitVec.getLsbD_shiftLeft, onesLoop_getLsbD]
    by_cases h1 : 31 - bstop.toNat ≤ i ∧ i ≤ 31 - bstart.toNat
    · have a1 : i < 32 := by omega
      have a2 : ¬ i < 32 - (bstop.toNat - bstart.toNat + 1) - bstart.toNat := by omega
      have a3 : i - (32 - (bstop.toNat - bstart.toNat + 1) - bstart.toNat) ≤ bstop.toNat - bstart.toNat + 1 - 1 := by omega
      have a4 : i - (32 - (bstop.toNat - bstart.toNat + 1) - bstart.toNat) < 32 := by omega
      simp only [h1, a1, a2, a3, a4]; rfl
    · simp only [h1]
      by_cases a1 : i < 32
      · by_cases a2 : i < 32 - (bstop.toNat - bstart.toNat + 1) - bstart.toNat
        · simp only [a2]; simp
        · have a3 : ¬ i - (32 - (bstop.toNat - bstart.toNat + 1) - bstart.toNat) ≤ bstop.toNat - bstart.toNat + 1 - 1 := by omega
          simp only [a3]; simp
      · simp [a1]

theorem bUmask_exit (bstart bstop : UInt) (h : bstop.toNat < bstart.toNat ∨ 31 < bstop.toNat) :
    bUmask bstart bstop = .exit := by
  have : bstop > 31 ∨ bstop < bstart := by
    rw [gt_iff_lt, BitVec.lt_def, BitVec.lt_def]
    have : (31 : UInt).toNat = 31 := rfl
    omega
  unfold bUmask
  rw [if_pos this]

/-- Complete description of `b_window` in terms of positions from the most
significant bit. -/
theorem bWindow_ok (x bstart bstop boff : UInt) (h : bstart.toNat ≤ bstop.toNat)
    (h31 : bstop.toNat ≤ 31) (ho : boff.toNat ≤ 31) :
    ∃ v, bWindow x bstart bstop boff = .ok v ∧
      ∀ p < 32, msb v p = (decide (boff.toNat ≤ p ∧ bstart.toNat + (p - boff.toNat) ≤ bstop.toNat)
        && msb x (bstart.toNat + (p - boff.toNat))) := by
  have hn := (not_exit_iff bstart bstop).2 ⟨h, h31⟩
  have hno : ¬ boff > 31 := by
    rw [gt_iff_lt, BitVec.lt_def]
    have : (31 : UInt).toNat = 31 := rfl
    omega
  obtain ⟨m, hm, hmb⟩ := bUmask_ok bstart bstop h h31
  unfold bWindow
  rw [if_neg hn, if_neg hno, hm]
  simp only [Res.bind_ok]
  by_cases hs : ((bstart.toNat : Int) - boff.toNat > 0)
  · rw [if_pos hs]
    have hsn : ((bstart.toNat : Int) - boff.toNat).toNat = bstart.toNat - boff.toNat := by omega
    refine ⟨_, by rw [shl, if_pos (by omega)], ?_⟩
    intro p hp
    simp only [msb, hsn, BitVec.getLsbD_shiftLeft, BitVec.getLsbD_and, hmb]
    by_cases hc : boff.toNat ≤ p ∧ bstart.toNat + (p - boff.toNat) ≤ bstop.toNat
    · have b1 : 31 - p < 32 := by omega
      have b2 : ¬ (31 - p < bstart.toNat - boff.toNat) := by omega
      have b3 : 31 - bstop.toNat ≤ 31 - p - (bstart.toNat - boff.toNat) ∧ 31 - p - (bstart.toNat - boff.toNat) ≤ 31 - bstart.toNat := by omega
      have b4 : bstart.toNat + (p - boff.toNat) < 32 := by omega
      have b5 : 31 - p - (bstart.toNat - boff.toNat) = 31 - (bstart.toNat + (p - boff.toNat)) := by omega
      rw [b5] at b3 ⊢
      simp only [hc, b1, b2, b3, b4, hp]; simp
    · simp only [hc]
      by_cases b2 : 31 - p < bstart.toNat - boff.toNat
      · simp [b2]
      · have b3 : ¬ (31 - bstop.toNat ≤ 31 - p - (bstart.toNat - boff.toNat) ∧ 31 - p - (bstart.toNat - boff.toNat) ≤ 31 - bstart.toNat) := by omega
        simp only [b3]; simp
  · rw [if_neg hs]
    have hsn : (-((bstart.toNat : Int) - boff.toNat)).toNat = boff.toNat - bstart.toNat := by omega
    refine ⟨_, by rw [shr, if_pos (by omega)], ?_⟩
    intro p hp
    simp only [msb, hsn, BitVec.getLsbD_ushiftRight, BitVec.getLsbD_and, hmb]
    by_cases hc : boff.toNat ≤ p ∧ bstart.toNat + (p - boff.toNat) ≤ bstop.toNat
    · have b3 : 31 - bstop.toNat ≤ boff.toNat - bstart.toNat + (31 - p) ∧ boff.toNat - bstart.toNat + (31 - p) ≤ 31 - bstart.toNat := by omega
      have b4 : bstart.toNat + (p - boff.toNat) < 32 := by omega
      have b5 : boff.toNat - bstart.toNat + (31 - p) = 31 - (bstart.toNat + (p - boff.toNat)) := by omega
      rw [b5] at b3 ⊢
      simp only [hc, b3, b4, hp]; simp
    · have b3 : ¬ (31 - bstop.toNat ≤ boff.toNat - bstart.toNat + (31 - p) ∧ boff.toNat - bstart.toNat + (31 - p) ≤ 31 - bstart.toNat) := by omega
      simp only [hc, b3]; simp

theorem bWindow_exit (x bstart bstop boff : UInt)
    (h : bstop.toNat < bstart.toNat ∨ 31 < bstop.toNat ∨ 31 < boff.toNat) :
    bWindow x bstart bstop boff = .exit := by
  have h31 : (31 : UInt).toNat = 31 := rfl
  unfold bWindow
  by_cases h1 : bstop > 31 ∨ bstop < bstart
  · rw [if_pos h1]
  · rw [if_neg h1]
    have h1' := (not_exit_iff bstart bstop).1 h1
    have : boff > 31 := by rw [gt_iff_lt, BitVec.lt_def]; omega
    rw [if_pos this]

theorem msb_ext {x y : UInt} (h : ∀ p < 32, msb x p = msb y p) : x = y := by
  apply BitVec.eq_of_getLsbD_eq
  intro i hi
  have := h (31 - i) (by omega)
  have e : 31 - (31 - i) = i := by omega
  have e2 : 31 - i < 32 := by omega
  simpa [msb, e, e2] using this

/-- Adding words with disjoint bits, in most-significant-first positions. -/
theorem msb_add_disjoint {x y : UInt} (h : ∀ p < 32, msb x p = true → msb y p = false)
    (p : Nat) (hp : p < 32) : msb (x + y) p = (msb x p || msb y p) := by
  unfold msb
  rw [add_getLsbD_disjoint]
  · simp [hp]
  · intro j hj hx
    have := h (31 - j) (by omega)
    have e : 31 - (31 - j) = j := by omega
    have e2 : 31 - j < 32 := by omega
    simp only [msb, e, e2, decide_true, Bool.true_and] at this
    exact this hx

end Dh
