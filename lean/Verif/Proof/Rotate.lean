import Verif.Proof.Window
set_option linter.unusedSimpArgs false
namespace Dh
open Spec

theorem getLsbD_eq_msb (x : UInt) (i : Nat) (hi : i < 32) : x.getLsbD i = msb x (31 - i) := by
  have e : 31 - (31 - i) = i := by omega
  have e2 : 31 - i < 32 := by omega
  simp [msb, e, e2]

theorem bRotateLeft_ok (x s : UInt) (h1 : 1 ≤ s.toNat) (h2 : s.toNat ≤ 31) :
    bRotateLeft x s = .ok (x.rotateLeft s.toNat) := by
  have e1 : (s - 1).toNat = s.toNat - 1 := by
    rw [BitVec.toNat_sub]; have : (1 : UInt).toNat = 1 := rfl
    omega
  have e2 : (32 - s).toNat = 32 - s.toNat := by
    rw [BitVec.toNat_sub]; have : (32 : UInt).toNat = 32 := rfl
    omega
  obtain ⟨v, hv, hvb⟩ := bWindow_ok x 0 (s-1) (32-s) (by simp) (by omega) (by omega)
  have h0 : (0 : UInt).toNat = 0 := rfl
  unfold bRotateLeft
  rw [hv]
  simp only [Res.bind_ok, shl, if_pos (show s.toNat < 32 by omega)]
  congr 1
  apply msb_ext
  intro p hp
  rw [msb_add_disjoint _ p hp, hvb p hp, e1, e2, h0]
  · simp only [msb, BitVec.getLsbD_shiftLeft, BitVec.getLsbD_rotateLeft, hp, Nat.mod_eq_of_lt (show s.toNat < 32 by omega)]
    by_cases hc : 31 - p < s.toNat
    · have a1 : 32 - s.toNat ≤ p ∧ 0 + (p - (32 - s.toNat)) ≤ s.toNat - 1 := by omega
      have a2 : 0 + (p - (32 - s.toNat)) < 32 := by omega
      have a3 : 31 - (0 + (p - (32 - s.toNat))) = 32 - s.toNat + (31 - p) := by omega
      rw [a3]
      simp only [hc, a1, a2]; simp
    · have a1 : ¬ (32 - s.toNat ≤ p ∧ 0 + (p - (32 - s.toNat)) ≤ s.toNat - 1) := by omega
      have a2 : 31 - p < 32 := by omega
      simp only [hc, a1, a2]; simp
  · intro q hq hx
    rw [hvb q hq, e1, e2, h0]
    simp only [msb, BitVec.getLsbD_shiftLeft, hq] at hx
    have : ¬ (31 - q < s.toNat) := by
      intro hlt; simp [hlt] at hx
    have a1 : ¬ (32 - s.toNat ≤ q ∧ 0 + (q - (32 - s.toNat)) ≤ s.toNat - 1) := by omega
    simp only [a1]; simp

theorem bRotateRight_ok (x s : UInt) (h2 : s.toNat ≤ 31) :
    bRotateRight x s = .ok (x.rotateRight s.toNat) := by
  unfold bRotateRight
  by_cases hz : s = 0
  · subst hz
    simp [BitVec.rotateRight_def]
  rw [if_neg hz]
  have h1 : 1 ≤ s.toNat := by
    rcases Nat.eq_zero_or_pos s.toNat with h | h
    · exact absurd (BitVec.eq_of_toNat_eq h) hz
    · exact h
  have e2 : (32 - s).toNat = 32 - s.toNat := by
    rw [BitVec.toNat_sub]; have : (32 : UInt).toNat = 32 := rfl
    omega
  have h31 : (31 : UInt).toNat = 31 := rfl
  have h0 : (0 : UInt).toNat = 0 := rfl
  obtain ⟨v, hv, hvb⟩ := bWindow_ok x (32-s) 31 0 (by omega) (by omega) (by omega)
  rw [hv]
  simp only [Res.bind_ok, shr, if_pos (show s.toNat < 32 by omega)]
  congr 1
  apply msb_ext
  intro p hp
  rw [msb_add_disjoint _ p hp, hvb p hp, e2, h31, h0]
  · simp only [msb, BitVec.getLsbD_ushiftRight, BitVec.getLsbD_rotateRight, hp, Nat.mod_eq_of_lt (show s.toNat < 32 by omega)]
    by_cases hc : 31 - p < 32 - s.toNat
    · have a1 : ¬ (0 ≤ p ∧ 32 - s.toNat + (p - 0) ≤ 31) := by omega
      simp only [hc, a1]; simp
    · have a1 : (0 ≤ p ∧ 32 - s.toNat + (p - 0) ≤ 31) := by omega
      have a2 : 32 - s.toNat + (p - 0) < 32 := by omega
      have a3 : 31 - p < 32 := by omega
      have a4 : x.getLsbD (s.toNat + (31 - p)) = false := BitVec.getLsbD_of_ge _ _ (by omega)
      have a5 : 31 - p - (32 - s.toNat) = 31 - (32 - s.toNat + (p - 0)) := by omega
      rw [a4, a5]
      simp only [hc, a1, a2, a3]; simp
  · intro q hq hx
    rw [hvb q hq, e2, h31, h0]
    simp only [msb, BitVec.getLsbD_ushiftRight, hq] at hx
    have : s.toNat + (31 - q) < 32 := by
      rcases Nat.lt_or_ge (s.toNat + (31 - q)) 32 with h | h
      · exact h
      · rw [BitVec.getLsbD_of_ge _ _ h] at hx; simp at hx
    have a1 : ¬ (0 ≤ q ∧ 32 - s.toNat + (q - 0) ≤ 31) := by omega
    simp only [a1]; simp

theorem bRotateLeft_zero (x : UInt) : bRotateLeft x 0 = .exit := by
  unfold bRotateLeft
  rw [bWindow_exit]
  · rfl
  · right; left; decide

theorem rotateRight_rotateLeft (x : UInt) (s : Nat) (hs : s ≤ 31) :
    (x.rotateLeft s).rotateRight s = x := by
  apply BitVec.eq_of_getLsbD_eq
  intro i hi
  rw [BitVec.getLsbD_rotateRight, Nat.mod_eq_of_lt (by omega)]
  by_cases h : i < 32 - s
  · have a1 : ¬ (s + i < s) := by omega
    have a2 : s + i < 32 := by omega
    have a3 : s + i - s = i := by omega
    simp only [h, BitVec.getLsbD_rotateLeft, Nat.mod_eq_of_lt (show s < 32 by omega), a1, a2, a3]
    simp
  · have a1 : i - (32 - s) < s := by omega
    have a2 : 32 - s + (i - (32 - s)) = i := by omega
    simp only [h, hi, BitVec.getLsbD_rotateLeft, Nat.mod_eq_of_lt (show s < 32 by omega), a1, a2]
    simp

end Dh
