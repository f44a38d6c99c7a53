import Mathlib.Tactic.Ring
import Mathlib.Tactic.Linarith
import Verif.Model.Countx
import Verif.Proof.Tally
/-
Counting bits by adding neighbouring fields (countx.c).
-/
namespace Dh

/-- A masked shift acts on blocks of `w` bits one by one if the mask keeps away from what is shifted in. -/
theorem masked_block (w s a b m M : Nat) (ha : a < 2 ^ w) (hm : m < 2 ^ (w - s)) (hs : s ≤ w) :
    ((2 ^ w * b + a) >>> s) &&& (2 ^ w * M + m) = 2 ^ w * ((b >>> s) &&& M) + ((a >>> s) &&& m) := by
  have hmw : m < 2 ^ w := lt_of_lt_of_le hm (Nat.pow_le_pow_right (by norm_num) (by omega))
  apply Nat.eq_of_testBit_eq
  intro j
  have h1 : (a >>> s) &&& m < 2 ^ w := lt_of_le_of_lt Nat.and_le_right hmw
  rw [Nat.testBit_and, Nat.testBit_shiftRight, Nat.testBit_two_pow_mul_add _ ha, Nat.testBit_two_pow_mul_add _ hmw, Nat.testBit_two_pow_mul_add _ h1]
  by_cases hj : j < w
  · rw [if_pos hj, if_pos hj, Nat.testBit_and, Nat.testBit_shiftRight]
    by_cases hsj : s + j < w
    · rw [if_pos hsj]
    · have : m.testBit j = false := Nat.testBit_lt_two_pow (lt_of_lt_of_le hm (Nat.pow_le_pow_right (by norm_num) (by omega)))
      rw [this, Bool.and_false, Bool.and_false]
  · rw [if_neg hj, if_neg hj, if_neg (show ¬ s + j < w by omega), Nat.testBit_and, Nat.testBit_shiftRight]
    congr 2
    omega

/-- One step on natural numbers. -/
def foldNat (m s c : Nat) : Nat := (c &&& m) + ((c >>> s) &&& m)

theorem foldNat_block (w s a b m M : Nat) (ha : a < 2 ^ w) (hm : m < 2 ^ (w - s)) (hs : s ≤ w) :
    foldNat (2 ^ w * M + m) s (2 ^ w * b + a) = 2 ^ w * foldNat M s b + foldNat m s a := by
  have h0 := masked_block w 0 a b m M ha (lt_of_lt_of_le hm (Nat.pow_le_pow_right (by norm_num) (by omega))) (by omega)
  rw [Nat.shiftRight_zero, Nat.shiftRight_zero, Nat.shiftRight_zero] at h0
  rw [foldNat, foldNat, foldNat, h0, masked_block w s a b m M ha hm hs]
  ring

theorem foldNat_zero (s c : Nat) : foldNat 0 s c = 0 := by simp [foldNat]

/-- The number of ones among the lowest eight bits. -/
def onesByte (a : Nat) : Nat := (List.range 8).countP fun i => a.testBit i

set_option maxRecDepth 100000 in
theorem fold_byte : ∀ a < 256, foldNat 0x55 1 a < 256 ∧ foldNat 0x33 2 (foldNat 0x55 1 a) < 256 ∧
    foldNat 0x0f 4 (foldNat 0x33 2 (foldNat 0x55 1 a)) = onesByte a ∧ onesByte a ≤ 8 := by decide +kernel

theorem foldNat_bytes (m s : Nat) (hs : s ≤ 8) (hm : m < 2 ^ (8 - s)) (a0 a1 a2 a3 h : Nat) (h0 : a0 < 256) (h1 : a1 < 256) (h2 : a2 < 256) (h3 : a3 < 256) :
    foldNat (2 ^ 8 * (2 ^ 8 * (2 ^ 8 * (2 ^ 8 * 0 + m) + m) + m) + m) s (2 ^ 8 * (2 ^ 8 * (2 ^ 8 * (2 ^ 8 * h + a3) + a2) + a1) + a0) =
      2 ^ 8 * (2 ^ 8 * (2 ^ 8 * (2 ^ 8 * 0 + foldNat m s a3) + foldNat m s a2) + foldNat m s a1) + foldNat m s a0 := by
  rw [foldNat_block 8 s a0 _ m _ h0 hm hs, foldNat_block 8 s a1 _ m _ h1 hm hs, foldNat_block 8 s a2 _ m _ h2 hm hs, foldNat_block 8 s a3 _ m _ h3 hm hs,
    foldNat_zero]

theorem foldNat_all (a0 a1 a2 a3 h : Nat) (h0 : a0 < 256) (h1 : a1 < 256) (h2 : a2 < 256) (h3 : a3 < 256) :
    foldNat 0x0000ffff 16 (foldNat 0x00ff00ff 8 (foldNat 0x0f0f0f0f 4 (foldNat 0x33333333 2 (foldNat 0x55555555 1
      (2 ^ 8 * (2 ^ 8 * (2 ^ 8 * (2 ^ 8 * h + a3) + a2) + a1) + a0))))) = onesByte a0 + onesByte a1 + onesByte a2 + onesByte a3 := by
  obtain ⟨b0, c0, d0, e0⟩ := fold_byte a0 h0
  obtain ⟨b1, c1, d1, e1⟩ := fold_byte a1 h1
  obtain ⟨b2, c2, d2, e2⟩ := fold_byte a2 h2
  obtain ⟨b3, c3, d3, e3⟩ := fold_byte a3 h3
  rw [show 0x55555555 = 2 ^ 8 * (2 ^ 8 * (2 ^ 8 * (2 ^ 8 * 0 + 0x55) + 0x55) + 0x55) + 0x55 by norm_num,
    show 0x33333333 = 2 ^ 8 * (2 ^ 8 * (2 ^ 8 * (2 ^ 8 * 0 + 0x33) + 0x33) + 0x33) + 0x33 by norm_num,
    show 0x0f0f0f0f = 2 ^ 8 * (2 ^ 8 * (2 ^ 8 * (2 ^ 8 * 0 + 0x0f) + 0x0f) + 0x0f) + 0x0f by norm_num,
    foldNat_bytes 0x55 1 (by norm_num) (by norm_num) a0 a1 a2 a3 h h0 h1 h2 h3,
    foldNat_bytes 0x33 2 (by norm_num) (by norm_num) _ _ _ _ 0 b0 b1 b2 b3,
    foldNat_bytes 0x0f 4 (by norm_num) (by norm_num) _ _ _ _ 0 c0 c1 c2 c3, d0, d1, d2, d3]
  have hf : ∀ x y, x ≤ 8 → foldNat 0xff 8 (2 ^ 8 * y + x) = (2 ^ 8 * y + x) % 256 + (2 ^ 8 * y + x) / 256 % 256 := by
    intro x y _
    rw [foldNat, show 0xff = 2 ^ 8 - 1 by norm_num, Nat.and_two_pow_sub_one_eq_mod, Nat.and_two_pow_sub_one_eq_mod, Nat.shiftRight_eq_div_pow]
  have hg : ∀ x, foldNat 0xffff 16 x = x % 65536 + x / 65536 % 65536 := by
    intro x
    rw [foldNat, show 0xffff = 2 ^ 16 - 1 by norm_num, Nat.and_two_pow_sub_one_eq_mod, Nat.and_two_pow_sub_one_eq_mod, Nat.shiftRight_eq_div_pow]
  rw [show 2 ^ 8 * (2 ^ 8 * (2 ^ 8 * (2 ^ 8 * 0 + onesByte a3) + onesByte a2) + onesByte a1) + onesByte a0 =
      2 ^ 16 * (2 ^ 8 * onesByte a3 + onesByte a2) + (2 ^ 8 * onesByte a1 + onesByte a0) by ring,
    show 0x00ff00ff = 2 ^ 16 * 0xff + 0xff by norm_num,
    foldNat_block 16 8 _ _ 0xff 0xff (by omega) (by norm_num) (by norm_num), hf _ _ e2, hf _ _ e0, hg]
  omega

theorem foldCx_toNat (m : BitVec 64) (s : Nat) (c : BitVec 64) (hm : m.toNat < 2 ^ 32) : (foldCx m s c).toNat = foldNat m.toNat s c.toNat := by
  rw [foldCx, BitVec.toNat_add, BitVec.toNat_and, BitVec.toNat_and, BitVec.toNat_ushiftRight, foldNat]
  apply Nat.mod_eq_of_lt
  have h1 : c.toNat &&& m.toNat ≤ m.toNat := Nat.and_le_right
  have h2 : (c.toNat >>> s) &&& m.toNat ≤ m.toNat := Nat.and_le_right
  omega

theorem fold_ones (c : BitVec 64) :
    (foldCx 0x0000ffff 16 (foldCx 0x00ff00ff 8 (foldCx 0x0f0f0f0f 4 (foldCx 0x33333333 2 (foldCx 0x55555555 1 c))))).toNat =
      (List.range 32).countP fun i => c.getLsbD i := by
  rw [foldCx_toNat _ _ _ (by decide), foldCx_toNat _ _ _ (by decide), foldCx_toNat _ _ _ (by decide), foldCx_toNat _ _ _ (by decide), foldCx_toNat _ _ _ (by decide)]
  have hb : ∀ a b i, a < 256 → (2 ^ 8 * b + a).testBit i = if i < 8 then a.testBit i else b.testBit (i - 8) :=
    fun a b i ha => Nat.testBit_two_pow_mul_add b ha i
  have e : c.toNat = 2 ^ 8 * (2 ^ 8 * (2 ^ 8 * (2 ^ 8 * (c.toNat / 2 ^ 32) + c.toNat / 2 ^ 24 % 256) + c.toNat / 2 ^ 16 % 256) + c.toNat / 2 ^ 8 % 256) + c.toNat % 256 := by
    omega
  obtain ⟨a0, ha0⟩ : ∃ a, a = c.toNat % 256 := ⟨_, rfl⟩
  obtain ⟨a1, ha1⟩ : ∃ a, a = c.toNat / 2 ^ 8 % 256 := ⟨_, rfl⟩
  obtain ⟨a2, ha2⟩ : ∃ a, a = c.toNat / 2 ^ 16 % 256 := ⟨_, rfl⟩
  obtain ⟨a3, ha3⟩ : ∃ a, a = c.toNat / 2 ^ 24 % 256 := ⟨_, rfl⟩
  have h0 : a0 < 256 := by omega
  have h1 : a1 < 256 := by omega
  have h2 : a2 < 256 := by omega
  have h3 : a3 < 256 := by omega
  rw [← ha0, ← ha1, ← ha2, ← ha3] at e
  have hbit : ∀ i, c.getLsbD i = if i < 8 then a0.testBit i else if i - 8 < 8 then a1.testBit (i - 8) else if i - 8 - 8 < 8 then a2.testBit (i - 8 - 8) else
      if i - 8 - 8 - 8 < 8 then a3.testBit (i - 8 - 8 - 8) else (c.toNat / 2 ^ 32).testBit (i - 8 - 8 - 8 - 8) := by
    intro i
    rw [← BitVec.testBit_toNat]
    conv_lhs => rw [e]
    rw [hb _ _ _ h0, hb _ _ _ h1, hb _ _ _ h2, hb _ _ _ h3]
  conv_lhs => rw [e]
  rw [show (0x0000ffff : BitVec 64).toNat = 0x0000ffff from rfl, show (0x00ff00ff : BitVec 64).toNat = 0x00ff00ff from rfl,
    show (0x0f0f0f0f : BitVec 64).toNat = 0x0f0f0f0f from rfl, show (0x33333333 : BitVec 64).toNat = 0x33333333 from rfl,
    show (0x55555555 : BitVec 64).toNat = 0x55555555 from rfl, foldNat_all _ _ _ _ _ h0 h1 h2 h3]
  have hr : List.range 32 = List.range 8 ++ ((List.range 8).map (· + 8) ++ ((List.range 8).map (· + 16) ++ (List.range 8).map (· + 24))) := by decide
  have cong : ∀ k (f : Nat → Nat), (∀ i < 8, c.getLsbD (f i) = k.testBit i) → ((List.range 8).map f).countP (fun i => c.getLsbD i) = onesByte k := by
    intro k f hf
    rw [List.countP_map, onesByte]
    apply List.countP_congr
    intro i hi
    rw [List.mem_range] at hi
    rw [Function.comp_apply, hf i hi]
  rw [hr, List.countP_append, List.countP_append, List.countP_append,
    cong a1 _ (fun i hi => by rw [hbit, if_neg (by omega), if_pos (by omega), Nat.add_sub_cancel]),
    cong a2 _ (fun i hi => by rw [hbit, if_neg (by omega), if_neg (by omega), if_pos (by omega)]; congr 1),
    cong a3 _ (fun i hi => by rw [hbit, if_neg (by omega), if_neg (by omega), if_neg (by omega), if_pos (by omega)]; congr 1)]
  have h := cong a0 id (fun i hi => by rw [id, hbit, if_pos hi])
  rw [List.map_id] at h
  rw [h]
  omega

end Dh
