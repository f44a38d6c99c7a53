import Verif.Model.Rijndael
import Verif.Spec.Aes
/-
The tables of rijndael-alg-fst.c and one round, against the definition of AES.
-/
set_option linter.unusedSimpArgs false
namespace Dh
open Aes

/-- Four bytes as a big-endian word. -/
def pack (a b c d : Byte) : UInt := a ++ b ++ c ++ d

theorem pack_xor (a b c d a' b' c' d' : Byte) :
    pack a b c d ^^^ pack a' b' c' d' = pack (a ^^^ a') (b ^^^ b') (c ^^^ c') (d ^^^ d') := by
  unfold pack
  rw [← BitVec.xor_append, ← BitVec.xor_append, ← BitVec.xor_append]

theorem pack_and (a b c d a' b' c' d' : Byte) :
    pack a b c d &&& pack a' b' c' d' = pack (a &&& a') (b &&& b') (c &&& c') (d &&& d') := by
  unfold pack
  rw [← BitVec.and_append, ← BitVec.and_append, ← BitVec.and_append]

theorem pack_bit (a b c d : Byte) (i : Nat) : (pack a b c d).getLsbD i =
    if i < 8 then d.getLsbD i else if i < 16 then c.getLsbD (i - 8) else if i < 24 then b.getLsbD (i - 16) else a.getLsbD (i - 24) := by
  unfold pack
  rw [BitVec.getLsbD_append, BitVec.getLsbD_append, BitVec.getLsbD_append]
  by_cases h0 : i < 8
  · simp [h0]
  · rw [if_neg h0, if_neg h0]
    by_cases h1 : i < 16
    · rw [if_pos h1, if_pos (by omega)]
    · rw [if_neg h1, if_neg (by omega)]
      by_cases h2 : i < 24
      · rw [if_pos h2, if_pos (by omega)]; congr 1
      · rw [if_neg h2, if_neg (by omega)]; congr 1

theorem byte_ext {x y : BitVec 32} (h : ∀ i < 32, x.getLsbD i = y.getLsbD i) : x = y := BitVec.eq_of_getLsbD_eq (fun i hi => h i hi)

theorem toNat_of_setWidth (x : UInt) (b : Byte) (h : x = b.setWidth 32) : x.toNat = b.toNat := by
  rw [h, BitVec.toNat_setWidth]
  have := b.isLt
  exact Nat.mod_eq_of_lt (by omega)

theorem pack_24 (a b c d : Byte) : (pack a b c d >>> 24).toNat = a.toNat := by
  apply toNat_of_setWidth
  apply byte_ext
  intro i hi
  rw [BitVec.getLsbD_ushiftRight, pack_bit, BitVec.getLsbD_setWidth]
  rw [if_neg (by omega), if_neg (by omega), if_neg (by omega)]
  simp [hi]

theorem getLsbD_ff (i : Nat) : (0xff : UInt).getLsbD i = decide (i < 8) := by
  by_cases h : i < 32
  · have : ∀ i < 32, (0xff : UInt).getLsbD i = decide (i < 8) := by decide
    exact this i h
  · rw [BitVec.getLsbD_of_ge _ _ (by omega)]; simp; omega

theorem pack_16 (a b c d : Byte) : ((pack a b c d >>> 16) &&& 0xff).toNat = b.toNat := by
  apply toNat_of_setWidth
  apply byte_ext
  intro i hi
  rw [BitVec.getLsbD_and, getLsbD_ff, BitVec.getLsbD_ushiftRight, pack_bit, BitVec.getLsbD_setWidth]
  by_cases h : i < 8
  · rw [if_neg (by omega), if_neg (by omega), if_pos (by omega)]; simp [h, hi]
  · simp [h, BitVec.getLsbD_of_ge b i (by omega)]

theorem pack_8 (a b c d : Byte) : ((pack a b c d >>> 8) &&& 0xff).toNat = c.toNat := by
  apply toNat_of_setWidth
  apply byte_ext
  intro i hi
  rw [BitVec.getLsbD_and, getLsbD_ff, BitVec.getLsbD_ushiftRight, pack_bit, BitVec.getLsbD_setWidth]
  by_cases h : i < 8
  · rw [if_neg (by omega), if_pos (by omega)]; simp [h, hi]
  · simp [h, BitVec.getLsbD_of_ge c i (by omega)]

theorem pack_0 (a b c d : Byte) : (pack a b c d &&& 0xff).toNat = d.toNat := by
  apply toNat_of_setWidth
  apply byte_ext
  intro i hi
  rw [BitVec.getLsbD_and, getLsbD_ff, pack_bit, BitVec.getLsbD_setWidth]
  by_cases h : i < 8
  · simp [h, hi]
  · simp [h, BitVec.getLsbD_of_ge d i (by omega)]

theorem pack_put (a b c d : Byte) : putU32 (pack a b c d) = [a, b, c, d] := by
  unfold putU32
  have e : ∀ (x : UInt) (y : Byte), (∀ i < 8, x.getLsbD i = y.getLsbD i) → x.setWidth 8 = y := by
    intro x y h
    apply BitVec.eq_of_getLsbD_eq
    intro i hi
    rw [BitVec.getLsbD_setWidth]
    simp [hi, h i hi]
  congr 1
  · apply e; intro i hi; rw [BitVec.getLsbD_ushiftRight, pack_bit, if_neg (by omega), if_neg (by omega), if_neg (by omega)]; simp
  congr 1
  · apply e; intro i hi; rw [BitVec.getLsbD_ushiftRight, pack_bit, if_neg (by omega), if_neg (by omega), if_pos (by omega)]; simp
  congr 1
  · apply e; intro i hi; rw [BitVec.getLsbD_ushiftRight, pack_bit, if_neg (by omega), if_pos (by omega)]; simp
  congr 1
  · apply e; intro i hi; rw [pack_bit, if_pos hi]

theorem pack_get (a b c d : Byte) :
    (a.setWidth 32 <<< 24) ^^^ (b.setWidth 32 <<< 16) ^^^ (c.setWidth 32 <<< 8) ^^^ d.setWidth 32 = pack a b c d := by
  apply byte_ext
  intro i hi
  rw [pack_bit]
  simp only [BitVec.getLsbD_xor, BitVec.getLsbD_shiftLeft, BitVec.getLsbD_setWidth]
  by_cases h1 : i < 8
  · have e1 : i < 16 := by omega
    have e2 : i < 24 := by omega
    simp [h1, hi, e1, e2]
  · by_cases h2 : i < 16
    · have e2 : i < 24 := by omega
      have e3 : i - 8 < 32 := by omega
      simp [h1, h2, hi, e2, e3, BitVec.getLsbD_of_ge d i (by omega)]
    · by_cases h3 : i < 24
      · have e3 : i - 8 < 32 := by omega
        have e4 : i - 16 < 32 := by omega
        simp [h1, h2, h3, hi, e3, e4, BitVec.getLsbD_of_ge d i (by omega), BitVec.getLsbD_of_ge c (i - 8) (by omega)]
      · have e3 : i - 8 < 32 := by omega
        have e4 : i - 16 < 32 := by omega
        have e5 : i - 24 < 32 := by omega
        simp [h1, h2, h3, hi, e3, e4, e5, BitVec.getLsbD_of_ge d i (by omega), BitVec.getLsbD_of_ge c (i - 8) (by omega), BitVec.getLsbD_of_ge b (i - 16) (by omega)]

/-- Reading a table whose entries are known. -/
theorem rd_tab (T : List UInt) (f : Byte → UInt) (h : T = (List.range 256).map fun n => f (BitVec.ofNat 8 n)) (x : Byte) :
    rd T x.toNat = .ok (f x) := by
  subst h
  have := x.isLt
  rw [rd_ok (by simp; omega)]
  simp

/-! The tables: whole-table checks. -/

/-- The S-box read off the table `Te4`. -/
def sboxL : List Byte := Te4.map fun w => w.setWidth 8

/-- Whole-table check of the S-box against its algebraic definition. -/
theorem sboxL_eq : sboxL = (List.range 256).map fun n => sbox (BitVec.ofNat 8 n) := by decide +kernel

theorem tab_of (T : List UInt) (f : Byte → UInt) (h : T = sboxL.map f) :
    T = (List.range 256).map fun n => f (sbox (BitVec.ofNat 8 n)) := by
  rw [h, sboxL_eq, List.map_map]; rfl

theorem Te4_rd (x : Byte) : rd Te4 x.toNat = .ok (pack (sbox x) (sbox x) (sbox x) (sbox x)) :=
  rd_tab Te4 (fun x => pack (sbox x) (sbox x) (sbox x) (sbox x))
    (tab_of Te4 (fun s => pack s s s s) (by decide +kernel)) x

theorem Te0_rd (x : Byte) : rd Te0 x.toNat = .ok (pack (gmul 2 (sbox x)) (sbox x) (sbox x) (gmul 3 (sbox x))) :=
  rd_tab Te0 (fun x => pack (gmul 2 (sbox x)) (sbox x) (sbox x) (gmul 3 (sbox x)))
    (tab_of Te0 (fun s => pack (gmul 2 s) s s (gmul 3 s)) (by decide +kernel)) x

theorem Te1_rd (x : Byte) : rd Te1 x.toNat = .ok (pack (gmul 3 (sbox x)) (gmul 2 (sbox x)) (sbox x) (sbox x)) :=
  rd_tab Te1 (fun x => pack (gmul 3 (sbox x)) (gmul 2 (sbox x)) (sbox x) (sbox x))
    (tab_of Te1 (fun s => pack (gmul 3 s) (gmul 2 s) s s) (by decide +kernel)) x

theorem Te2_rd (x : Byte) : rd Te2 x.toNat = .ok (pack (sbox x) (gmul 3 (sbox x)) (gmul 2 (sbox x)) (sbox x)) :=
  rd_tab Te2 (fun x => pack (sbox x) (gmul 3 (sbox x)) (gmul 2 (sbox x)) (sbox x))
    (tab_of Te2 (fun s => pack s (gmul 3 s) (gmul 2 s) s) (by decide +kernel)) x

theorem Te3_rd (x : Byte) : rd Te3 x.toNat = .ok (pack (sbox x) (sbox x) (gmul 3 (sbox x)) (gmul 2 (sbox x))) :=
  rd_tab Te3 (fun x => pack (sbox x) (sbox x) (gmul 3 (sbox x)) (gmul 2 (sbox x)))
    (tab_of Te3 (fun s => pack s s (gmul 3 s) (gmul 2 s)) (by decide +kernel)) x

theorem bx0 (x : Byte) : x ^^^ (0 : Byte) = x := BitVec.xor_zero
theorem b0x (x : Byte) : (0 : Byte) ^^^ x = x := BitVec.zero_xor

/-! Words and states. -/

/-- A word of the specification as a machine word. -/
def packW (w : Wd) : UInt := pack (w 0) (w 1) (w 2) (w 3)
/-- Column `c` of a state as a machine word. -/
def colw (s : St) (c : Fin 4) : UInt := pack (s 0 c) (s 1 c) (s 2 c) (s 3 c)

theorem mask0 (x : Byte) : pack x x x x &&& 0xff000000 = pack x 0 0 0 := by
  rw [show (0xff000000 : UInt) = pack 0xff 0 0 0 by decide, pack_and]
  congr 1 <;> first | exact BitVec.and_allOnes | exact BitVec.and_zero
theorem mask1 (x : Byte) : pack x x x x &&& 0x00ff0000 = pack 0 x 0 0 := by
  rw [show (0x00ff0000 : UInt) = pack 0 0xff 0 0 by decide, pack_and]
  congr 1 <;> first | exact BitVec.and_allOnes | exact BitVec.and_zero
theorem mask2 (x : Byte) : pack x x x x &&& 0x0000ff00 = pack 0 0 x 0 := by
  rw [show (0x0000ff00 : UInt) = pack 0 0 0xff 0 by decide, pack_and]
  congr 1 <;> first | exact BitVec.and_allOnes | exact BitVec.and_zero
theorem mask3 (x : Byte) : pack x x x x &&& 0x000000ff = pack 0 0 0 x := by
  rw [show (0x000000ff : UInt) = pack 0 0 0 0xff by decide, pack_and]
  congr 1 <;> first | exact BitVec.and_allOnes | exact BitVec.and_zero

theorem ksG_eq (w : Wd) : ksG (packW w) = .ok (packW (subWord (rotWord w))) := by
  unfold ksG packW
  rw [pack_16, pack_8, pack_0, pack_24, Te4_rd, Te4_rd, Te4_rd, Te4_rd]
  simp only [Res.bind_ok, mask0, mask1, mask2, mask3, pack_xor, bx0, b0x]
  rfl

theorem ksH_eq (w : Wd) : ksH (packW w) = .ok (packW (subWord w)) := by
  unfold ksH packW
  rw [pack_16, pack_8, pack_0, pack_24, Te4_rd, Te4_rd, Te4_rd, Te4_rd]
  simp only [Res.bind_ok, mask0, mask1, mask2, mask3, pack_xor, bx0, b0x]
  rfl

theorem packW_add (v w : Wd) : packW v ^^^ packW w = packW (addWord v w) := by
  unfold packW; rw [pack_xor]; rfl

/-- One line of a full round. -/
theorem tRow_enc (s k : St) (c : Fin 4) :
    tRow Te0 Te1 Te2 Te3 (colw s c) (colw s (c + 1)) (colw s (c + 2)) (colw s (c + 3)) (colw k c) =
      .ok (colw (addRoundKey (mixColumns (shiftRows (subBytes s))) k) c) := by
  unfold tRow colw
  rw [pack_16, pack_8, pack_0, pack_24, Te0_rd, Te1_rd, Te2_rd, Te3_rd]
  simp only [Res.bind_ok, pack_xor]
  unfold addRoundKey mixColumns shiftRows subBytes
  simp only [show (0 + 1 : Fin 4) = 1 from rfl, show (0 + 2 : Fin 4) = 2 from rfl, show (0 + 3 : Fin 4) = 3 from rfl,
    show (1 + 1 : Fin 4) = 2 from rfl, show (1 + 2 : Fin 4) = 3 from rfl, show (1 + 3 : Fin 4) = 0 from rfl,
    show (2 + 1 : Fin 4) = 3 from rfl, show (2 + 2 : Fin 4) = 0 from rfl, show (2 + 3 : Fin 4) = 1 from rfl,
    show (3 + 1 : Fin 4) = 0 from rfl, show (3 + 2 : Fin 4) = 1 from rfl, show (3 + 3 : Fin 4) = 2 from rfl, Fin.add_zero]
  congr 2 <;> ac_rfl

/-- One line of the last round. -/
theorem lRow_enc (s k : St) (c : Fin 4) :
    lRow Te4 (colw s c) (colw s (c + 1)) (colw s (c + 2)) (colw s (c + 3)) (colw k c) =
      .ok (colw (addRoundKey (shiftRows (subBytes s)) k) c) := by
  unfold lRow colw
  rw [pack_16, pack_8, pack_0, pack_24, Te4_rd, Te4_rd, Te4_rd, Te4_rd]
  simp only [Res.bind_ok, mask0, mask1, mask2, mask3, pack_xor, bx0, b0x]
  unfold addRoundKey shiftRows subBytes
  simp only [Fin.add_zero]

/-- The state as four machine words. -/
def w4 (s : St) : W4 := ⟨colw s 0, colw s 1, colw s 2, colw s 3⟩

/-- The array `rk` holds round key `k` at position `p`. -/
def HasKey (rk : List UInt) (p : Nat) (k : St) : Prop :=
  rk[p]? = some (colw k 0) ∧ rk[p + 1]? = some (colw k 1) ∧ rk[p + 2]? = some (colw k 2) ∧ rk[p + 3]? = some (colw k 3)

theorem rd_of_some {α : Type} {a : List α} {i : Nat} {x : α} (h : a[i]? = some x) : rd a i = .ok x := by
  unfold rd; rw [h]

theorem encRound_eq (rk : List UInt) (p : Nat) (s k : St) (h : HasKey rk p k) :
    encRound rk p (w4 s) = .ok (w4 (addRoundKey (mixColumns (shiftRows (subBytes s))) k)) := by
  obtain ⟨h0, h1, h2, h3⟩ := h
  unfold encRound w4
  rw [rd_of_some h0, rd_of_some h1, rd_of_some h2, rd_of_some h3]
  simp only [Res.bind_ok]
  have e0 := tRow_enc s k 0
  have e1 := tRow_enc s k 1
  have e2 := tRow_enc s k 2
  have e3 := tRow_enc s k 3
  simp only [show (0 + 1 : Fin 4) = 1 from rfl, show (0 + 2 : Fin 4) = 2 from rfl, show (0 + 3 : Fin 4) = 3 from rfl,
    show (1 + 1 : Fin 4) = 2 from rfl, show (1 + 2 : Fin 4) = 3 from rfl, show (1 + 3 : Fin 4) = 0 from rfl,
    show (2 + 1 : Fin 4) = 3 from rfl, show (2 + 2 : Fin 4) = 0 from rfl, show (2 + 3 : Fin 4) = 1 from rfl,
    show (3 + 1 : Fin 4) = 0 from rfl, show (3 + 2 : Fin 4) = 1 from rfl, show (3 + 3 : Fin 4) = 2 from rfl] at e0 e1 e2 e3
  rw [e0, e1, e2, e3]
  rfl

theorem encLast_eq (rk : List UInt) (p : Nat) (s k : St) (h : HasKey rk p k) :
    encLast rk p (w4 s) = .ok (w4 (addRoundKey (shiftRows (subBytes s)) k)) := by
  obtain ⟨h0, h1, h2, h3⟩ := h
  unfold encLast w4
  rw [rd_of_some h0, rd_of_some h1, rd_of_some h2, rd_of_some h3]
  simp only [Res.bind_ok]
  have e0 := lRow_enc s k 0
  have e1 := lRow_enc s k 1
  have e2 := lRow_enc s k 2
  have e3 := lRow_enc s k 3
  simp only [show (0 + 1 : Fin 4) = 1 from rfl, show (0 + 2 : Fin 4) = 2 from rfl, show (0 + 3 : Fin 4) = 3 from rfl,
    show (1 + 1 : Fin 4) = 2 from rfl, show (1 + 2 : Fin 4) = 3 from rfl, show (1 + 3 : Fin 4) = 0 from rfl,
    show (2 + 1 : Fin 4) = 3 from rfl, show (2 + 2 : Fin 4) = 0 from rfl, show (2 + 3 : Fin 4) = 1 from rfl,
    show (3 + 1 : Fin 4) = 0 from rfl, show (3 + 2 : Fin 4) = 1 from rfl, show (3 + 3 : Fin 4) = 2 from rfl] at e0 e1 e2 e3
  rw [e0, e1, e2, e3]
  rfl

/-- The loop of full rounds performs rounds up to `2r - 1`. -/
theorem encLoop_eq (rk : List UInt) (k : Nat → St) : ∀ (r m : Nat) (s0 : St), 0 < r →
    (∀ j ≤ 2 * (m + r), HasKey rk (4 * j) (k j)) →
    encLoop rk r (8 * m) (w4 (rounds k (2 * m) s0)) = .ok (w4 (rounds k (2 * (m + r) - 1) s0), 8 * (m + r)) := by
  intro r
  induction r with
  | zero => intro m s0 h; omega
  | succ r ih =>
    intro m s0 _ hk
    rw [encLoop]
    have h1 := hk (2 * m + 1) (by omega)
    rw [show 4 * (2 * m + 1) = 8 * m + 4 by omega] at h1
    rw [encRound_eq _ _ _ _ h1]
    simp only [Res.bind_ok]
    by_cases hr : r = 0
    · subst hr
      rw [if_pos rfl, show 2 * (m + (0 + 1)) - 1 = 2 * m + 1 by omega, rounds, show 8 * (m + (0 + 1)) = 8 * m + 8 by omega]
    · rw [if_neg hr]
      have h2 := hk (2 * m + 2) (by omega)
      rw [show 4 * (2 * m + 2) = 8 * m + 8 by omega] at h2
      rw [encRound_eq _ _ _ _ h2]
      simp only [Res.bind_ok]
      have := ih (m + 1) s0 (by omega) (fun j hj => hk j (by omega))
      rw [show 2 * (m + 1) = 2 * m + 1 + 1 by omega, rounds, rounds, show 8 * (m + 1) = 8 * m + 8 by omega] at this
      rw [this, show m + 1 + r = m + (r + 1) by omega]

theorem getU32_eq (b : List Byte) (p : Nat) (h : p + 3 < b.length) :
    getU32 b p = .ok (pack (b.getD p 0) (b.getD (p + 1) 0) (b.getD (p + 2) 0) (b.getD (p + 3) 0)) := by
  have rg : ∀ q, q < b.length → rd b q = .ok (b.getD q 0) := by
    intro q hq; rw [rd_ok hq]; simp [List.getD_eq_getElem?_getD, List.getElem?_eq_getElem hq]
  unfold getU32
  rw [rg p (by omega), rg _ (show p + 1 < b.length by omega), rg _ (show p + 2 < b.length by omega), rg _ h]
  simp only [Res.bind_ok, pack_get]

theorem loadBlock_eq (rk : List UInt) (b : List Byte) (hb : b.length = 16) (k : St) (hk : HasKey rk 0 k) :
    loadBlock rk b = .ok (w4 (addRoundKey (load b) k)) := by
  obtain ⟨h0, h1, h2, h3⟩ := hk
  unfold loadBlock
  simp only [Nat.zero_add] at h1 h2 h3
  rw [rd_of_some h0, rd_of_some h1, rd_of_some h2, rd_of_some h3]
  simp only [Res.bind_ok]
  rw [getU32_eq b 0 (by omega), getU32_eq b 4 (by omega), getU32_eq b 8 (by omega), getU32_eq b 12 (by omega)]
  simp only [Res.bind_ok]
  unfold colw
  simp only [pack_xor]
  rfl

theorem storeBlock_eq (s : St) : storeBlock (w4 s) = store s := by
  unfold storeBlock w4 colw
  simp only [pack_put]
  rfl

/-- Encryption with the round keys `k 0 .. k Nr` in the array. -/
theorem encrypt_eq (rk : List UInt) (k : Nat → St) (m : Nat) (hm : 0 < m) (hk : ∀ j ≤ 2 * m, HasKey rk (4 * j) (k j))
    (b : List Byte) (hb : b.length = 16) :
    rijndaelEncrypt rk (2 * m) b = .ok (store (cipher k (2 * m) (load b))) := by
  unfold rijndaelEncrypt
  rw [loadBlock_eq rk b hb (k 0) (hk 0 (by omega))]
  simp only [Res.bind_ok]
  have := encLoop_eq rk k m 0 (addRoundKey (load b) (k 0)) hm (fun j hj => hk j (by omega))
  rw [show 2 * m / 2 = m by omega]
  simp only [Nat.mul_zero, rounds, Nat.zero_add] at this
  rw [this]
  simp only [Res.bind_ok]
  have h := hk (2 * m) (by omega)
  rw [show 4 * (2 * m) = 8 * m by omega] at h
  rw [encLast_eq _ _ _ _ h]
  simp only [Res.bind_ok]
  rw [storeBlock_eq]
  rfl

end Dh
