import Verif.Proof.AesKey
/-
Decryption of rijndael-alg-fst.c undoes the AES cipher.
-/
set_option linter.unusedSimpArgs false
namespace Dh
open Aes

/-! Linear algebra over GF(2^8). -/

theorem xtime_add (a b : Byte) : xtime (a ^^^ b) = xtime a ^^^ xtime b := by
  unfold xtime
  rw [BitVec.msb_xor, BitVec.shiftLeft_xor_distrib]
  cases a.msb <;> cases b.msb <;> simp only [Bool.xor_true, Bool.xor_false, Bool.not_true, Bool.not_false, if_true, if_false, Bool.false_eq_true, bx0]
  · ac_rfl
  · ac_rfl
  · rw [show ∀ x y z : Byte, x ^^^ z ^^^ (y ^^^ z) = x ^^^ y ^^^ (z ^^^ z) by intros; ac_rfl, BitVec.xor_self]
    exact (bx0 _).symm

theorem xtime_iter_add (n : Nat) (a b : Byte) : xtime^[n] (a ^^^ b) = xtime^[n] a ^^^ xtime^[n] b := by
  induction n with
  | zero => rfl
  | succ n ih => rw [Function.iterate_succ_apply', Function.iterate_succ_apply', Function.iterate_succ_apply', ih, xtime_add]

theorem gmul_add (c a b : Byte) : gmul c (a ^^^ b) = gmul c a ^^^ gmul c b := by
  unfold gmul
  induction List.range 8 with
  | nil => simp only [List.foldr_nil]; decide
  | cons i l ih =>
    simp only [List.foldr_cons]
    rw [ih, xtime_iter_add]
    cases c.getLsbD i
    · simp only [Bool.false_eq_true, if_false, b0x]
    · simp only [if_true]; ac_rfl

theorem byte_all {P : Byte → Prop} (h : ∀ n < 256, P (BitVec.ofNat 8 n)) (x : Byte) : P x := by
  have := h x.toNat x.isLt
  rwa [BitVec.ofNat_toNat, BitVec.setWidth_eq] at this

theorem im0 (x : Byte) : gmul 14 (gmul 2 x) ^^^ gmul 11 x ^^^ gmul 13 x ^^^ gmul 9 (gmul 3 x) = x := by
  revert x; apply byte_all; decide +kernel
theorem im1 (x : Byte) : gmul 14 (gmul 3 x) ^^^ gmul 11 (gmul 2 x) ^^^ gmul 13 x ^^^ gmul 9 x = 0 := by
  revert x; apply byte_all; decide +kernel
theorem im2 (x : Byte) : gmul 14 x ^^^ gmul 11 (gmul 3 x) ^^^ gmul 13 (gmul 2 x) ^^^ gmul 9 x = 0 := by
  revert x; apply byte_all; decide +kernel
theorem im3 (x : Byte) : gmul 14 x ^^^ gmul 11 x ^^^ gmul 13 (gmul 3 x) ^^^ gmul 9 (gmul 2 x) = 0 := by
  revert x; apply byte_all; decide +kernel

/-- Each column is multiplied by the circulant matrix with first row 14 11 13 9. -/
def invMix (s : St) : St := fun r c =>
  gmul 14 (s r c) ^^^ gmul 11 (s (r + 1) c) ^^^ gmul 13 (s (r + 2) c) ^^^ gmul 9 (s (r + 3) c)

theorem f4 (r : Fin 4) : (r + 1 + 1 = r + 2) ∧ (r + 1 + 2 = r + 3) ∧ (r + 1 + 3 = r) ∧ (r + 2 + 1 = r + 3) ∧ (r + 2 + 2 = r) ∧ (r + 2 + 3 = r + 1) ∧
    (r + 3 + 1 = r) ∧ (r + 3 + 2 = r + 1) ∧ (r + 3 + 3 = r + 2) := by
  revert r; decide

theorem invMix_mix (s : St) : invMix (mixColumns s) = s := by
  funext r c
  obtain ⟨e1, e2, e3, e4, e5, e6, e7, e8, e9⟩ := f4 r
  unfold invMix mixColumns
  simp only [gmul_add, e1, e2, e3, e4, e5, e6, e7, e8, e9]
  have h0 := im0 (s r c)
  have h1 := im1 (s (r + 1) c)
  have h2 := im2 (s (r + 2) c)
  have h3 := im3 (s (r + 3) c)
  have : ∀ a0 a1 a2 a3 b0 b1 b2 b3 c0 c1 c2 c3 d0 d1 d2 d3 : Byte,
      a0 ^^^ b0 ^^^ c0 ^^^ d0 ^^^ (a1 ^^^ b1 ^^^ c1 ^^^ d1) ^^^ (a2 ^^^ b2 ^^^ c2 ^^^ d2) ^^^ (a3 ^^^ b3 ^^^ c3 ^^^ d3) =
      (a0 ^^^ d1 ^^^ c2 ^^^ b3) ^^^ (b0 ^^^ a1 ^^^ d2 ^^^ c3) ^^^ (c0 ^^^ b1 ^^^ a2 ^^^ d3) ^^^ (d0 ^^^ c1 ^^^ b2 ^^^ a3) := by
    intros; ac_rfl
  rw [this, h0, h1, h2, h3]
  simp only [bx0]

theorem invMix_add (s k : St) : invMix (addRoundKey s k) = addRoundKey (invMix s) (invMix k) := by
  funext r c
  unfold invMix addRoundKey
  simp only [gmul_add]
  ac_rfl

/-! Tables of decryption, read at S-box values. -/

theorem sbox_get (n : Nat) (hn : n < 256) : sboxL.getD n 0 = sbox (BitVec.ofNat 8 n) := by
  rw [sboxL_eq]; simp [List.getD_eq_getElem?_getD, hn]

theorem td_rd (T : List UInt) (f : Byte → UInt) (h : ∀ n < 256, T[(sboxL.getD n 0).toNat]? = some (f (BitVec.ofNat 8 n))) (y : Byte) :
    rd T (sbox y).toNat = .ok (f y) := by
  revert y; apply byte_all
  intro n hn
  have := h n hn
  rw [sbox_get n hn] at this
  exact rd_of_some this

theorem Td0_rd (y : Byte) : rd Td0 (sbox y).toNat = .ok (pack (gmul 14 y) (gmul 9 y) (gmul 13 y) (gmul 11 y)) :=
  td_rd Td0 (fun y => pack (gmul 14 y) (gmul 9 y) (gmul 13 y) (gmul 11 y)) (by decide +kernel) y
theorem Td1_rd (y : Byte) : rd Td1 (sbox y).toNat = .ok (pack (gmul 11 y) (gmul 14 y) (gmul 9 y) (gmul 13 y)) :=
  td_rd Td1 (fun y => pack (gmul 11 y) (gmul 14 y) (gmul 9 y) (gmul 13 y)) (by decide +kernel) y
theorem Td2_rd (y : Byte) : rd Td2 (sbox y).toNat = .ok (pack (gmul 13 y) (gmul 11 y) (gmul 14 y) (gmul 9 y)) :=
  td_rd Td2 (fun y => pack (gmul 13 y) (gmul 11 y) (gmul 14 y) (gmul 9 y)) (by decide +kernel) y
theorem Td3_rd (y : Byte) : rd Td3 (sbox y).toNat = .ok (pack (gmul 9 y) (gmul 13 y) (gmul 11 y) (gmul 14 y)) :=
  td_rd Td3 (fun y => pack (gmul 9 y) (gmul 13 y) (gmul 11 y) (gmul 14 y)) (by decide +kernel) y
theorem Td4_rd (y : Byte) : rd Td4 (sbox y).toNat = .ok (pack y y y y) :=
  td_rd Td4 (fun y => pack y y y y) (by decide +kernel) y

/-- The S-box is injective. -/
theorem sbox_inj (x y : Byte) (h : sbox x = sbox y) : x = y := by
  have h1 := Td4_rd x
  rw [h, Td4_rd y] at h1
  have := congrArg putU32 (Res.ok.inj h1)
  rw [pack_put, pack_put] at this
  simpa using this.symm

theorem tRow_dec (s k : St) (c : Fin 4) :
    tRow Td0 Td1 Td2 Td3 (colw (shiftRows (subBytes s)) c) (colw (shiftRows (subBytes s)) (c + 3))
        (colw (shiftRows (subBytes s)) (c + 2)) (colw (shiftRows (subBytes s)) (c + 1)) (colw k c) =
      .ok (colw (addRoundKey (invMix s) k) c) := by
  obtain ⟨e1, e2, e3, e4, e5, e6, e7, e8, e9⟩ := f4 c
  unfold tRow colw
  rw [pack_16, pack_8, pack_0, pack_24]
  unfold shiftRows subBytes
  simp only [Fin.add_zero, e3, e5, e7]
  rw [Td0_rd, Td1_rd, Td2_rd, Td3_rd]
  simp only [Res.bind_ok, pack_xor]
  unfold addRoundKey invMix
  simp only [show (0 + 1 : Fin 4) = 1 from rfl, show (0 + 2 : Fin 4) = 2 from rfl, show (0 + 3 : Fin 4) = 3 from rfl,
    show (1 + 1 : Fin 4) = 2 from rfl, show (1 + 2 : Fin 4) = 3 from rfl, show (1 + 3 : Fin 4) = 0 from rfl,
    show (2 + 1 : Fin 4) = 3 from rfl, show (2 + 2 : Fin 4) = 0 from rfl, show (2 + 3 : Fin 4) = 1 from rfl,
    show (3 + 1 : Fin 4) = 0 from rfl, show (3 + 2 : Fin 4) = 1 from rfl, show (3 + 3 : Fin 4) = 2 from rfl, Fin.add_zero]
  congr 2 <;> ac_rfl

theorem lRow_dec (s k : St) (c : Fin 4) :
    lRow Td4 (colw (shiftRows (subBytes s)) c) (colw (shiftRows (subBytes s)) (c + 3))
        (colw (shiftRows (subBytes s)) (c + 2)) (colw (shiftRows (subBytes s)) (c + 1)) (colw k c) =
      .ok (colw (addRoundKey s k) c) := by
  obtain ⟨e1, e2, e3, e4, e5, e6, e7, e8, e9⟩ := f4 c
  unfold lRow colw
  rw [pack_16, pack_8, pack_0, pack_24]
  unfold shiftRows subBytes
  simp only [Fin.add_zero, e3, e5, e7]
  rw [Td4_rd, Td4_rd, Td4_rd, Td4_rd]
  simp only [Res.bind_ok, mask0, mask1, mask2, mask3, pack_xor, bx0, b0x]
  unfold addRoundKey
  rfl

theorem decRound_eq (rk : List UInt) (p : Nat) (s k : St) (h : HasKey rk p k) :
    decRound rk p (w4 (shiftRows (subBytes s))) = .ok (w4 (addRoundKey (invMix s) k)) := by
  obtain ⟨h0, h1, h2, h3⟩ := h
  unfold decRound w4
  rw [rd_of_some h0, rd_of_some h1, rd_of_some h2, rd_of_some h3]
  simp only [Res.bind_ok]
  have e0 := tRow_dec s k 0
  have e1 := tRow_dec s k 1
  have e2 := tRow_dec s k 2
  have e3 := tRow_dec s k 3
  simp only [show (0 + 1 : Fin 4) = 1 from rfl, show (0 + 2 : Fin 4) = 2 from rfl, show (0 + 3 : Fin 4) = 3 from rfl,
    show (1 + 1 : Fin 4) = 2 from rfl, show (1 + 2 : Fin 4) = 3 from rfl, show (1 + 3 : Fin 4) = 0 from rfl,
    show (2 + 1 : Fin 4) = 3 from rfl, show (2 + 2 : Fin 4) = 0 from rfl, show (2 + 3 : Fin 4) = 1 from rfl,
    show (3 + 1 : Fin 4) = 0 from rfl, show (3 + 2 : Fin 4) = 1 from rfl, show (3 + 3 : Fin 4) = 2 from rfl] at e0 e1 e2 e3
  rw [e0, e1, e2, e3]
  rfl

theorem decLast_eq (rk : List UInt) (p : Nat) (s k : St) (h : HasKey rk p k) :
    decLast rk p (w4 (shiftRows (subBytes s))) = .ok (w4 (addRoundKey s k)) := by
  obtain ⟨h0, h1, h2, h3⟩ := h
  unfold decLast w4
  rw [rd_of_some h0, rd_of_some h1, rd_of_some h2, rd_of_some h3]
  simp only [Res.bind_ok]
  have e0 := lRow_dec s k 0
  have e1 := lRow_dec s k 1
  have e2 := lRow_dec s k 2
  have e3 := lRow_dec s k 3
  simp only [show (0 + 1 : Fin 4) = 1 from rfl, show (0 + 2 : Fin 4) = 2 from rfl, show (0 + 3 : Fin 4) = 3 from rfl,
    show (1 + 1 : Fin 4) = 2 from rfl, show (1 + 2 : Fin 4) = 3 from rfl, show (1 + 3 : Fin 4) = 0 from rfl,
    show (2 + 1 : Fin 4) = 3 from rfl, show (2 + 2 : Fin 4) = 0 from rfl, show (2 + 3 : Fin 4) = 1 from rfl,
    show (3 + 1 : Fin 4) = 0 from rfl, show (3 + 2 : Fin 4) = 1 from rfl, show (3 + 3 : Fin 4) = 2 from rfl] at e0 e1 e2 e3
  rw [e0, e1, e2, e3]
  rfl

theorem add_add (s k : St) : addRoundKey (addRoundKey s k) k = s := by
  funext r c
  unfold addRoundKey
  rw [BitVec.xor_assoc, BitVec.xor_self]
  exact bx0 _

/-- One decryption round takes the middle of round `n + 1` back to the middle of round `n`. -/
theorem decRound_back (rk : List UInt) (p : Nat) (k : Nat → St) (n : Nat) (s0 : St) (h : HasKey rk p (invMix (k (n + 1)))) :
    decRound rk p (w4 (shiftRows (subBytes (rounds k (n + 1) s0)))) = .ok (w4 (shiftRows (subBytes (rounds k n s0)))) := by
  rw [decRound_eq _ _ _ _ h, rounds, ← invMix_add, add_add, invMix_mix]

theorem decLoop_eq (rk : List UInt) (k : Nat → St) (M : Nat) (s0 : St)
    (hk : ∀ j, 0 < j → j < 2 * M → HasKey rk (4 * j) (invMix (k (2 * M - j)))) : ∀ (r m : Nat), 0 < r → m + r = M →
    decLoop rk r (8 * m) (w4 (shiftRows (subBytes (rounds k (2 * r - 1) s0)))) =
      .ok (w4 (shiftRows (subBytes (rounds k 0 s0))), 8 * M) := by
  intro r
  induction r with
  | zero => intro m h; omega
  | succ r ih =>
    intro m _ hM
    rw [decLoop]
    have h1 := hk (2 * m + 1) (by omega) (by omega)
    rw [show 4 * (2 * m + 1) = 8 * m + 4 by omega, show 2 * M - (2 * m + 1) = 2 * r + 1 by omega] at h1
    rw [show 2 * (r + 1) - 1 = 2 * r + 1 by omega]
    rw [decRound_back _ _ _ _ _ h1]
    simp only [Res.bind_ok]
    by_cases hr : r = 0
    · subst hr
      rw [if_pos rfl, show 8 * M = 8 * m + 8 by omega]
    · rw [if_neg hr]
      have h2 := hk (2 * m + 2) (by omega) (by omega)
      rw [show 4 * (2 * m + 2) = 8 * m + 8 by omega, show 2 * M - (2 * m + 2) = 2 * r - 1 + 1 by omega] at h2
      rw [show 2 * r = 2 * r - 1 + 1 by omega, decRound_back _ _ _ _ _ h2]
      simp only [Res.bind_ok]
      have := ih (m + 1) (by omega) (by omega)
      rw [show 8 * (m + 1) = 8 * m + 8 by omega] at this
      exact this

theorem load_store (s : St) : load (store s) = s := by
  have h : store s = [s 0 0, s 1 0, s 2 0, s 3 0, s 0 1, s 1 1, s 2 1, s 3 1, s 0 2, s 1 2, s 2 2, s 3 2, s 0 3, s 1 3, s 2 3, s 3 3] := rfl
  unfold load
  rw [h]
  funext r c
  have hr : ∀ r : Fin 4, r = 0 ∨ r = 1 ∨ r = 2 ∨ r = 3 := by decide
  rcases hr r with rfl | rfl | rfl | rfl <;> rcases hr c with rfl | rfl | rfl | rfl <;> rfl

theorem store_length (s : St) : (store s).length = 16 := rfl

theorem list16 (b : List Byte) (h : b.length = 16) : store (load b) = b := by
  match b, h with
  | [_, _, _, _, _, _, _, _, _, _, _, _, _, _, _, _], _ => rfl

theorem decrypt_eq (rk : List UInt) (k : Nat → St) (M : Nat) (hM : 0 < M)
    (h0 : HasKey rk 0 (k (2 * M))) (hN : HasKey rk (8 * M) (k 0))
    (hk : ∀ j, 0 < j → j < 2 * M → HasKey rk (4 * j) (invMix (k (2 * M - j))))
    (b : List Byte) (hb : b.length = 16) :
    rijndaelDecrypt rk (2 * M) (store (cipher k (2 * M) (load b))) = .ok b := by
  unfold rijndaelDecrypt
  rw [loadBlock_eq rk _ (store_length _) (k (2 * M)) h0, load_store]
  unfold cipher
  rw [add_add]
  simp only [Res.bind_ok]
  have := decLoop_eq rk k M (addRoundKey (load b) (k 0)) hk M 0 hM (by omega)
  rw [show 2 * M / 2 = M by omega]
  simp only [Nat.mul_zero] at this
  rw [this]
  simp only [Res.bind_ok]
  rw [decLast_eq _ _ _ _ hN]
  simp only [Res.bind_ok, rounds]
  rw [add_add, storeBlock_eq, list16 b hb]

/-! The decryption key schedule. -/

/-- The array holds `f b c` at position `4b + c`. -/
def Holds (Nr : Nat) (rk : List UInt) (f : Nat → Nat → UInt) : Prop :=
  rk.length = 4 * (Nr + 1) ∧ ∀ b ≤ Nr, ∀ c < 4, rk[4 * b + c]? = some (f b c)

theorem Holds.congr {Nr : Nat} {rk : List UInt} {f g : Nat → Nat → UInt} (h : Holds Nr rk f)
    (e : ∀ b ≤ Nr, ∀ c < 4, f b c = g b c) : Holds Nr rk g :=
  ⟨h.1, fun b hb c hc => by rw [h.2 b hb c hc, e b hb c hc]⟩

theorem Holds.wr {Nr : Nat} {rk : List UInt} {f : Nat → Nat → UInt} (h : Holds Nr rk f) (x c : Nat) (hx : x ≤ Nr) (hc : c < 4) (v : UInt) :
    ∃ rk', Dh.wr rk (4 * x + c) v = .ok rk' ∧ Holds Nr rk' (fun b d => if b = x ∧ d = c then v else f b d) := by
  refine ⟨rk.set (4 * x + c) v, ?_, by simp [h.1], ?_⟩
  · unfold Dh.wr; rw [if_pos (by rw [h.1]; omega)]
  · intro b hb d hd
    show _ = some (if b = x ∧ d = c then v else f b d)
    rw [List.getElem?_set]
    by_cases e : 4 * x + c = 4 * b + d
    · have : b = x ∧ d = c := by omega
      rw [if_pos e, if_pos (by rw [h.1]; omega), if_pos this]
    · have : ¬ (b = x ∧ d = c) := by omega
      rw [if_neg e, if_neg this]
      exact h.2 b hb d hd

theorem Holds.swap {Nr : Nat} {rk : List UInt} {f : Nat → Nat → UInt} (h : Holds Nr rk f) (x y c : Nat) (hx : x ≤ Nr) (hy : y ≤ Nr) (hxy : x ≠ y) (hc : c < 4) :
    ∃ rk', ksSwap rk (4 * x + c) (4 * y + c) = .ok rk' ∧
      Holds Nr rk' (fun b d => if d = c then (if b = x then f y d else if b = y then f x d else f b d) else f b d) := by
  unfold ksSwap
  rw [rd_of_some (h.2 x hx c hc), rd_of_some (h.2 y hy c hc)]
  simp only [Res.bind_ok]
  obtain ⟨r1, e1, h1⟩ := h.wr x c hx hc (f y c)
  obtain ⟨r2, e2, h2⟩ := h1.wr y c hy hc (f x c)
  refine ⟨r2, ?_, h2.congr ?_⟩
  · rw [e1, Res.bind_ok, e2]
  · intro b hb d hd
    by_cases hdc : d = c
    · subst hdc
      by_cases hby : b = y
      · subst hby
        rw [if_pos ⟨rfl, rfl⟩, if_pos rfl, if_neg (fun h => hxy h.symm), if_pos rfl]
      · by_cases hbx : b = x
        · subst hbx
          rw [if_neg (fun h => hby h.1), if_pos ⟨rfl, rfl⟩, if_pos rfl, if_pos rfl]
        · rw [if_neg (fun h => hby h.1), if_neg (fun h => hbx h.1), if_pos rfl, if_neg hbx, if_neg hby]
    · rw [if_neg (fun h => hdc h.2), if_neg (fun h => hdc h.2), if_neg hdc]

theorem Holds.swap4 {Nr : Nat} {rk : List UInt} {f : Nat → Nat → UInt} (h : Holds Nr rk f) (x y : Nat) (hx : x ≤ Nr) (hy : y ≤ Nr) (hxy : x ≠ y) :
    ∃ r0 r1 r2 rk', ksSwap rk (4 * x) (4 * y) = .ok r0 ∧ ksSwap r0 (4 * x + 1) (4 * y + 1) = .ok r1 ∧
      ksSwap r1 (4 * x + 2) (4 * y + 2) = .ok r2 ∧ ksSwap r2 (4 * x + 3) (4 * y + 3) = .ok rk' ∧
      Holds Nr rk' (fun b d => if b = x then f y d else if b = y then f x d else f b d) := by
  obtain ⟨r0, e0, h0⟩ := h.swap x y 0 hx hy hxy (by omega)
  obtain ⟨r1, e1, h1⟩ := h0.swap x y 1 hx hy hxy (by omega)
  obtain ⟨r2, e2, h2⟩ := h1.swap x y 2 hx hy hxy (by omega)
  obtain ⟨r3, e3, h3⟩ := h2.swap x y 3 hx hy hxy (by omega)
  refine ⟨r0, r1, r2, r3, e0, e1, e2, e3, h3.congr ?_⟩
  · intro b hb d hd
    have : d = 0 ∨ d = 1 ∨ d = 2 ∨ d = 3 := by omega
    rcases this with rfl | rfl | rfl | rfl <;> simp

theorem ksReverse_ok (Nr : Nat) (f : Nat → Nat → UInt) : ∀ (fuel a : Nat) (rk : List UInt), a ≤ Nr → Nr + 1 ≤ fuel + a →
    Holds Nr rk (fun b c => if b < a ∨ Nr < b + a then f (Nr - b) c else f b c) →
    ∃ rk', ksReverse fuel (4 * a) (4 * (Nr - a)) rk = .ok rk' ∧ Holds Nr rk' (fun b c => f (Nr - b) c) := by
  intro fuel
  induction fuel with
  | zero => intro a rk h1 h2; omega
  | succ fuel ih =>
    intro a rk ha hf h
    rw [ksReverse]
    by_cases hlt : 4 * a < 4 * (Nr - a)
    · rw [if_pos hlt]
      obtain ⟨s0, s1, s2, r, g0, g1, g2, g3, h'⟩ := h.swap4 a (Nr - a) ha (by omega) (by omega)
      obtain ⟨r', e', h''⟩ := ih (a + 1) r (by omega) (by omega) (h'.congr (by
        intro b hb c hc
        by_cases h1 : b = a
        · subst h1
          rw [if_pos rfl, if_neg (by omega), if_pos (by omega)]
        · rw [if_neg h1]
          by_cases h2 : b = Nr - a
          · rw [if_pos h2, if_neg (by omega), if_pos (by omega)]
            rw [h2, show Nr - (Nr - a) = a by omega]
          · rw [if_neg h2]
            by_cases h3 : b < a ∨ Nr < b + a
            · rw [if_pos h3, if_pos (by omega)]
            · rw [if_neg h3, if_neg (by omega)]))
      refine ⟨r', ?_, h''⟩
      rw [g0, Res.bind_ok, g1, Res.bind_ok, g2, Res.bind_ok, g3, Res.bind_ok, show 4 * a + 4 = 4 * (a + 1) by omega, show 4 * (Nr - a) - 4 = 4 * (Nr - (a + 1)) by omega]
      exact e'
    · rw [if_neg hlt]
      refine ⟨rk, rfl, h.congr ?_⟩
      intro b hb c hc
      by_cases h3 : b < a ∨ Nr < b + a
      · rw [if_pos h3]
      · rw [if_neg h3, show Nr - b = b by omega]

def invMixW (w : Wd) : Wd := fun r => gmul 14 (w r) ^^^ gmul 11 (w (r + 1)) ^^^ gmul 13 (w (r + 2)) ^^^ gmul 9 (w (r + 3))

theorem sb_low (y : Byte) : (pack y y y y &&& 0xff).toNat = y.toNat := pack_0 y y y y

theorem Holds.invMix {Nr : Nat} {rk : List UInt} {f : Nat → Nat → Wd} (h : Holds Nr rk (fun b c => packW (f b c))) (x c : Nat) (hx : x ≤ Nr) (hc : c < 4) :
    ∃ rk', ksInvMix rk (4 * x + c) = .ok rk' ∧
      Holds Nr rk' (fun b d => packW (if b = x ∧ d = c then invMixW (f b d) else f b d)) := by
  unfold ksInvMix
  rw [rd_of_some (h.2 x hx c hc)]
  simp only [Res.bind_ok]
  obtain ⟨r, e, h'⟩ := h.wr x c hx hc (packW (invMixW (f x c)))
  refine ⟨r, ?_, h'.congr ?_⟩
  · rw [← e]
    conv => lhs; unfold packW
    rw [pack_16, pack_8, pack_0, pack_24, Te4_rd, Te4_rd, Te4_rd, Te4_rd]
    simp only [Res.bind_ok, sb_low]
    rw [Td0_rd, Td1_rd, Td2_rd, Td3_rd]
    simp only [Res.bind_ok, pack_xor]
    congr 1
    unfold packW invMixW
    simp only [show (0 + 1 : Fin 4) = 1 from rfl, show (0 + 2 : Fin 4) = 2 from rfl, show (0 + 3 : Fin 4) = 3 from rfl,
      show (1 + 1 : Fin 4) = 2 from rfl, show (1 + 2 : Fin 4) = 3 from rfl, show (1 + 3 : Fin 4) = 0 from rfl,
      show (2 + 1 : Fin 4) = 3 from rfl, show (2 + 2 : Fin 4) = 0 from rfl, show (2 + 3 : Fin 4) = 1 from rfl,
      show (3 + 1 : Fin 4) = 0 from rfl, show (3 + 2 : Fin 4) = 1 from rfl, show (3 + 3 : Fin 4) = 2 from rfl, Fin.add_zero]
    congr 1 <;> ac_rfl
  · intro b hb d hd
    by_cases hh : b = x ∧ d = c
    · obtain ⟨rfl, rfl⟩ := hh; rw [if_pos ⟨rfl, rfl⟩, if_pos ⟨rfl, rfl⟩]
    · rw [if_neg hh, if_neg hh]

theorem ksInvMixLoop_ok (Nr : Nat) (f : Nat → Nat → Wd) : ∀ (todo p : Nat) (rk : List UInt), p + todo + 1 ≤ Nr →
    Holds Nr rk (fun b c => packW (if 0 < b ∧ b ≤ p then invMixW (f b c) else f b c)) →
    ∃ rk', ksInvMixLoop todo (4 * p) rk = .ok rk' ∧
      Holds Nr rk' (fun b c => packW (if 0 < b ∧ b ≤ p + todo then invMixW (f b c) else f b c)) := by
  intro todo
  induction todo with
  | zero => intro p rk _ h; exact ⟨rk, rfl, h⟩
  | succ todo ih =>
    intro p rk hp h
    obtain ⟨r0, e0, h0⟩ := h.invMix (p + 1) 0 (by omega) (by omega)
    obtain ⟨r1, e1, h1⟩ := h0.invMix (p + 1) 1 (by omega) (by omega)
    obtain ⟨r2, e2, h2⟩ := h1.invMix (p + 1) 2 (by omega) (by omega)
    obtain ⟨r3, e3, h3⟩ := h2.invMix (p + 1) 3 (by omega) (by omega)
    obtain ⟨r4, e4, h4⟩ := ih (p + 1) r3 (by omega) (h3.congr (by
      intro b hb d hd
      congr 1
      by_cases hb1 : b = p + 1
      · subst hb1
        rw [if_pos (show 0 < p + 1 ∧ p + 1 ≤ p + 1 by omega), if_neg (show ¬ (0 < p + 1 ∧ p + 1 ≤ p) by omega)]
        have : d = 0 ∨ d = 1 ∨ d = 2 ∨ d = 3 := by omega
        rcases this with rfl | rfl | rfl | rfl <;> simp
      · have e : (0 < b ∧ b ≤ p + 1) ↔ (0 < b ∧ b ≤ p) := by omega
        simp only [hb1, false_and, if_false, e]))
    refine ⟨r4, ?_, h4.congr ?_⟩
    · rw [ksInvMixLoop]
      simp only [Nat.mul_add, Nat.mul_one, Nat.add_zero, Nat.add_assoc, Nat.reduceAdd] at e0 e1 e2 e3 e4
      rw [e0, Res.bind_ok, e1, Res.bind_ok, e2, Res.bind_ok, e3, Res.bind_ok]
      exact e4
    · intro b hb d hd
      simp only [show p + 1 + todo = p + (todo + 1) by omega]

theorem keySetupDec_ok (Nk Nr : Nat) (hs : AesSize Nk Nr) (key : List Byte) (hk : key.length = 4 * Nk)
    (rk : List UInt) (hr : rk.length = 4 * (Nr + 1)) :
    ∃ rk', keySetupDec rk key (32 * Nk) = .ok (Nr, rk') ∧ HasKey rk' 0 (roundKey key Nk Nr Nr) ∧
      HasKey rk' (4 * Nr) (roundKey key Nk Nr 0) ∧
      ∀ j, 0 < j → j < Nr → HasKey rk' (4 * j) (invMix (roundKey key Nk Nr (Nr - j))) := by
  have hN : 0 < Nr := by rcases hs with ⟨-, rfl⟩ | ⟨-, rfl⟩ | ⟨-, rfl⟩ <;> omega
  obtain ⟨r, e, h⟩ := keySetupEnc_ok Nk Nr hs key hk rk hr
  obtain ⟨r1, e1, h1⟩ := ksReverse_ok Nr (fun b c => packW (kw key Nk (4 * b + c))) (Nr + 1) 0 r (by omega) (by omega)
    ⟨h.1, by
      intro b hb c hc
      show _ = some (if b < 0 ∨ Nr < b + 0 then packW (kw key Nk (4 * (Nr - b) + c)) else packW (kw key Nk (4 * b + c)))
      rw [if_neg (by omega)]
      exact h.2 (4 * b + c) (by omega)⟩
  obtain ⟨r2, e2, h2⟩ := ksInvMixLoop_ok Nr (fun b c => kw key Nk (4 * (Nr - b) + c)) (Nr - 1) 0 r1 (by omega) (h1.congr (by
    intro b hb c hc
    rw [if_neg (by omega)]))
  have get : ∀ b ≤ Nr, ∀ c : Fin 4, r2[4 * b + c.val]? = some (packW (if 0 < b ∧ b ≤ 0 + (Nr - 1) then
      invMixW (kw key Nk (4 * (Nr - b) + c.val)) else kw key Nk (4 * (Nr - b) + c.val))) := fun b hb c => h2.2 b hb c.val c.isLt
  have hrk : ∀ b ≤ Nr, ∀ c : Fin 4, (fun r => roundKey key Nk Nr b r c) = kw key Nk (4 * b + c.val) := by
    intro b hb c
    funext r
    unfold roundKey
    rw [schedule_get key Nk (4 * (Nr + 1)) (4 * b + c.val) (by omega)]
  have colp : ∀ (s : St) (c : Fin 4), colw s c = packW (fun r => s r c) := fun s c => rfl
  have mixp : ∀ (s : St) (c : Fin 4), (fun r => invMix s r c) = invMixW (fun r => s r c) := fun s c => rfl
  have hk4 : ∀ (p : Nat) (k : St), (∀ c : Fin 4, r2[p + c.val]? = some (colw k c)) → HasKey r2 p k :=
    fun p k hh => ⟨hh 0, hh 1, hh 2, hh 3⟩
  refine ⟨r2, ?_, ?_, ?_, ?_⟩
  · unfold keySetupDec
    rw [e, Res.bind_ok]
    simp only [Nat.mul_zero, Nat.sub_zero] at e1 e2 ⊢
    rw [e1, Res.bind_ok, e2, Res.bind_ok]
  · apply hk4
    intro c
    have := get 0 (by omega) c
    rw [if_neg (by omega), Nat.mul_zero, Nat.sub_zero] at this
    rw [this, colp, hrk Nr (by omega)]
  · apply hk4
    intro c
    rw [get Nr (by omega) c, if_neg (by omega), colp, hrk 0 (by omega), Nat.sub_self]
  · intro j h1 h2
    apply hk4
    intro c
    rw [get j (by omega) c, if_pos (by omega), colp, mixp, hrk (Nr - j) (by omega)]

end Dh
