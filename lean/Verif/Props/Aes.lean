import Verif.Model.RngAes
import Verif.Props.CaUvag
import Verif.Proof.AesInv
/-
Properties C27, C28, C29 (aes part), C62, C63.
-/
set_option linter.unusedSimpArgs false
namespace Dh
open Aes

/-! ### The specification itself -/

/-- `ginv` is the multiplicative inverse in GF(2^8) (all 255 elements). -/
theorem ginv_inverse (a : Byte) (h : a ≠ 0) : gmul a (ginv a) = 1 := by
  have : ∀ n < 256, n ≠ 0 → gmul (BitVec.ofNat 8 n) (ginv (BitVec.ofNat 8 n)) = 1 := by decide +kernel
  have h1 := this a.toNat a.isLt (by
    intro e; apply h; apply BitVec.eq_of_toNat_eq; simpa using e)
  rwa [BitVec.ofNat_toNat, BitVec.setWidth_eq] at h1

/-! ### C28 -/

/-- C28.  For the three key sizes (`Nk` words, `Nr` rounds), every key, every plaintext block and
whatever the array `rk` held before, key setup returns the number of rounds and encryption with the
array it leaves is AES. -/
theorem C28_rijndael_is_aes (Nk Nr : Nat) (hs : (Nk = 4 ∧ Nr = 10) ∨ (Nk = 6 ∧ Nr = 12) ∨ (Nk = 8 ∧ Nr = 14))
    (key : List Byte) (hk : key.length = 4 * Nk) (rk : List UInt) (hr : rk.length = 4 * (Nr + 1)) :
    ∃ rk', keySetupEnc rk key (32 * Nk) = .ok (Nr, rk') ∧
      ∀ pt : List Byte, pt.length = 16 → rijndaelEncrypt rk' Nr pt = .ok (Aes.encrypt Nk Nr key pt) := by
  obtain ⟨rk', e, h⟩ := keySetupEnc_ok Nk Nr hs key hk rk hr
  refine ⟨rk', e, fun pt hpt => ?_⟩
  obtain ⟨m, hm, hm0⟩ : ∃ m, Nr = 2 * m ∧ 0 < m := by
    rcases hs with ⟨-, rfl⟩ | ⟨-, rfl⟩ | ⟨-, rfl⟩
    · exact ⟨5, rfl, by omega⟩
    · exact ⟨6, rfl, by omega⟩
    · exact ⟨7, rfl, by omega⟩
  subst hm
  rw [encrypt_eq rk' (roundKey key Nk (2 * m)) m hm0 (fun j hj => h.hasKey j hj) pt hpt]
  rfl

/-- The byte string `0, 1, ..., n-1`. -/
def countBytes (n : Nat) : List Byte := (List.range n).map (BitVec.ofNat 8)

/-- The plaintext of FIPS 197, appendix C: `00 11 22 ... ff`. -/
def fipsPt : List Byte := (List.range 16).map fun i => BitVec.ofNat 8 (17 * i)

set_option maxRecDepth 100000 in
/-- FIPS 197, C.1. -/
example : (do
    let (Nr, rk) ← keySetupEnc (List.replicate 44 0) (countBytes 16) 128
    rijndaelEncrypt rk Nr fipsPt) =
    .ok [0x69, 0xc4, 0xe0, 0xd8, 0x6a, 0x7b, 0x04, 0x30, 0xd8, 0xcd, 0xb7, 0x80, 0x70, 0xb4, 0xc5, 0x5a] := by decide +kernel
set_option maxRecDepth 100000 in
/-- FIPS 197, C.2. -/
example : (do
    let (Nr, rk) ← keySetupEnc (List.replicate 52 0) (countBytes 24) 192
    rijndaelEncrypt rk Nr fipsPt) =
    .ok [0xdd, 0xa9, 0x7c, 0xa4, 0x86, 0x4c, 0xdf, 0xe0, 0x6e, 0xaf, 0x70, 0xa0, 0xec, 0x0d, 0x71, 0x91] := by decide +kernel
set_option maxRecDepth 100000 in
/-- FIPS 197, C.3. -/
example : (do
    let (Nr, rk) ← keySetupEnc (List.replicate 60 0) (countBytes 32) 256
    rijndaelEncrypt rk Nr fipsPt) =
    .ok [0x8e, 0xa2, 0xb7, 0xca, 0x51, 0x67, 0x45, 0xbf, 0xea, 0xfc, 0x49, 0x90, 0x4b, 0x49, 0x60, 0x89] := by decide +kernel

/-! ### C62 and C29 -/

/-- C62.  For the three key sizes, decryption with the decryption key schedule undoes encryption
with the encryption key schedule, for every key and every block. -/
theorem C62_decrypt_encrypt (Nk Nr : Nat) (hs : (Nk = 4 ∧ Nr = 10) ∨ (Nk = 6 ∧ Nr = 12) ∨ (Nk = 8 ∧ Nr = 14))
    (key : List Byte) (hk : key.length = 4 * Nk) (rk rd : List UInt) (hr : rk.length = 4 * (Nr + 1)) (hd : rd.length = 4 * (Nr + 1)) :
    ∃ rk' rd', keySetupEnc rk key (32 * Nk) = .ok (Nr, rk') ∧ keySetupDec rd key (32 * Nk) = .ok (Nr, rd') ∧
      ∀ pt : List Byte, pt.length = 16 → ∃ ct, rijndaelEncrypt rk' Nr pt = .ok ct ∧ ct.length = 16 ∧ rijndaelDecrypt rd' Nr ct = .ok pt := by
  obtain ⟨rk', e, h⟩ := C28_rijndael_is_aes Nk Nr hs key hk rk hr
  obtain ⟨rd', e', h0, hN, hj⟩ := keySetupDec_ok Nk Nr hs key hk rd hd
  refine ⟨rk', rd', e, e', fun pt hpt => ⟨_, h pt hpt, rfl, ?_⟩⟩
  obtain ⟨m, hm, hm0⟩ : ∃ m, Nr = 2 * m ∧ 0 < m := by
    rcases hs with ⟨-, rfl⟩ | ⟨-, rfl⟩ | ⟨-, rfl⟩
    · exact ⟨5, rfl, by omega⟩
    · exact ⟨6, rfl, by omega⟩
    · exact ⟨7, rfl, by omega⟩
  subst hm
  rw [show 4 * (2 * m) = 8 * m by omega] at hN
  exact decrypt_eq rd' (roundKey key Nk (2 * m)) m hm0 h0 hN hj pt hpt

/-- C29 (aes).  For a fixed key two different blocks are never encrypted to the same block. -/
theorem C29_aes_injective (key : List Byte) (hk : key.length = 16) (rk : List UInt) (hr : rk.length = 44) :
    ∃ rk', keySetupEnc rk key 128 = .ok (10, rk') ∧
      ∀ b b' : List Byte, b.length = 16 → b'.length = 16 → rijndaelEncrypt rk' 10 b = rijndaelEncrypt rk' 10 b' → b = b' := by
  obtain ⟨rk', rd', e, -, h⟩ := C62_decrypt_encrypt 4 10 (Or.inl ⟨rfl, rfl⟩) key hk rk rk hr hr
  refine ⟨rk', e, fun b b' hb hb' hh => ?_⟩
  obtain ⟨ct, h1, -, h2⟩ := h b hb
  obtain ⟨ct', h1', -, h2'⟩ := h b' hb'
  rw [h1, h1'] at hh
  rw [Res.ok.inj hh, h2'] at h2
  exact (Res.ok.inj h2).symm

set_option maxRecDepth 100000 in
example : (do
    let (Nr, rk) ← keySetupDec (List.replicate 44 0) (countBytes 16) 128
    rijndaelDecrypt rk Nr [0x69, 0xc4, 0xe0, 0xd8, 0x6a, 0x7b, 0x04, 0x30, 0xd8, 0xcd, 0xb7, 0x80, 0x70, 0xb4, 0xc5, 0x5a]) =
    .ok fipsPt := by decide +kernel

/-! ### C27 -/

/-- Output feedback: block `n` is the cipher applied `n` times to the zero block. -/
def ofbBlock (key : List Byte) (n : Nat) : List Byte := (Aes.encrypt 4 10 key)^[n] (List.replicate 16 0)

theorem ofb_length (key : List Byte) (n : Nat) : (ofbBlock key n).length = 16 := by
  cases n with
  | zero => rfl
  | succ n => unfold ofbBlock; rw [Function.iterate_succ_apply']; rfl

/-- The state before draw `k`, apart from the key. -/
def aesAt (rk : List UInt) (key : List Byte) (k : Nat) : AesS :=
  if k = 0 then ⟨rk, ofbBlock key 1, 0⟩ else ⟨rk, ofbBlock key ((k - 1) / 4 + 1), 4 * ((k - 1) % 4) + 4⟩

theorem aesGet_at (rk : List UInt) (key : List Byte)
    (hrk : ∀ pt : List Byte, pt.length = 16 → rijndaelEncrypt rk 10 pt = .ok (Aes.encrypt 4 10 key pt)) (k : Nat) :
    aesGet (aesAt rk key k) = .ok (leWord (ofbBlock key (k / 4 + 1)) (4 * (k % 4)), aesAt rk key (k + 1)) := by
  have hsucc : aesAt rk key (k + 1) = ⟨rk, ofbBlock key (k / 4 + 1), 4 * (k % 4) + 4⟩ := by
    unfold aesAt; rw [if_neg (by omega), Nat.add_sub_cancel]
  unfold aesGet
  by_cases hk : 0 < k ∧ k % 4 = 0
  · have e : aesAt rk key k = ⟨rk, ofbBlock key (k / 4), 16⟩ := by
      unfold aesAt
      rw [if_neg (by omega), show (k - 1) / 4 + 1 = k / 4 by omega, show 4 * ((k - 1) % 4) + 4 = 16 by omega]
    rw [e, hsucc]
    simp only [show 16 + 4 > 16 by omega, if_true]
    rw [hrk _ (ofb_length _ _)]
    simp only [Res.bind_ok]
    have e2 : Aes.encrypt 4 10 key (ofbBlock key (k / 4)) = ofbBlock key (k / 4 + 1) := by
      unfold ofbBlock; rw [Function.iterate_succ_apply']
    rw [e2, hk.2, rdWord_eq _ _ (by rw [ofb_length]; omega)]
    rfl
  · have e : aesAt rk key k = ⟨rk, ofbBlock key (k / 4 + 1), 4 * (k % 4)⟩ := by
      unfold aesAt
      by_cases h0 : k = 0
      · subst h0; rfl
      · rw [if_neg h0, show (k - 1) / 4 + 1 = k / 4 + 1 by omega, show 4 * ((k - 1) % 4) + 4 = 4 * (k % 4) by omega]
    rw [e, hsucc]
    simp only [show ¬ (4 * (k % 4) + 4 > 16) by omega, if_false, Res.bind_ok]
    rw [rdWord_eq _ _ (by rw [ofb_length]; omega)]
    rfl

theorem aesDraws_at (rk : List UInt) (key : List Byte)
    (hrk : ∀ pt : List Byte, pt.length = 16 → rijndaelEncrypt rk 10 pt = .ok (Aes.encrypt 4 10 key pt)) : ∀ n k,
    aesDraws n (aesAt rk key k) =
      .ok ((List.range n).map fun i => leWord (ofbBlock key ((k + i) / 4 + 1)) (4 * ((k + i) % 4)), aesAt rk key (k + n)) := by
  intro n
  induction n with
  | zero => intro k; rfl
  | succ n ih =>
    intro k
    rw [aesDraws, aesGet_at rk key hrk k, Res.bind_ok]
    simp only
    rw [ih (k + 1), Res.bind_ok]
    simp only [List.range_succ_eq_map, List.map_cons, List.map_map, Function.comp_def, Nat.add_zero, Nat.succ_eq_add_one]
    congr 2
    · congr 1
      apply List.map_congr_left
      intro i _
      rw [show k + 1 + i = k + (i + 1) by omega]
    · rw [show k + 1 + n = k + (n + 1) by omega]

/-- C27 (and C26 for aes).  Whatever the state held before, seeding succeeds, and the draws are the
32-bit little-endian words, in order and without gaps, of `E(0), E(E(0)), ...` where `E` is AES-128
under the key derived from the seed: draw `k` is word `k mod 4` of block `k / 4 + 1`. -/
theorem C27_aes_ofb (s : BitVec 64) : ∃ st, (∀ old, aesSet old s = .ok st) ∧
    ∀ n, ∃ st', aesDraws n st = .ok ((List.range n).map fun k => leWord (ofbBlock (aesKey s) (k / 4 + 1)) (4 * (k % 4)), st') := by
  obtain ⟨rk, e, h⟩ := C28_rijndael_is_aes 4 10 (Or.inl ⟨rfl, rfl⟩) (aesKey s) (by simp [aesKey]) (List.replicate 44 0) (by simp)
  refine ⟨aesAt rk (aesKey s) 0, fun old => ?_, fun n => ⟨aesAt rk (aesKey s) n, ?_⟩⟩
  · unfold aesSet
    rw [e, Res.bind_ok]
    simp only
    rw [h _ (by simp), Res.bind_ok]
    rfl
  · have := aesDraws_at rk (aesKey s) h n 0
    simp only [Nat.zero_add] at this
    exact this

set_option maxRecDepth 100000 in
/-- The first five draws from seed 0 (also computed with another AES implementation). -/
example : (aesSet ⟨[], [], 7⟩ 0 >>= aesDraws 5).map (fun r => (r.1, r.2.pos)) =
    .ok ([0x4e55d076, 0xc728d8ff, 0x25845302, 0xc6666a78, 0x9eecaf0a], 4) := by decide +kernel

/-! ### C63 -/

theorem aesKey_getElem (s : BitVec 64) (i : Nat) (hi : i < 16) :
    (aesKey s)[i]? = some ((112 + BitVec.ofNat 64 i + (s >>> (5 * i % 26))).setWidth 8) := by
  simp [aesKey, hi]

/-- C63.  The key is determined by, and determines, the low 33 bits of the seed: distinct 32-bit
seeds have distinct keys, and seeds that agree on the low 33 bits have the same stream. -/
theorem C63_aes_key (s s' : BitVec 64) : aesKey s = aesKey s' ↔ s.toNat % 2 ^ 33 = s'.toNat % 2 ^ 33 := by
  have hb : ∀ i < 16, ((112 + BitVec.ofNat 64 i + (s >>> (5 * i % 26))).setWidth 8 = (112 + BitVec.ofNat 64 i + (s' >>> (5 * i % 26))).setWidth 8) ↔
      s.toNat / 2 ^ (5 * i % 26) % 256 = s'.toNat / 2 ^ (5 * i % 26) % 256 := by
    intro i hi
    rw [← BitVec.toNat_inj]
    simp only [BitVec.toNat_setWidth, BitVec.toNat_add, BitVec.toNat_ushiftRight, Nat.shiftRight_eq_div_pow]
    generalize s.toNat / 2 ^ (5 * i % 26) = a
    generalize s'.toNat / 2 ^ (5 * i % 26) = b
    generalize (BitVec.toNat (112 : BitVec 64) + (BitVec.ofNat 64 i).toNat) % 2 ^ 64 = c
    omega
  constructor
  · intro h
    have hk : ∀ i < 16, s.toNat / 2 ^ (5 * i % 26) % 256 = s'.toNat / 2 ^ (5 * i % 26) % 256 := by
      intro i hi
      rw [← hb i hi]
      have := congrArg (fun l => l[i]?) h
      simp only [aesKey_getElem _ i hi, Option.some.injEq] at this
      exact this
    have h0 := hk 0 (by omega)
    have h1 := hk 1 (by omega)
    have h2 := hk 2 (by omega)
    have h3 := hk 3 (by omega)
    have h4 := hk 4 (by omega)
    have h5 := hk 5 (by omega)
    simp only [Nat.reduceMul, Nat.reduceMod, Nat.reducePow] at h0 h1 h2 h3 h4 h5 ⊢
    omega
  · intro h
    unfold aesKey
    apply List.map_congr_left
    intro i hi
    rw [hb i (List.mem_range.1 hi)]
    have : ∀ a b : Nat, ∀ t < 26, a % 2 ^ 33 = b % 2 ^ 33 → a / 2 ^ t % 256 = b / 2 ^ t % 256 := by
      intro a b t ht hab
      have key : ∀ x : Nat, x / 2 ^ t % 256 = (x % 2 ^ 33) / 2 ^ t % 256 := by
        intro x
        rw [show (256 : Nat) = 2 ^ 8 from rfl]
        apply Nat.eq_of_testBit_eq
        intro j
        rw [Nat.testBit_mod_two_pow, Nat.testBit_mod_two_pow, Nat.testBit_div_two_pow, Nat.testBit_div_two_pow, Nat.testBit_mod_two_pow]
        by_cases hj : j < 8
        · have : j + t < 33 := by omega
          simp [this]
        · simp [hj]
      rw [key a, key b, hab]
    exact this _ _ _ (Nat.mod_lt _ (by omega)) h

example : aesKey 1 ≠ aesKey 2 := by decide
example : aesKey 5 = aesKey (5 + 2 ^ 33) := by decide

end Dh
