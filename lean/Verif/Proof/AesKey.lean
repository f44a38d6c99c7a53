import Verif.Proof.Aes
import Mathlib.Data.List.GetD
/-
The key schedule of rijndael-alg-fst.c against that of AES.
-/
set_option linter.unusedSimpArgs false
namespace Dh
open Aes

theorem schedule_length (key : List Byte) (Nk n : Nat) : (schedule key Nk n).length = n := by
  induction n with
  | zero => rfl
  | succ n ih => simp [schedule, ih]

/-- Word `j` of the schedule. -/
def kw (key : List Byte) (Nk j : Nat) : Wd := (schedule key Nk (j + 1)).getD j zeroWord

theorem schedule_get (key : List Byte) (Nk : Nat) : ∀ n j, j < n → (schedule key Nk n).getD j zeroWord = kw key Nk j := by
  intro n
  induction n with
  | zero => intro j h; omega
  | succ n ih =>
    intro j h
    by_cases hj : j = n
    · subst hj; rfl
    · rw [schedule]
      simp only
      rw [List.getD_append _ _ _ _ (by rw [schedule_length]; omega)]
      exact ih j (by omega)

theorem kw_eq (key : List Byte) (Nk n : Nat) (hN : 0 < Nk) : kw key Nk n =
    if n < Nk then fun r => key.getD (4 * n + r.val) 0 else
      let temp := kw key Nk (n - 1)
      let temp := if n % Nk = 0 then addWord (subWord (rotWord temp)) (Aes.rcon (n / Nk))
        else if Nk > 6 ∧ n % Nk = 4 then subWord temp else temp
      addWord (kw key Nk (n - Nk)) temp := by
  rw [kw, schedule]
  simp only
  rw [List.getD_append_right _ _ _ _ (by simp only [schedule_length, Nat.le_refl])]
  rw [schedule_length, Nat.sub_self, List.getD_cons_zero]
  by_cases h : n < Nk
  · rw [if_pos h, if_pos h]
  · rw [if_neg h, if_neg h, schedule_get key Nk n (n - 1) (by omega), schedule_get key Nk n (n - Nk) (by omega)]

/-- The first `n` words of the array are those of the schedule. -/
def Pre (key : List Byte) (Nk : Nat) (rk : List UInt) (n L : Nat) : Prop :=
  rk.length = L ∧ ∀ j < n, rk[j]? = some (packW (kw key Nk j))

theorem Pre.rd {key : List Byte} {Nk : Nat} {rk : List UInt} {n L : Nat} (h : Pre key Nk rk n L) {j : Nat} (hj : j < n) :
    Dh.rd rk j = .ok (packW (kw key Nk j)) := rd_of_some (h.2 j hj)

theorem Pre.wr {key : List Byte} {Nk : Nat} {rk : List UInt} {n L : Nat} (h : Pre key Nk rk n L) (hn : n < L) :
    ∃ rk', Dh.wr rk n (packW (kw key Nk n)) = .ok rk' ∧ Pre key Nk rk' (n + 1) L := by
  refine ⟨rk.set n (packW (kw key Nk n)), ?_, by simp [h.1], ?_⟩
  · unfold Dh.wr; rw [if_pos (by rw [h.1]; exact hn)]
  · intro j hj
    rw [List.getElem?_set]
    by_cases e : n = j
    · subst e; simp [h.1, hn]
    · rw [if_neg e]; exact h.2 j (by omega)

theorem Pre.xor {key : List Byte} {Nk : Nat} (hN : 0 < Nk) {rk : List UInt} {n L : Nat} (h : Pre key Nk rk n L) (hn : n < L)
    (h1 : Nk ≤ n) (h2 : n % Nk ≠ 0) (h3 : ¬ (Nk > 6 ∧ n % Nk = 4)) :
    ∃ rk', ksXor rk n (n - Nk) (n - 1) = .ok rk' ∧ Pre key Nk rk' (n + 1) L := by
  obtain ⟨rk', e1, e2⟩ := h.wr hn
  refine ⟨rk', ?_, e2⟩
  unfold ksXor
  rw [h.rd (show n - Nk < n by omega), h.rd (show n - 1 < n by omega)]
  simp only [Res.bind_ok]
  rw [packW_add, ← e1, kw_eq key Nk n hN, if_neg (by omega)]
  simp only
  rw [if_neg h2, if_neg h3]

theorem rcon_rd : ∀ i < 10, Dh.rd Dh.rcon i = .ok (packW (Aes.rcon (i + 1))) := by decide +kernel

theorem Pre.rot {key : List Byte} {Nk : Nat} (hN : 0 < Nk) {rk : List UInt} {n L : Nat} (h : Pre key Nk rk n L) (hn : n < L)
    (h1 : Nk ≤ n) (h2 : n % Nk = 0) (i : Nat) (hi : i < 10) (hin : n / Nk = i + 1) :
    ∃ rk', ksRot rk n (n - Nk) (n - 1) i = .ok rk' ∧ Pre key Nk rk' (n + 1) L := by
  obtain ⟨rk', e1, e2⟩ := h.wr hn
  refine ⟨rk', ?_, e2⟩
  unfold ksRot
  rw [h.rd (show n - Nk < n by omega), h.rd (show n - 1 < n by omega), rcon_rd i hi]
  simp only [Res.bind_ok]
  rw [ksG_eq]
  simp only [Res.bind_ok]
  rw [BitVec.xor_assoc, packW_add, packW_add, ← e1, kw_eq key Nk n hN, if_neg (by omega)]
  simp only
  rw [if_pos h2, hin]

theorem Pre.sub {key : List Byte} {Nk : Nat} (hN : 6 < Nk) {rk : List UInt} {n L : Nat} (h : Pre key Nk rk n L) (hn : n < L)
    (h1 : Nk ≤ n) (h2 : n % Nk = 4) :
    ∃ rk', ksSub rk n (n - Nk) (n - 1) = .ok rk' ∧ Pre key Nk rk' (n + 1) L := by
  obtain ⟨rk', e1, e2⟩ := h.wr hn
  refine ⟨rk', ?_, e2⟩
  unfold ksSub
  rw [h.rd (show n - Nk < n by omega), h.rd (show n - 1 < n by omega)]
  simp only [Res.bind_ok]
  rw [ksH_eq]
  simp only [Res.bind_ok]
  rw [packW_add, ← e1, kw_eq key Nk n (by omega), if_neg (by omega)]
  simp only
  rw [if_neg (by omega), if_pos ⟨hN, h2⟩]

theorem Pre.load {key : List Byte} {Nk : Nat} {rk : List UInt} {n L : Nat} (h : Pre key Nk rk n L) (hn : n < L)
    (hk : key.length = 4 * Nk) (h1 : n < Nk) :
    ∃ rk', ksLoad key n rk = .ok rk' ∧ Pre key Nk rk' (n + 1) L := by
  obtain ⟨rk', e1, e2⟩ := h.wr hn
  refine ⟨rk', ?_, e2⟩
  unfold ksLoad
  rw [getU32_eq key (4 * n) (by omega)]
  simp only [Res.bind_ok]
  rw [← e1, kw_eq key Nk n (by omega), if_pos h1]
  rfl

theorem ks128_ok (key : List Byte) : ∀ todo i rk, i + todo = 10 → Pre key 4 rk (4 * i + 4) 44 →
    ∃ rk', ks128 todo i (4 * i) rk = .ok rk' ∧ Pre key 4 rk' 44 44 := by
  intro todo
  induction todo with
  | zero => intro i rk hi h; simp only [Nat.add_zero] at hi; subst hi; exact ⟨rk, rfl, h⟩
  | succ todo ih =>
    intro i rk hi h
    obtain ⟨r1, a1, b1⟩ := h.rot (by omega) (by omega) (by omega) (by omega) i (by omega) (by omega)
    obtain ⟨r2, a2, b2⟩ := b1.xor (by omega) (by omega) (by omega) (by omega) (by omega)
    obtain ⟨r3, a3, b3⟩ := b2.xor (by omega) (by omega) (by omega) (by omega) (by omega)
    obtain ⟨r4, a4, b4⟩ := b3.xor (by omega) (by omega) (by omega) (by omega) (by omega)
    obtain ⟨r5, a5, b5⟩ := ih (i + 1) r4 (by omega) b4
    refine ⟨r5, ?_, b5⟩
    rw [ks128]
    rw [show 4 * i + 4 - 4 = 4 * i by omega, show 4 * i + 4 - 1 = 4 * i + 3 by omega] at a1
    rw [show 4 * i + 4 + 1 - 4 = 4 * i + 1 by omega, show 4 * i + 4 + 1 - 1 = 4 * i + 4 by omega] at a2
    rw [show 4 * i + 4 + 1 + 1 - 4 = 4 * i + 2 by omega, show 4 * i + 4 + 1 + 1 - 1 = 4 * i + 5 by omega] at a3
    rw [show 4 * i + 4 + 1 + 1 + 1 - 4 = 4 * i + 3 by omega, show 4 * i + 4 + 1 + 1 + 1 - 1 = 4 * i + 6 by omega] at a4
    rw [a1, Res.bind_ok, a2, Res.bind_ok, a3, Res.bind_ok, a4, Res.bind_ok]
    rw [show 4 * i + 4 = 4 * (i + 1) by omega]
    exact a5

theorem ks192_ok (key : List Byte) : ∀ todo i rk, i + todo = 7 → Pre key 6 rk (6 * i + 6) 52 →
    ∃ rk', ks192 todo i (6 * i) rk = .ok rk' ∧ Pre key 6 rk' 52 52 := by
  intro todo
  induction todo with
  | zero =>
    intro i rk hi h
    obtain ⟨r1, a1, b1⟩ := h.rot (by omega) (by omega) (by omega) (by omega) i (by omega) (by omega)
    obtain ⟨r2, a2, b2⟩ := b1.xor (by omega) (by omega) (by omega) (by omega) (by omega)
    obtain ⟨r3, a3, b3⟩ := b2.xor (by omega) (by omega) (by omega) (by omega) (by omega)
    obtain ⟨r4, a4, b4⟩ := b3.xor (by omega) (by omega) (by omega) (by omega) (by omega)
    rw [show 6 * i + 6 - 6 = 6 * i by omega, show 6 * i + 6 - 1 = 6 * i + 5 by omega] at a1
    rw [show 6 * i + 6 + 1 - 6 = 6 * i + 1 by omega, show 6 * i + 6 + 1 - 1 = 6 * i + 6 by omega] at a2
    rw [show 6 * i + 6 + 1 + 1 - 6 = 6 * i + 2 by omega, show 6 * i + 6 + 1 + 1 - 1 = 6 * i + 7 by omega] at a3
    rw [show 6 * i + 6 + 1 + 1 + 1 - 6 = 6 * i + 3 by omega, show 6 * i + 6 + 1 + 1 + 1 - 1 = 6 * i + 8 by omega] at a4
    refine ⟨r4, ?_, ?_⟩
    · rw [ks192]
      rw [a1, Res.bind_ok, a2, Res.bind_ok, a3, Res.bind_ok, a4, Res.bind_ok]
    · have e : 6 * i + 6 + 1 + 1 + 1 + 1 = 52 := by omega
      rw [e] at b4; exact b4
  | succ todo ih =>
    intro i rk hi h
    obtain ⟨r1, a1, b1⟩ := h.rot (by omega) (by omega) (by omega) (by omega) i (by omega) (by omega)
    obtain ⟨r2, a2, b2⟩ := b1.xor (by omega) (by omega) (by omega) (by omega) (by omega)
    obtain ⟨r3, a3, b3⟩ := b2.xor (by omega) (by omega) (by omega) (by omega) (by omega)
    obtain ⟨r4, a4, b4⟩ := b3.xor (by omega) (by omega) (by omega) (by omega) (by omega)
    obtain ⟨r6, a6, b6⟩ := b4.xor (by omega) (by omega) (by omega) (by omega) (by omega)
    obtain ⟨r7, a7, b7⟩ := b6.xor (by omega) (by omega) (by omega) (by omega) (by omega)
    obtain ⟨r5, a5, b5⟩ := ih (i + 1) r7 (by omega) b7
    refine ⟨r5, ?_, b5⟩
    rw [ks192]
    rw [show 6 * i + 6 - 6 = 6 * i by omega, show 6 * i + 6 - 1 = 6 * i + 5 by omega] at a1
    rw [show 6 * i + 6 + 1 - 6 = 6 * i + 1 by omega, show 6 * i + 6 + 1 - 1 = 6 * i + 6 by omega] at a2
    rw [show 6 * i + 6 + 1 + 1 - 6 = 6 * i + 2 by omega, show 6 * i + 6 + 1 + 1 - 1 = 6 * i + 7 by omega] at a3
    rw [show 6 * i + 6 + 1 + 1 + 1 - 6 = 6 * i + 3 by omega, show 6 * i + 6 + 1 + 1 + 1 - 1 = 6 * i + 8 by omega] at a4
    rw [show 6 * i + 6 + 1 + 1 + 1 + 1 - 6 = 6 * i + 4 by omega, show 6 * i + 6 + 1 + 1 + 1 + 1 - 1 = 6 * i + 9 by omega] at a6
    rw [show 6 * i + 6 + 1 + 1 + 1 + 1 + 1 - 6 = 6 * i + 5 by omega, show 6 * i + 6 + 1 + 1 + 1 + 1 + 1 - 1 = 6 * i + 10 by omega] at a7
    rw [a1, Res.bind_ok, a2, Res.bind_ok, a3, Res.bind_ok, a4, Res.bind_ok]
    simp only
    rw [a6, Res.bind_ok, a7, Res.bind_ok]
    rw [show 6 * i + 6 = 6 * (i + 1) by omega]
    exact a5

theorem ks256_ok (key : List Byte) : ∀ todo i rk, i + todo = 6 → Pre key 8 rk (8 * i + 8) 60 →
    ∃ rk', ks256 todo i (8 * i) rk = .ok rk' ∧ Pre key 8 rk' 60 60 := by
  intro todo
  induction todo with
  | zero =>
    intro i rk hi h
    obtain ⟨r1, a1, b1⟩ := h.rot (by omega) (by omega) (by omega) (by omega) i (by omega) (by omega)
    obtain ⟨r2, a2, b2⟩ := b1.xor (by omega) (by omega) (by omega) (by omega) (by omega)
    obtain ⟨r3, a3, b3⟩ := b2.xor (by omega) (by omega) (by omega) (by omega) (by omega)
    obtain ⟨r4, a4, b4⟩ := b3.xor (by omega) (by omega) (by omega) (by omega) (by omega)
    rw [show 8 * i + 8 - 8 = 8 * i by omega, show 8 * i + 8 - 1 = 8 * i + 7 by omega] at a1
    rw [show 8 * i + 8 + 1 - 8 = 8 * i + 1 by omega, show 8 * i + 8 + 1 - 1 = 8 * i + 8 by omega] at a2
    rw [show 8 * i + 8 + 1 + 1 - 8 = 8 * i + 2 by omega, show 8 * i + 8 + 1 + 1 - 1 = 8 * i + 9 by omega] at a3
    rw [show 8 * i + 8 + 1 + 1 + 1 - 8 = 8 * i + 3 by omega, show 8 * i + 8 + 1 + 1 + 1 - 1 = 8 * i + 10 by omega] at a4
    refine ⟨r4, ?_, ?_⟩
    · rw [ks256]
      rw [a1, Res.bind_ok, a2, Res.bind_ok, a3, Res.bind_ok, a4, Res.bind_ok]
    · have e : 8 * i + 8 + 1 + 1 + 1 + 1 = 60 := by omega
      rw [e] at b4; exact b4
  | succ todo ih =>
    intro i rk hi h
    obtain ⟨r1, a1, b1⟩ := h.rot (by omega) (by omega) (by omega) (by omega) i (by omega) (by omega)
    obtain ⟨r2, a2, b2⟩ := b1.xor (by omega) (by omega) (by omega) (by omega) (by omega)
    obtain ⟨r3, a3, b3⟩ := b2.xor (by omega) (by omega) (by omega) (by omega) (by omega)
    obtain ⟨r4, a4, b4⟩ := b3.xor (by omega) (by omega) (by omega) (by omega) (by omega)
    obtain ⟨r6, a6, b6⟩ := b4.sub (by omega) (by omega) (by omega) (by omega)
    obtain ⟨r7, a7, b7⟩ := b6.xor (by omega) (by omega) (by omega) (by omega) (by omega)
    obtain ⟨r8, a8, b8⟩ := b7.xor (by omega) (by omega) (by omega) (by omega) (by omega)
    obtain ⟨r9, a9, b9⟩ := b8.xor (by omega) (by omega) (by omega) (by omega) (by omega)
    obtain ⟨r5, a5, b5⟩ := ih (i + 1) r9 (by omega) b9
    refine ⟨r5, ?_, b5⟩
    rw [ks256]
    rw [show 8 * i + 8 - 8 = 8 * i by omega, show 8 * i + 8 - 1 = 8 * i + 7 by omega] at a1
    rw [show 8 * i + 8 + 1 - 8 = 8 * i + 1 by omega, show 8 * i + 8 + 1 - 1 = 8 * i + 8 by omega] at a2
    rw [show 8 * i + 8 + 1 + 1 - 8 = 8 * i + 2 by omega, show 8 * i + 8 + 1 + 1 - 1 = 8 * i + 9 by omega] at a3
    rw [show 8 * i + 8 + 1 + 1 + 1 - 8 = 8 * i + 3 by omega, show 8 * i + 8 + 1 + 1 + 1 - 1 = 8 * i + 10 by omega] at a4
    rw [show 8 * i + 8 + 1 + 1 + 1 + 1 - 8 = 8 * i + 4 by omega, show 8 * i + 8 + 1 + 1 + 1 + 1 - 1 = 8 * i + 11 by omega] at a6
    rw [show 8 * i + 8 + 1 + 1 + 1 + 1 + 1 - 8 = 8 * i + 5 by omega, show 8 * i + 8 + 1 + 1 + 1 + 1 + 1 - 1 = 8 * i + 12 by omega] at a7
    rw [show 8 * i + 8 + 1 + 1 + 1 + 1 + 1 + 1 - 8 = 8 * i + 6 by omega, show 8 * i + 8 + 1 + 1 + 1 + 1 + 1 + 1 - 1 = 8 * i + 13 by omega] at a8
    rw [show 8 * i + 8 + 1 + 1 + 1 + 1 + 1 + 1 + 1 - 8 = 8 * i + 7 by omega, show 8 * i + 8 + 1 + 1 + 1 + 1 + 1 + 1 + 1 - 1 = 8 * i + 14 by omega] at a9
    rw [a1, Res.bind_ok, a2, Res.bind_ok, a3, Res.bind_ok, a4, Res.bind_ok]
    simp only
    rw [a6, Res.bind_ok, a7, Res.bind_ok, a8, Res.bind_ok, a9, Res.bind_ok]
    rw [show 8 * i + 8 = 8 * (i + 1) by omega]
    exact a5

/-- The three key sizes: words of key, rounds. -/
def AesSize (Nk Nr : Nat) : Prop := (Nk = 4 ∧ Nr = 10) ∨ (Nk = 6 ∧ Nr = 12) ∨ (Nk = 8 ∧ Nr = 14)

theorem keySetupEnc_ok (Nk Nr : Nat) (hs : AesSize Nk Nr) (key : List Byte) (hk : key.length = 4 * Nk)
    (rk : List UInt) (hr : rk.length = 4 * (Nr + 1)) :
    ∃ rk', keySetupEnc rk key (32 * Nk) = .ok (Nr, rk') ∧ Pre key Nk rk' (4 * (Nr + 1)) (4 * (Nr + 1)) := by
  have h0 : Pre key Nk rk 0 (4 * (Nr + 1)) := ⟨hr, fun j hj => by omega⟩
  rcases hs with ⟨rfl, rfl⟩ | ⟨rfl, rfl⟩ | ⟨rfl, rfl⟩
  all_goals
    obtain ⟨r0, a0, b0⟩ := h0.load (by omega) hk (by omega)
    obtain ⟨r1, a1, b1⟩ := b0.load (by omega) hk (by omega)
    obtain ⟨r2, a2, b2⟩ := b1.load (by omega) hk (by omega)
    obtain ⟨r3, a3, b3⟩ := b2.load (by omega) hk (by omega)
    simp only [Nat.zero_add, Nat.reduceAdd, Nat.reduceMul] at a0 a1 a2 a3 b0 b1 b2 b3
    unfold keySetupEnc
    rw [a0, Res.bind_ok, a1, Res.bind_ok, a2, Res.bind_ok, a3, Res.bind_ok]
  · obtain ⟨r, a, b⟩ := ks128_ok key 10 0 r3 rfl b3
    refine ⟨r, ?_, b⟩
    rw [if_pos rfl, a, Res.bind_ok]
  · obtain ⟨r4, a4, b4⟩ := b3.load (by omega) hk (by omega)
    obtain ⟨r5, a5, b5⟩ := b4.load (by omega) hk (by omega)
    obtain ⟨r, a, b⟩ := ks192_ok key 7 0 r5 rfl b5
    refine ⟨r, ?_, b⟩
    rw [if_neg (by omega), a4, Res.bind_ok, a5, Res.bind_ok, if_pos rfl, a, Res.bind_ok]
  · obtain ⟨r4, a4, b4⟩ := b3.load (by omega) hk (by omega)
    obtain ⟨r5, a5, b5⟩ := b4.load (by omega) hk (by omega)
    obtain ⟨r6, a6, b6⟩ := b5.load (by omega) hk (by omega)
    obtain ⟨r7, a7, b7⟩ := b6.load (by omega) hk (by omega)
    obtain ⟨r, a, b⟩ := ks256_ok key 6 0 r7 rfl b7
    refine ⟨r, ?_, b⟩
    rw [if_neg (by omega), a4, Res.bind_ok, a5, Res.bind_ok, if_neg (by omega), a6, Res.bind_ok, a7, Res.bind_ok, if_pos rfl, a, Res.bind_ok]

/-- The array then holds the round keys. -/
theorem Pre.hasKey {key : List Byte} {Nk Nr : Nat} {rk : List UInt} (h : Pre key Nk rk (4 * (Nr + 1)) (4 * (Nr + 1)))
    (j : Nat) (hj : j ≤ Nr) : HasKey rk (4 * j) (roundKey key Nk Nr j) := by
  have hc : ∀ c : Fin 4, rk[4 * j + c.val]? = some (colw (roundKey key Nk Nr j) c) := by
    intro c
    rw [h.2 (4 * j + c.val) (by omega)]
    unfold colw roundKey packW
    rw [schedule_get key Nk (4 * (Nr + 1)) (4 * j + c.val) (by omega)]
  exact ⟨hc 0, hc 1, hc 2, hc 3⟩

end Dh
