import Mathlib.Algebra.Polynomial.AlgebraMap
import Mathlib.LinearAlgebra.Pi
import Mathlib.Data.ZMod.Basic
import Verif.Proof.MtChain
import Verif.Proof.Mersenne
import Verif.Proof.LinRel
import Verif.Props.GnuRPeriod
/-
C105: the period of R's Mersenne Twister.
-/
namespace Dh
open Spec Polynomial

/-! ### The tempering is one to one -/

theorem and_xor_word (u v m : UInt) : (u ^^^ v) &&& m = (u &&& m) ^^^ (v &&& m) := by
  apply BitVec.eq_of_getLsbD_eq
  intro i _
  rw [BitVec.getLsbD_and, BitVec.getLsbD_xor, BitVec.getLsbD_xor, BitVec.getLsbD_and, BitVec.getLsbD_and]
  exact Bool.and_xor_distrib_right _ _ _

theorem xor_swap (a b c d : UInt) : (a ^^^ b) ^^^ (c ^^^ d) = (a ^^^ c) ^^^ (b ^^^ d) := by ac_rfl

theorem temper_xor (u v : UInt) : temper (u ^^^ v) = temper u ^^^ temper v := by
  have h1 : ∀ (k : Nat) (a b : UInt), (a ^^^ b) ^^^ ((a ^^^ b) >>> k) = (a ^^^ a >>> k) ^^^ (b ^^^ b >>> k) := fun k a b => by
    rw [BitVec.ushiftRight_xor_distrib, xor_swap]
  have h2 : ∀ (k : Nat) (m a b : UInt), (a ^^^ b) ^^^ (((a ^^^ b) <<< k) &&& m) = (a ^^^ ((a <<< k) &&& m)) ^^^ (b ^^^ ((b <<< k) &&& m)) := fun k m a b => by
    rw [BitVec.shiftLeft_xor_distrib, and_xor_word, xor_swap]
  have h3 : ∀ y, temper y = (fun c : UInt => c ^^^ c >>> 18) ((fun b : UInt => b ^^^ ((b <<< 15) &&& 0xefc60000#32))
    ((fun a : UInt => a ^^^ ((a <<< 7) &&& 0x9d2c5680#32)) ((fun y : UInt => y ^^^ y >>> 11) y))) := fun _ => rfl
  rw [h3, h3, h3]
  beta_reduce
  rw [h1 11 u v]
  generalize u ^^^ u >>> 11 = u
  generalize v ^^^ v >>> 11 = v
  rw [h2 7 _ u v]
  generalize u ^^^ u <<< 7 &&& 2636928640#32 = u
  generalize v ^^^ v <<< 7 &&& 2636928640#32 = v
  rw [h2 15 _ u v]
  generalize u ^^^ u <<< 15 &&& 4022730752#32 = u
  generalize v ^^^ v <<< 15 &&& 4022730752#32 = v
  exact h1 18 u v

/-- The matrix that undoes the tempering. -/
def untemper : List Nat :=
  [270681289, 2, 2165448768, 263304, 16, 67670322, 64, 274877641, 8392962, 2165317636, 33571848, 67405969, 201953586, 8196, 807814344, 1074299152, 2148598304, 2165449284, 270943305, 67666194, 2298684000, 270926024, 4196369, 76054832, 2165318212, 308415681, 75534610, 2299600932, 302138440, 604014609, 1275170866, 2148540932]

theorem temper_inj (u v : UInt) : temper u = temper v ↔ u = v := by
  refine ⟨fun h => ?_, fun h => by rw [h]⟩
  have key : ∀ w : UInt, applyCols untemper (temper w).toNat = w.toNat := fun w => by
    have := linear_ext (fun n => applyCols untemper (applyCols (wordCols temper) n)) id (fun a b => by rw [applyCols_xor, applyCols_xor])
      (fun _ _ => rfl) (by decide +kernel) w.toNat w.isLt
    rw [applyCols_word temper temper_xor] at this
    exact this
  exact BitVec.eq_of_toNat_eq (by rw [← key u, ← key v, h])

/-! ### The bits of the words -/

/-- Bit `i` of the words from the second on. -/
def mtBit (x : Nat → UInt) (i n : Nat) : ZMod 2 := if (x (n + 1)).getLsbD i then 1 else 0

/-- The bits of the row of the matrix. -/
def mtRow (i : Nat) : ZMod 2 := if (0x9908b0df#32).getLsbD i then 1 else 0

theorem mt_word_bit {x : Nat → UInt} (hx : Mt19937 x) (k i : Nat) (hi : i < 32) : (x (k + 624)).getLsbD i =
    ((x (k + 397)).getLsbD i ^^ ((if i < 30 then (x (k + 1)).getLsbD (i + 1) else if i = 30 then (x k).getLsbD 31 else false) ^^
      ((x (k + 1)).getLsbD 0 && (0x9908b0df#32).getLsbD i))) := by
  rw [hx k, BitVec.getLsbD_xor, BitVec.getLsbD_xor, BitVec.getLsbD_ushiftRight, BitVec.getLsbD_append]
  congr 2
  · simp only [BitVec.getLsbD_extractLsb']
    by_cases h : i < 30
    · rw [if_pos h, decide_eq_true (show 1 + i < 31 by omega)]
      simp [Nat.add_comm, show i + 1 < 31 by omega]
    · rw [if_neg h, decide_eq_false (show ¬ 1 + i < 31 by omega)]
      by_cases h2 : i = 30
      · subst h2; simp
      · rw [if_neg h2, decide_eq_false (show ¬ 1 + i - 31 < 1 by omega)]; simp
  · have h0 : (x (k + 1)).getLsbD 0 = decide ((x (k + 1)).toNat % 2 = 1) := by
      rw [BitVec.getLsbD, Nat.testBit_zero]
    rw [h0]
    split
    · rename_i h; simp [h]
    · rename_i h; simp [h]

theorem boolCast_xor (a b : Bool) : (if (a ^^ b) = true then 1 else 0 : ZMod 2) = (if a = true then 1 else 0) + (if b = true then 1 else 0) := by
  cases a <;> cases b <;> decide

theorem boolCast_and (a b : Bool) : (if (a && b) = true then 1 else 0 : ZMod 2) = (if b = true then 1 else 0) * (if a = true then 1 else 0) := by
  cases a <;> cases b <;> decide

theorem mtBit_low {x : Nat → UInt} (hx : Mt19937 x) (i : Nat) (hi : i < 30) (n : Nat) :
    mtBit x i (n + 623) = mtBit x i (n + 396) + (mtBit x (i + 1) n + mtRow i * mtBit x 0 n) := by
  have := mt_word_bit hx n i (by omega)
  rw [if_pos hi] at this
  unfold mtBit mtRow
  rw [show n + 623 + 1 = n + 624 by rfl, this, boolCast_xor, boolCast_xor, boolCast_and]

theorem mtBit_30 {x : Nat → UInt} (hx : Mt19937 x) (n : Nat) :
    mtBit x 30 (n + 624) = mtBit x 30 (n + 397) + (mtBit x 31 n + mtRow 30 * mtBit x 0 (n + 1)) := by
  have := mt_word_bit hx (n + 1) 30 (by omega)
  rw [if_neg (by omega), if_pos rfl] at this
  unfold mtBit mtRow
  rw [show n + 624 + 1 = n + 1 + 624 by omega, this, boolCast_xor, boolCast_xor, boolCast_and]

theorem mtBit_31 {x : Nat → UInt} (hx : Mt19937 x) (n : Nat) : mtBit x 31 (n + 623) = mtBit x 31 (n + 396) + mtBit x 0 n := by
  have := mt_word_bit hx n 31 (by omega)
  rw [if_neg (by omega), if_neg (by omega)] at this
  unfold mtBit
  rw [show n + 623 + 1 = n + 624 by rfl, this, boolCast_xor, boolCast_xor, boolCast_and]
  simp

/-! ### Polynomials in the shift -/

/-- The shift of sequences of bits. -/
noncomputable def mtS : Module.End (ZMod 2) (ℕ → ZMod 2) := LinearMap.funLeft (ZMod 2) (ZMod 2) Nat.succ

theorem mtS_pow (k : Nat) (g : ℕ → ZMod 2) (n : Nat) : (mtS ^ k) g n = g (n + k) := by
  induction k generalizing n with
  | zero => simp
  | succ k ih =>
    have e : mtS ^ (k + 1) = mtS * mtS ^ k := pow_succ' _ _
    rw [e, Module.End.mul_apply]
    show (mtS ^ k) g (n + 1) = _
    rw [ih]
    congr 1; omega

/-- The polynomials in the shift that annihilate a sequence. -/
noncomputable def mtIdeal (z : ℕ → ZMod 2) : Ideal (ZMod 2)[X] where
  carrier := {p | aeval mtS p z = 0}
  add_mem' {p q} hp hq := by
    have hp : aeval mtS p z = 0 := hp
    have hq : aeval mtS q z = 0 := hq
    show aeval mtS (p + q) z = 0
    rw [map_add, LinearMap.add_apply, hp, hq, add_zero]
  zero_mem' := by show aeval mtS 0 z = 0; simp
  smul_mem' c p hp := by
    have hp : aeval mtS p z = 0 := hp
    show aeval mtS (c • p) z = 0
    rw [smul_eq_mul, map_mul, Module.End.mul_apply, hp, map_zero]

theorem mem_mtIdeal (z : ℕ → ZMod 2) (p : (ZMod 2)[X]) : p ∈ mtIdeal z ↔ aeval mtS p z = 0 := Iff.rfl

/-- A binomial. -/
noncomputable def mtBin (a b : Nat) : (ZMod 2)[X] := X ^ a + X ^ b

theorem mtBin_apply (a b : Nat) (y : ℕ → ZMod 2) (n : Nat) : aeval mtS (mtBin a b) y n = y (n + a) + y (n + b) := by
  rw [mtBin, map_add, map_pow, map_pow, aeval_X, LinearMap.add_apply, Pi.add_apply, mtS_pow, mtS_pow]

theorem mtBin_mk (a b : Nat) (I : Ideal (ZMod 2)[X]) : Ideal.Quotient.mk I (mtBin a b) = Ideal.Quotient.mk I X ^ a + Ideal.Quotient.mk I X ^ b := by
  rw [mtBin, map_add, map_pow, map_pow]

attribute [irreducible] mtBin

/-- Bit `i ≤ 30` is this polynomial in the shift, applied to bit 0. -/
noncomputable def mtPolys : Nat → (ZMod 2)[X]
  | 0 => 1
  | i + 1 => mtBin 623 396 * mtPolys i + C (mtRow i)

theorem zmod_two_self : ∀ a b : ZMod 2, b = a + b + a := by decide

theorem zmod_two_add {a b c : ZMod 2} (h : a = b + c) : c = a + b := by rw [h]; exact zmod_two_self b c

theorem mtPolys_apply {x : Nat → UInt} (hx : Mt19937 x) (i : Nat) (hi : i ≤ 30) : aeval mtS (mtPolys i) (mtBit x 0) = mtBit x i := by
  induction i with
  | zero => rw [mtPolys, map_one, Module.End.one_apply]
  | succ i ih =>
    have ih := ih (by omega)
    rw [mtPolys, map_add, map_mul, LinearMap.add_apply, Module.End.mul_apply, ih, aeval_C]
    funext n
    rw [Pi.add_apply, mtBin_apply, ← zmod_two_add (mtBit_low hx i (by omega) n)]
    show mtBit x (i + 1) n + mtRow i * mtBit x 0 n + mtRow i * mtBit x 0 n = _
    generalize mtBit x (i + 1) n = u
    generalize mtRow i * mtBit x 0 n = v
    revert u v
    decide

/-- The polynomial of bit 31. -/
noncomputable def mtPoly31 : (ZMod 2)[X] := X * (mtBin 623 396 * mtPolys 30 + C (mtRow 30))

theorem mtPoly31_apply {x : Nat → UInt} (hx : Mt19937 x) : aeval mtS mtPoly31 (mtBit x 0) = mtBit x 31 := by
  rw [mtPoly31, map_mul, aeval_X, Module.End.mul_apply, map_add, map_mul, LinearMap.add_apply, Module.End.mul_apply, mtPolys_apply hx 30 le_rfl, aeval_C]
  funext n
  show (aeval mtS (mtBin 623 396) (mtBit x 30) (n + 1)) + mtRow 30 * mtBit x 0 (n + 1) = _
  rw [mtBin_apply, show n + 1 + 623 = n + 624 by omega, show n + 1 + 396 = n + 397 by omega, ← zmod_two_add (mtBit_30 hx n)]
  generalize mtBit x 31 n = u
  generalize mtRow 30 * mtBit x 0 (n + 1) = v
  revert u v
  decide

theorem mt_relation {x : Nat → UInt} (hx : Mt19937 x) : mtBin 623 396 * mtPoly31 - 1 ∈ mtIdeal (mtBit x 0) := by
  rw [mem_mtIdeal, map_sub, map_one, map_mul, LinearMap.sub_apply, Module.End.mul_apply, mtPoly31_apply hx, sub_eq_zero]
  funext n
  rw [mtBin_apply, ← zmod_two_add (mtBit_31 hx n)]
  rfl

/-- The shift is a root of the characteristic polynomial. -/
theorem mt_root {x : Nat → UInt} (hx : Mt19937 x) (h2 : (2 : (ZMod 2)[X] ⧸ mtIdeal (mtBit x 0)) = 0) : MtRoot (Ideal.Quotient.mk (mtIdeal (mtBit x 0)) X) := by
  obtain ⟨q, hq⟩ : ∃ q, q = Ideal.Quotient.mk (mtIdeal (mtBit x 0)) := ⟨_, rfl⟩
  have hrel : q (mtBin 623 396 * mtPoly31) = 1 := by
    have := (Ideal.Quotient.eq (I := mtIdeal (mtBit x 0))).2 (mt_relation hx)
    rw [hq, this, map_one]
  have hE : q (mtBin 623 396) = q X ^ 623 + q X ^ 396 := by rw [hq]; exact mtBin_mk 623 396 _
  rw [← hq]
  obtain ⟨E, hEE⟩ : ∃ E, E = q (mtBin 623 396) := ⟨_, rfl⟩
  have rowT : ∀ i, (0x9908b0df#32).getLsbD i = true → q (C (mtRow i)) = 1 := fun i h => by
    rw [mtRow, if_pos h, map_one, map_one]
  have rowF : ∀ i, (0x9908b0df#32).getLsbD i = false → q (C (mtRow i)) = 0 := fun i h => by
    rw [mtRow, h, if_neg (by decide), map_zero, map_zero]
  have p0 : q (mtPolys 0) = 1 := by rw [mtPolys, map_one]
  rw [map_mul, mtPoly31, map_mul, map_add, map_mul, ← hEE, rowF 30 (by decide), add_zero] at hrel
  rw [← hEE] at hE
  have step : ∀ i, q (mtPolys (i + 1)) = E * q (mtPolys i) + q (C (mtRow i)) := fun i => by rw [mtPolys, map_add, map_mul, hEE]
  have p1 : q (mtPolys 1) = (E * 1 + 1) := by rw [step, p0, rowT 0 (by decide)]
  have p2 : q (mtPolys 2) = (E * (E * 1 + 1) + 1) := by rw [step, p1, rowT 1 (by decide)]
  have p3 : q (mtPolys 3) = (E * (E * (E * 1 + 1) + 1) + 1) := by rw [step, p2, rowT 2 (by decide)]
  have p4 : q (mtPolys 4) = (E * (E * (E * (E * 1 + 1) + 1) + 1) + 1) := by rw [step, p3, rowT 3 (by decide)]
  have p5 : q (mtPolys 5) = (E * (E * (E * (E * (E * 1 + 1) + 1) + 1) + 1) + 1) := by rw [step, p4, rowT 4 (by decide)]
  have p6 : q (mtPolys 6) = (E * (E * (E * (E * (E * (E * 1 + 1) + 1) + 1) + 1) + 1)) := by rw [step, p5, rowF 5 (by decide), add_zero]
  have p7 : q (mtPolys 7) = (E * (E * (E * (E * (E * (E * (E * 1 + 1) + 1) + 1) + 1) + 1)) + 1) := by rw [step, p6, rowT 6 (by decide)]
  have p8 : q (mtPolys 8) = (E * (E * (E * (E * (E * (E * (E * (E * 1 + 1) + 1) + 1) + 1) + 1)) + 1) + 1) := by rw [step, p7, rowT 7 (by decide)]
  have p9 : q (mtPolys 9) = (E * (E * (E * (E * (E * (E * (E * (E * (E * 1 + 1) + 1) + 1) + 1) + 1)) + 1) + 1)) := by rw [step, p8, rowF 8 (by decide), add_zero]
  have p10 : q (mtPolys 10) = (E * (E * (E * (E * (E * (E * (E * (E * (E * (E * 1 + 1) + 1) + 1) + 1) + 1)) + 1) + 1))) := by rw [step, p9, rowF 9 (by decide), add_zero]
  have p11 : q (mtPolys 11) = (E * (E * (E * (E * (E * (E * (E * (E * (E * (E * (E * 1 + 1) + 1) + 1) + 1) + 1)) + 1) + 1)))) := by rw [step, p10, rowF 10 (by decide), add_zero]
  have p12 : q (mtPolys 12) = (E * (E * (E * (E * (E * (E * (E * (E * (E * (E * (E * (E * 1 + 1) + 1) + 1) + 1) + 1)) + 1) + 1))))) := by rw [step, p11, rowF 11 (by decide), add_zero]
  have p13 : q (mtPolys 13) = (E * (E * (E * (E * (E * (E * (E * (E * (E * (E * (E * (E * (E * 1 + 1) + 1) + 1) + 1) + 1)) + 1) + 1))))) + 1) := by rw [step, p12, rowT 12 (by decide)]
  have p14 : q (mtPolys 14) = (E * (E * (E * (E * (E * (E * (E * (E * (E * (E * (E * (E * (E * (E * 1 + 1) + 1) + 1) + 1) + 1)) + 1) + 1))))) + 1) + 1) := by rw [step, p13, rowT 13 (by decide)]
  have p15 : q (mtPolys 15) = (E * (E * (E * (E * (E * (E * (E * (E * (E * (E * (E * (E * (E * (E * (E * 1 + 1) + 1) + 1) + 1) + 1)) + 1) + 1))))) + 1) + 1)) := by rw [step, p14, rowF 14 (by decide), add_zero]
  have p16 : q (mtPolys 16) = (E * (E * (E * (E * (E * (E * (E * (E * (E * (E * (E * (E * (E * (E * (E * (E * 1 + 1) + 1) + 1) + 1) + 1)) + 1) + 1))))) + 1) + 1)) + 1) := by rw [step, p15, rowT 15 (by decide)]
  have p17 : q (mtPolys 17) = (E * (E * (E * (E * (E * (E * (E * (E * (E * (E * (E * (E * (E * (E * (E * (E * (E * 1 + 1) + 1) + 1) + 1) + 1)) + 1) + 1))))) + 1) + 1)) + 1)) := by rw [step, p16, rowF 16 (by decide), add_zero]
  have p18 : q (mtPolys 18) = (E * (E * (E * (E * (E * (E * (E * (E * (E * (E * (E * (E * (E * (E * (E * (E * (E * (E * 1 + 1) + 1) + 1) + 1) + 1)) + 1) + 1))))) + 1) + 1)) + 1))) := by rw [step, p17, rowF 17 (by decide), add_zero]
  have p19 : q (mtPolys 19) = (E * (E * (E * (E * (E * (E * (E * (E * (E * (E * (E * (E * (E * (E * (E * (E * (E * (E * (E * 1 + 1) + 1) + 1) + 1) + 1)) + 1) + 1))))) + 1) + 1)) + 1)))) := by rw [step, p18, rowF 18 (by decide), add_zero]
  have p20 : q (mtPolys 20) = (E * (E * (E * (E * (E * (E * (E * (E * (E * (E * (E * (E * (E * (E * (E * (E * (E * (E * (E * (E * 1 + 1) + 1) + 1) + 1) + 1)) + 1) + 1))))) + 1) + 1)) + 1)))) + 1) := by rw [step, p19, rowT 19 (by decide)]
  have p21 : q (mtPolys 21) = (E * (E * (E * (E * (E * (E * (E * (E * (E * (E * (E * (E * (E * (E * (E * (E * (E * (E * (E * (E * (E * 1 + 1) + 1) + 1) + 1) + 1)) + 1) + 1))))) + 1) + 1)) + 1)))) + 1)) := by rw [step, p20, rowF 20 (by decide), add_zero]
  have p22 : q (mtPolys 22) = (E * (E * (E * (E * (E * (E * (E * (E * (E * (E * (E * (E * (E * (E * (E * (E * (E * (E * (E * (E * (E * (E * 1 + 1) + 1) + 1) + 1) + 1)) + 1) + 1))))) + 1) + 1)) + 1)))) + 1))) := by rw [step, p21, rowF 21 (by decide), add_zero]
  have p23 : q (mtPolys 23) = (E * (E * (E * (E * (E * (E * (E * (E * (E * (E * (E * (E * (E * (E * (E * (E * (E * (E * (E * (E * (E * (E * (E * 1 + 1) + 1) + 1) + 1) + 1)) + 1) + 1))))) + 1) + 1)) + 1)))) + 1)))) := by rw [step, p22, rowF 22 (by decide), add_zero]
  have p24 : q (mtPolys 24) = (E * (E * (E * (E * (E * (E * (E * (E * (E * (E * (E * (E * (E * (E * (E * (E * (E * (E * (E * (E * (E * (E * (E * (E * 1 + 1) + 1) + 1) + 1) + 1)) + 1) + 1))))) + 1) + 1)) + 1)))) + 1))))) := by rw [step, p23, rowF 23 (by decide), add_zero]
  have p25 : q (mtPolys 25) = (E * (E * (E * (E * (E * (E * (E * (E * (E * (E * (E * (E * (E * (E * (E * (E * (E * (E * (E * (E * (E * (E * (E * (E * (E * 1 + 1) + 1) + 1) + 1) + 1)) + 1) + 1))))) + 1) + 1)) + 1)))) + 1))))) + 1) := by rw [step, p24, rowT 24 (by decide)]
  have p26 : q (mtPolys 26) = (E * (E * (E * (E * (E * (E * (E * (E * (E * (E * (E * (E * (E * (E * (E * (E * (E * (E * (E * (E * (E * (E * (E * (E * (E * (E * 1 + 1) + 1) + 1) + 1) + 1)) + 1) + 1))))) + 1) + 1)) + 1)))) + 1))))) + 1)) := by rw [step, p25, rowF 25 (by decide), add_zero]
  have p27 : q (mtPolys 27) = (E * (E * (E * (E * (E * (E * (E * (E * (E * (E * (E * (E * (E * (E * (E * (E * (E * (E * (E * (E * (E * (E * (E * (E * (E * (E * (E * 1 + 1) + 1) + 1) + 1) + 1)) + 1) + 1))))) + 1) + 1)) + 1)))) + 1))))) + 1))) := by rw [step, p26, rowF 26 (by decide), add_zero]
  have p28 : q (mtPolys 28) = (E * (E * (E * (E * (E * (E * (E * (E * (E * (E * (E * (E * (E * (E * (E * (E * (E * (E * (E * (E * (E * (E * (E * (E * (E * (E * (E * (E * 1 + 1) + 1) + 1) + 1) + 1)) + 1) + 1))))) + 1) + 1)) + 1)))) + 1))))) + 1))) + 1) := by rw [step, p27, rowT 27 (by decide)]
  have p29 : q (mtPolys 29) = (E * (E * (E * (E * (E * (E * (E * (E * (E * (E * (E * (E * (E * (E * (E * (E * (E * (E * (E * (E * (E * (E * (E * (E * (E * (E * (E * (E * (E * 1 + 1) + 1) + 1) + 1) + 1)) + 1) + 1))))) + 1) + 1)) + 1)))) + 1))))) + 1))) + 1) + 1) := by rw [step, p28, rowT 28 (by decide)]
  have p30 : q (mtPolys 30) = (E * (E * (E * (E * (E * (E * (E * (E * (E * (E * (E * (E * (E * (E * (E * (E * (E * (E * (E * (E * (E * (E * (E * (E * (E * (E * (E * (E * (E * (E * 1 + 1) + 1) + 1) + 1) + 1)) + 1) + 1))))) + 1) + 1)) + 1)))) + 1))))) + 1))) + 1) + 1)) := by rw [step, p29, rowF 29 (by decide), add_zero]
  rw [p30] at hrel
  refine ⟨E, hE, ?_⟩
  linear_combination hrel + h2

theorem iterate_sq {M : Type*} [Monoid M] (e : M) (n : Nat) : (fun z => z ^ 2)^[n] e = e ^ 2 ^ n := by
  induction n with
  | zero => rw [pow_zero, pow_one]; rfl
  | succ n ih => rw [Function.iterate_succ_apply', ih, ← pow_mul, pow_succ]

/-- A root of the characteristic polynomial other than one has the largest order. -/
theorem mt_order {Q : Type*} [CommRing Q] (e : Q) (h2 : (2 : Q) = 0) (he : MtRoot e) (h1 : e ≠ 1) : orderOf e = mersenne 19937 := by
  have hf := mt_frobenius e h2 he
  rw [iterate_sq] at hf
  obtain ⟨E, -, hr⟩ := he
  have hu : ∃ f, e * f = 1 := by
    obtain ⟨G, hG⟩ : ∃ G, e * G + 1 = 0 := ⟨_, hr⟩
    exact ⟨G, by linear_combination hG - h2⟩
  obtain ⟨f, hf1⟩ := hu
  have hp : e ^ mersenne 19937 = 1 := by
    have h3 : e ^ (mersenne 19937 + 1) = e := by rw [succ_mersenne]; exact hf
    rw [pow_succ] at h3
    calc e ^ mersenne 19937 = e ^ mersenne 19937 * (e * f) := by rw [hf1, mul_one]
      _ = e ^ mersenne 19937 * e * f := by rw [mul_assoc]
      _ = 1 := by rw [h3, hf1]
  rcases (Nat.dvd_prime mersenne_prime).1 (orderOf_dvd_of_pow_eq_one hp) with h | h
  · exact absurd (orderOf_eq_one_iff.1 h) h1
  · exact h

/-- A sequence of words with the recurrence of MT19937, from the second word on. -/
theorem mt_period {x : Nat → UInt} (hx : Mt19937 x) (h0 : ∃ n, x (n + 1) ≠ 0) : LeastPeriod (fun n => x (n + 1)) (2 ^ 19937 - 1) := by
  obtain ⟨z, hz⟩ : ∃ z, z = mtBit x 0 := ⟨_, rfl⟩
  obtain ⟨q, hq⟩ : ∃ q, q = Ideal.Quotient.mk (mtIdeal (mtBit x 0)) := ⟨_, rfl⟩
  have h2 : (2 : (ZMod 2)[X] ⧸ mtIdeal (mtBit x 0)) = 0 := by
    have : (2 : (ZMod 2)[X]) = 0 := CharTwo.two_eq_zero
    rw [← map_ofNat q 2, this, map_zero]
  have hroot := mt_root hx h2
  rw [← hq] at hroot
  have hper : ∀ d, q X ^ d = 1 → ∀ i, i < 32 → ∀ n, mtBit x i (n + d) = mtBit x i n := by
    intro d hd i hi n
    rw [← map_pow, ← map_one q, hq, Ideal.Quotient.eq] at hd
    have all : ∀ p : (ZMod 2)[X], aeval mtS p (mtBit x 0) (n + d) = aeval mtS p (mtBit x 0) n := by
      intro p
      have := (mtIdeal (mtBit x 0)).mul_mem_left p hd
      rw [mem_mtIdeal, mul_comm, map_mul, Module.End.mul_apply, map_sub, map_pow, aeval_X, map_one, LinearMap.sub_apply, sub_eq_zero] at this
      have := congrFun this n
      rwa [mtS_pow] at this
    rcases Nat.lt_or_ge i 31 with h | h
    · rw [← mtPolys_apply hx i (by omega)]; exact all _
    · rw [show i = 31 by omega, ← mtPoly31_apply hx]; exact all _
  have hzero : (1 : (ZMod 2)[X] ⧸ mtIdeal (mtBit x 0)) ≠ 0 := by
    intro h
    rw [← map_one (Ideal.Quotient.mk (mtIdeal (mtBit x 0))), Ideal.Quotient.eq_zero_iff_mem, mem_mtIdeal, map_one, Module.End.one_apply] at h
    obtain ⟨n, hn⟩ := h0
    refine hn (BitVec.eq_of_getLsbD_eq fun i hi => ?_)
    have hb : mtBit x i n = 0 := by
      rcases Nat.lt_or_ge i 31 with h' | h'
      · rw [← mtPolys_apply hx i (by omega), h, map_zero]; rfl
      · rw [show i = 31 by omega, ← mtPoly31_apply hx, h, map_zero]; rfl
    rw [mtBit] at hb
    show _ = (0#32).getLsbD i
    rw [BitVec.getLsbD_zero]
    by_contra hc
    rw [if_pos (by simpa using hc)] at hb
    exact absurd hb (by decide)
  have h1 : q X ≠ 1 := by
    intro h
    obtain ⟨E, hE, hr⟩ := hroot
    rw [h, one_pow, one_pow, one_add_one_eq_two, h2] at hE
    rw [hE] at hr
    apply hzero
    linear_combination hr
  have hord := mt_order _ h2 hroot h1
  rw [mersenne] at hord
  have hpos := mersenne_prime.pos
  rw [mersenne] at hpos
  refine ⟨hpos, fun d => ?_⟩
  rw [← hord, orderOf_dvd_iff_pow_eq_one]
  constructor
  · intro h
    rw [← map_pow, ← map_one q, hq, Ideal.Quotient.eq, mem_mtIdeal, map_sub, map_pow, aeval_X, map_one, LinearMap.sub_apply, sub_eq_zero]
    funext n
    rw [mtS_pow, Module.End.one_apply, mtBit, mtBit]
    have := h n
    simp only at this
    rw [show n + d + 1 = n + d + 1 from rfl, this]
  · intro h n
    apply BitVec.eq_of_getLsbD_eq
    intro i hi
    have := hper d h i hi n
    rw [mtBit, mtBit] at this
    by_cases ha : (x (n + d + 1)).getLsbD i = true <;> by_cases hb : (x (n + 1)).getLsbD i = true
    · rw [ha, hb]
    · rw [if_pos ha, if_neg hb] at this; exact absurd this (by decide)
    · rw [if_neg ha, if_pos hb] at this; exact absurd this (by decide)
    · rw [Bool.eq_false_iff.2 ha, Bool.eq_false_iff.2 hb]

/-- The scale of the Mersenne Twister keeps words apart. -/
theorem wordValue_inj_mt {rnd : ℚ → ℚ} (h : Rounding rnd) (v w : UInt) :
    wordValue rnd v (23283064365386963 / 10 ^ 26) = wordValue rnd w (23283064365386963 / 10 ^ 26) ↔ v = w := by
  refine ⟨fun e => ?_, fun e => by rw [e]⟩
  have key : ∀ v w : UInt, v.toNat < w.toNat → wordValue rnd v (23283064365386963 / 10 ^ 26) < wordValue rnd w (23283064365386963 / 10 ^ 26) := by
    intro v w hvw
    have hw : (w.toNat : ℚ) ≤ 4294967295 := by
      have : w.toNat ≤ 4294967295 := by have := w.isLt; omega
      exact_mod_cast this
    generalize hW : (w.toNat : ℚ) = W at hw
    refine wordValue_strict h (by norm_num) (by norm_num) hvw (by rw [hW]; linarith) (by rw [hW]; linarith)
  rcases Nat.lt_trichotomy v.toNat w.toNat with h1 | h1 | h1
  · exact absurd e (ne_of_lt (key v w h1))
  · exact BitVec.eq_of_toNat_eq h1
  · exact absurd e.symm (ne_of_lt (key w v h1))

/-- The seeding words do not vanish. -/
theorem mt_seed_ne {s : Nat} {x : Nat → UInt} (hs : ∀ i, i < 624 → (x i).toNat = rSeed s (52 + i)) : ∃ n, x (n + 1) ≠ 0 := by
  by_contra hc
  push Not at hc
  have h1 := hs 1 (by norm_num)
  have h2 := hs 2 (by norm_num)
  rw [hc 0] at h1
  rw [hc 1, show 52 + 2 = 52 + 1 + 1 by rfl, rSeed, ← h1] at h2
  exact absurd h2 (by decide)

/-- **C105.** `R_mersenne_twister`, whatever the seed and the rounding: the numbers repeat exactly at the multiples of
`2^19937-1`. -/
theorem C105_mersenne_twister (rnd : ℚ → ℚ) (hr : Rounding rnd) (s : BitVec 64) : ∃ u : Nat → ℚ, LeastPeriod u (2 ^ 19937 - 1) ∧
    ∀ vec : List UInt, vec.length = 625 → ∃ v₀, rRngSet .mersenneTwister s vec = .ok v₀ ∧
      ∀ n, ∃ v, rUnifs rnd .mersenneTwister n v₀ = .ok ((List.range n).map u, v) := by
  obtain ⟨x, hx, hs, h⟩ := C65_mersenne_twister rnd s
  refine ⟨_, ?_, h⟩
  refine leastPeriod_congr (leastPeriod_shift (mt_period hx (mt_seed_ne hs)) 623) fun m n => ?_
  rw [wordValue_inj_mt hr, temper_inj, show 624 + m = m + 623 + 1 by omega, show 624 + n = n + 623 + 1 by omega]

/-- **C105.** MT19937 itself: every sequence of words with the recurrence repeats, from the second word on, exactly at the multiples
of `2^19937-1`, a prime, unless it is zero from there on.  (Of the first word only the top bit matters.) -/
theorem C105_sequence (x : Nat → UInt) (hx : Mt19937 x) : (2 ^ 19937 - 1).Prime ∧
    (LeastPeriod (fun n => x (n + 1)) (2 ^ 19937 - 1) ↔ ∃ n, x (n + 1) ≠ 0) := by
  have hp := mersenne_prime
  rw [mersenne] at hp
  refine ⟨hp, fun h => ?_, mt_period hx⟩
  by_contra hc
  push Not at hc
  have := (h.2 1).1 fun n => by
    show x (n + 1 + 1) = x (n + 1)
    rw [hc, hc]
  exact hp.one_lt.ne' (Nat.dvd_one.1 this)

/-! ### Examples -/

-- The tempering is undone by the matrix.
example : applyCols untemper (temper 0x12345678#32).toNat = 0x12345678 := by decide +kernel

-- The zero sequence has the recurrence; the exception is real.
example : Mt19937 (fun _ => 0) ∧ ¬LeastPeriod (fun _ : Nat => (0 : UInt)) (2 ^ 19937 - 1) := by
  have h1 : (0 : UInt) = 0 ^^^ (((0 : UInt).extractLsb' 31 1 ++ (0 : UInt).extractLsb' 0 31 : BitVec 32) >>> 1 ^^^
    if (0 : UInt).toNat % 2 = 1 then 0x9908b0df#32 else 0#32) := by decide
  have h0 : Mt19937 (fun _ => 0) := fun _ => h1
  exact ⟨h0, fun h => by obtain ⟨n, hn⟩ := (C105_sequence _ h0).2.1 h; exact hn rfl⟩

-- With the seed 1 and exact doubles the numbers do not come back after `2^19936` draws.
example : ∃ u : Nat → ℚ, (∀ vec : List UInt, vec.length = 625 → ∃ v₀, rRngSet .mersenneTwister 1 vec = .ok v₀ ∧
      ∀ n, ∃ v, rUnifs id .mersenneTwister n v₀ = .ok ((List.range n).map u, v)) ∧ ∃ n, u (n + 2 ^ 19936) ≠ u n := by
  obtain ⟨u, h1, h2⟩ := C105_mersenne_twister id ⟨fun _ _ h => h, fun _ _ _ _ => rfl⟩ 1
  refine ⟨u, h2, ?_⟩
  by_contra h
  push Not at h
  have h3 := (h1.2 _).1 h
  have hp := mersenne_prime
  rw [mersenne] at hp
  have h4 := hp.dvd_of_dvd_pow h3
  have h5 := Nat.le_of_dvd (by norm_num) h4
  have h6 : mersenne 2 < mersenne 19937 := mersenne_lt_mersenne.2 (by norm_num)
  rw [mersenne, mersenne] at h6
  exact absurd (lt_of_lt_of_le h6 h5) (by norm_num)

end Dh
