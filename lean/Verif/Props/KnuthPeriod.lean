import Mathlib.Algebra.Polynomial.AlgebraMap
import Mathlib.LinearAlgebra.Pi
import Mathlib.Data.ZMod.Basic
import Verif.Proof.KnuthOrder
import Verif.Props.GnuRPeriod
/-
C104: the period of the two generators of Knuth.
-/
namespace Dh
open Spec Polynomial

/-- The shift of sequences modulo `2^30`. -/
noncomputable def ktE : Module.End ℤ (ℕ → ZMod (2 ^ 30)) := LinearMap.funLeft ℤ (ZMod (2 ^ 30)) Nat.succ

theorem ktE_pow (k : Nat) (g : ℕ → ZMod (2 ^ 30)) (n : Nat) : (ktE ^ k) g n = g (n + k) := by
  induction k generalizing n with
  | zero => simp
  | succ k ih =>
    have e : ktE ^ (k + 1) = ktE * ktE ^ k := pow_succ' _ _
    rw [e, Module.End.mul_apply]
    show (ktE ^ k) g (n + 1) = _
    rw [ih]
    congr 1; omega

/-- The polynomials in the shift that annihilate a sequence. -/
noncomputable def ktIdeal (z : ℕ → ZMod (2 ^ 30)) : Ideal ℤ[X] where
  carrier := {p | aeval ktE p z = 0}
  add_mem' {p q} hp hq := by
    simp only [Set.mem_setOf_eq] at hp hq ⊢
    rw [map_add, LinearMap.add_apply, hp, hq, add_zero]
  zero_mem' := by simp
  smul_mem' c p hp := by
    simp only [Set.mem_setOf_eq] at hp ⊢
    rw [smul_eq_mul, map_mul, Module.End.mul_apply, hp, map_zero]

theorem mem_ktIdeal (z : ℕ → ZMod (2 ^ 30)) (p : ℤ[X]) : p ∈ ktIdeal z ↔ aeval ktE p z = 0 := Iff.rfl

/-- A sequence with Knuth's recurrence and an odd element. -/
theorem knuth_period {x : Nat → UInt} (hx : Knuth x) (ho : ∃ i, (x i).toNat % 2 = 1) : LeastPeriod x (2 ^ 29 * (2 ^ 100 - 1)) := by
  set z : ℕ → ZMod (2 ^ 30) := fun n => ((x n).toNat : ZMod (2 ^ 30)) with hz
  have hrec : ∀ i, z (i + 100) + z (i + 63) = z i := by
    intro i
    have h := (hx i).2
    have h0 := (hx i).1
    rw [← Nat.mod_eq_of_lt h0] at h
    rw [hz]
    simp only
    rw [← Nat.cast_add]
    exact (ZMod.natCast_eq_natCast_iff' _ _ _).2 h
  have hpow : ∀ d, (Ideal.Quotient.mk (ktIdeal z) X) ^ d = 1 ↔ ∀ n, z (n + d) = z n := by
    intro d
    rw [← map_pow, ← map_one (Ideal.Quotient.mk (ktIdeal z)), Ideal.Quotient.eq, mem_ktIdeal, map_sub, map_pow, aeval_X, map_one, LinearMap.sub_apply,
      sub_eq_zero, funext_iff]
    refine forall_congr' fun n => ?_
    rw [ktE_pow]
    rfl
  have he : (Ideal.Quotient.mk (ktIdeal z) X) ^ 100 + (Ideal.Quotient.mk (ktIdeal z) X) ^ 63 = 1 := by
    rw [← map_pow, ← map_pow, ← map_add, ← map_one (Ideal.Quotient.mk (ktIdeal z)), Ideal.Quotient.eq, mem_ktIdeal, map_sub, map_add, map_pow, map_pow,
      aeval_X, map_one, LinearMap.sub_apply, LinearMap.add_apply, sub_eq_zero]
    funext n
    rw [Pi.add_apply, ktE_pow, ktE_pow, hrec]
    rfl
  have hint : ∀ m : ℕ, (m : ℤ[X] ⧸ ktIdeal z) = 0 ↔ ∀ n, (m : ZMod (2 ^ 30)) * z n = 0 := by
    intro m
    rw [← map_natCast (Ideal.Quotient.mk (ktIdeal z)), Ideal.Quotient.eq_zero_iff_mem, mem_ktIdeal, map_natCast, funext_iff]
    refine forall_congr' fun n => ?_
    rw [show ((m : Module.End ℤ (ℕ → ZMod (2 ^ 30))) z) n = (m : ZMod (2 ^ 30)) * z n from by
      rw [Module.End.natCast_apply, Pi.smul_apply, nsmul_eq_mul]]
    rfl
  have h30 : (2 : ℤ[X] ⧸ ktIdeal z) ^ 30 = 0 := by
    have := (hint (2 ^ 30)).2 fun n => by
      rw [ZMod.natCast_self, zero_mul]
    rwa [Nat.cast_pow, Nat.cast_ofNat] at this
  have h29 : (2 : ℤ[X] ⧸ ktIdeal z) ^ 29 ≠ 0 := by
    intro h
    obtain ⟨i, hi⟩ := ho
    have := (hint (2 ^ 29)).1 (by rw [Nat.cast_pow, Nat.cast_ofNat]; exact h) i
    rw [hz] at this
    simp only at this
    rw [← Nat.cast_mul, ZMod.natCast_eq_zero_iff, pow_succ 2 29] at this
    have := Nat.dvd_of_mul_dvd_mul_left (by norm_num) this
    omega
  have hord := kt_order _ he h30 h29
  refine ⟨by norm_num, fun d => ?_⟩
  rw [← hord, orderOf_dvd_iff_pow_eq_one, hpow]
  refine forall_congr' fun n => ⟨fun h => by rw [hz]; simp only [h], fun h => ?_⟩
  have := (ZMod.natCast_eq_natCast_iff' _ _ _).1 h
  rw [Nat.mod_eq_of_lt (hx _).1, Nat.mod_eq_of_lt (hx _).1] at this
  exact BitVec.eq_of_toNat_eq this

/-- The first 100 of each 1009 terms. -/
theorem knuth_blocks {x : Nat → UInt} {P : Nat} (hx : Knuth x) (hP : LeastPeriod x P) (h100 : 100 ∣ P) (hc : P.Coprime 1009) :
    LeastPeriod (fun k => x (1009 * (k / 100 + 1) + k % 100)) (100 * P) := by
  have block : ∀ d, (∀ k, x (1009 * ((k + 100 * d) / 100 + 1) + (k + 100 * d) % 100) = x (1009 * (k / 100 + 1) + k % 100)) ↔ P ∣ d := by
    intro d
    have e1 : ∀ k, (k + 100 * d) / 100 = k / 100 + d := fun k => by omega
    have e2 : ∀ k, (k + 100 * d) % 100 = k % 100 := fun k => by omega
    simp only [e1, e2]
    constructor
    · intro h
      have key : ∀ n, x (1009 + n + 1009 * d) = x (1009 + n) := by
        intro n
        induction n using Nat.strong_induction_on with
        | _ n ih =>
          rcases Nat.lt_or_ge n 100 with hn | hn
          · have := h n
            rw [Nat.div_eq_of_lt hn, Nat.mod_eq_of_lt hn] at this
            rw [show 1009 + n + 1009 * d = 1009 * (0 + d + 1) + n by omega, this]
          · have i1 := ih (n - 100) (by omega)
            have i2 := ih (n - 37) (by omega)
            have r1 := hx (1009 + (n - 100) + 1009 * d)
            have r2 := hx (1009 + (n - 100))
            have b1 := (hx (1009 + n + 1009 * d)).1
            have b2 := (hx (1009 + n)).1
            rw [show 1009 + (n - 100) + 1009 * d + 100 = 1009 + n + 1009 * d by omega,
              show 1009 + (n - 100) + 1009 * d + 63 = 1009 + (n - 37) + 1009 * d by omega, i1, i2] at r1
            rw [show 1009 + (n - 100) + 100 = 1009 + n by omega, show 1009 + (n - 100) + 63 = 1009 + (n - 37) by omega] at r2
            apply BitVec.eq_of_toNat_eq
            have b3 := (hx (1009 + (n - 37))).1
            omega
      have := (leastPeriod_shift hP 1009).2 (1009 * d) |>.1 fun n => by
        show x (n + 1009 * d + 1009) = x (n + 1009)
        rw [show n + 1009 * d + 1009 = 1009 + n + 1009 * d by omega, key, Nat.add_comm]
      exact hc.dvd_of_dvd_mul_left this
    · intro h k
      have := (hP.2 (1009 * d)).2 (Nat.dvd_trans h ⟨1009, Nat.mul_comm _ _⟩) (1009 * (k / 100 + 1) + k % 100)
      rw [← this]
      congr 1; ring
  refine ⟨Nat.mul_pos (by norm_num) hP.1, fun d => ⟨fun hd => ?_, fun hd => ?_⟩⟩
  · have hm : ∀ j k, x (1009 * ((k + j * d) / 100 + 1) + (k + j * d) % 100) = x (1009 * (k / 100 + 1) + k % 100) := by
      intro j
      induction j with
      | zero => intro k; simp only [Nat.zero_mul, Nat.add_zero]
      | succ j ih =>
        intro k
        have := hd (k + j * d)
        rw [show k + (j + 1) * d = k + j * d + d by ring]
        exact this.trans (ih k)
    have h1 : P ∣ d := (block d).1 (hm 100)
    obtain ⟨t, rfl⟩ := Nat.dvd_trans h100 h1
    exact Nat.mul_dvd_mul_left 100 ((block t).1 hd)
  · obtain ⟨t, rfl⟩ := hd
    intro k
    have := (block (P * t)).2 ⟨t, rfl⟩ k
    rw [← Nat.mul_assoc] at this
    exact this

/-- **C104.** The generators of Knuth, whatever the seed and the rounding: the numbers repeat exactly at the multiples of
`100·2^29·(2^100-1)`. -/
theorem C104_knuth (rnd : ℚ → ℚ) (hr : Rounding rnd) (s : BitVec 64) : ∃ u : Nat → ℚ, LeastPeriod u (100 * (2 ^ 29 * (2 ^ 100 - 1))) ∧
    ∀ kind, kind = .knuthTaocp ∨ kind = .knuthTaocp2 → ∀ vec : List UInt, vec.length = 625 → ∃ v₀, rRngSet kind s vec = .ok v₀ ∧
      ∀ n, ∃ v, rUnifs rnd kind n v₀ = .ok ((List.range n).map u, v) := by
  obtain ⟨x, hx, ho, h⟩ := C66_knuth rnd s
  refine ⟨_, ?_, h⟩
  obtain ⟨i, -, hi⟩ := ho 0
  have h1 := knuth_blocks hx (knuth_period hx ⟨_, hi⟩) (by norm_num) (by norm_num)
  exact leastPeriod_congr h1 fun m n => wordValue_inj_kt hr _ _ (hx _).1 (hx _).1

/-- **C104.** The underlying sequence of words, of which the generators deliver the first 100 of each 1009, has the period
`2^29·(2^100-1)` from every starting table that is not wholly even. -/
theorem C104_sequence (x : Nat → UInt) (hx : Knuth x) (ho : ∃ i, (x i).toNat % 2 = 1) : LeastPeriod x (2 ^ 29 * (2 ^ 100 - 1)) :=
  knuth_period hx ho

/-! ### Examples -/

-- R's manual gives "a period of around 2^129"; that is the period of the words, the numbers go through it a hundred times.
example : 2 ^ 128 < 2 ^ 29 * (2 ^ 100 - 1) ∧ 2 ^ 29 * (2 ^ 100 - 1) < 2 ^ 129 ∧ 100 * (2 ^ 29 * (2 ^ 100 - 1)) < 2 ^ 136 := by norm_num

-- The odd word is needed: the zero table stays at zero.
example : Knuth (fun _ => 0) ∧ ¬LeastPeriod (fun _ : Nat => (0 : UInt)) (2 ^ 29 * (2 ^ 100 - 1)) :=
  ⟨fun _ => by simp, fun h => by have := Nat.le_of_dvd (by decide) ((h.2 1).1 fun _ => rfl); omega⟩

-- With exact doubles and the seed 1: no number of draws that is not a multiple of the period brings the numbers back.
example : ∃ u : Nat → ℚ, (∀ vec : List UInt, vec.length = 625 → ∃ v₀, rRngSet .knuthTaocp 1 vec = .ok v₀ ∧
      ∀ n, ∃ v, rUnifs id .knuthTaocp n v₀ = .ok ((List.range n).map u, v)) ∧ ∃ n, u (n + 1009 * 2 ^ 100) ≠ u n := by
  obtain ⟨u, h1, h2⟩ := C104_knuth id ⟨fun _ _ h => h, fun _ _ _ _ => rfl⟩ 1
  refine ⟨u, h2 _ (Or.inl rfl), ?_⟩
  by_contra h
  push Not at h
  exact absurd ((h1.2 _).1 h) (by norm_num)

end Dh
