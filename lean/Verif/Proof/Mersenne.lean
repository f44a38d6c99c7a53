import Mathlib.NumberTheory.LucasLehmer
/-
`2^19937 - 1` is prime: the test of Lucas and Lehmer inside the kernel.
-/
set_option Elab.async false
namespace Dh
open LucasLehmer

/-- Steps of the test; the comparison makes the kernel evaluate each of them. -/
def llSteps (m : Nat) : Nat → Nat → Nat
  | 0, s => s
  | n + 1, s => match Nat.beq s m with
    | true => 1
    | false => llSteps m n (Nat.mod (Nat.add (Nat.mul s s) (Nat.sub m 2)) m)

/-- Blocks of 150 steps. -/
def llBlocks (m : Nat) : Nat → Nat → Nat
  | 0, s => s
  | n + 1, s => match Nat.beq s m with
    | true => 1
    | false => llBlocks m n (llSteps m 150 s)

theorem sModNat_lt (m k : Nat) (hm : 0 < m) : Nat.beq (norm_num_ext.sModNat m k) m = false := by
  have h : norm_num_ext.sModNat m k < m := by
    cases k with
    | zero => exact Nat.mod_lt _ hm
    | succ k => exact Nat.mod_lt _ hm
  rw [← Bool.not_eq_true]
  intro h1
  have := Nat.eq_of_beq_eq_true h1
  omega

theorem llSteps_eq (m n k : Nat) (hm : 0 < m) : llSteps m n (norm_num_ext.sModNat m k) = norm_num_ext.sModNat m (k + n) := by
  induction n generalizing k with
  | zero => rfl
  | succ n ih =>
    rw [llSteps, sModNat_lt m k hm, show k + (n + 1) = k + 1 + n by omega, ← ih, norm_num_ext.sModNat, pow_two]
    rfl

theorem llBlocks_eq (m n k : Nat) (hm : 0 < m) : llBlocks m n (norm_num_ext.sModNat m k) = norm_num_ext.sModNat m (k + 150 * n) := by
  induction n generalizing k with
  | zero => rfl
  | succ n ih =>
    rw [llBlocks, sModNat_lt m k hm]
    show llBlocks m n (llSteps m 150 _) = _
    rw [llSteps_eq m 150 k hm, ih]
    congr 1; omega

/-- The Mersenne number. -/
@[irreducible] def mersenneNum (p : Nat) : Nat := Nat.sub (Nat.pow 2 p) 1

set_option maxRecDepth 100000 in
theorem ll_19937 : (Nat.beq (llSteps (mersenneNum 19937) 135 (llBlocks (mersenneNum 19937) 132 4)) 0 && Nat.beq (Nat.mod 4 (mersenneNum 19937)) 4) = true := by
  decide +kernel

theorem mersenne_test (p m a b : Nat) (hp : 2 ≤ p) (hm : m = mersenneNum p) (hab : p = 150 * b + a + 2)
    (h : (Nat.beq (llSteps m a (llBlocks m b 4)) 0 && Nat.beq (Nat.mod 4 m) 4) = true) : (mersenne p).Prime := by
  rw [Bool.and_eq_true] at h
  have h0 : 0 < m := by
    have : 2 ^ 2 ≤ 2 ^ p := Nat.pow_le_pow_right (by norm_num) hp
    rw [hm, mersenneNum]
    show 0 < 2 ^ p - 1
    omega
  have h4 : norm_num_ext.sModNat m 0 = 4 := Nat.eq_of_beq_eq_true h.2
  have h1 := Nat.eq_of_beq_eq_true h.1
  rw [← h4, llBlocks_eq m b 0 h0, llSteps_eq m a _ h0] at h1
  refine lucas_lehmer_sufficiency p hp ?_
  rw [LucasLehmerTest, residue_eq_zero_iff_sMod_eq_zero p hp, ← norm_num_ext.sModNat_eq_sMod p _ hp]
  rw [show 2 ^ p - 1 = m from by rw [hm, mersenneNum]; rfl, show p - 2 = 0 + 150 * b + a by omega, h1]
  rfl

theorem mersenne_prime : (mersenne 19937).Prime :=
  mersenne_test 19937 _ 135 132 (by norm_num) rfl (by norm_num) ll_19937

end Dh
