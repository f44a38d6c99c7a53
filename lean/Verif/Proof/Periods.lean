import Mathlib.Dynamics.PeriodicPts.Lemmas
import Mathlib.Data.Nat.Prime.Basic
import Mathlib.GroupTheory.OrderOfElement
import Mathlib.NumberTheory.LucasPrimality
import Mathlib.Data.Nat.Totient
import Mathlib.FieldTheory.Finite.Basic
import Mathlib.Tactic.NormNum.Prime
import Mathlib.Tactic.Linarith
import Verif.Proof.LinPow
/-
Least periods of sequences.
-/
namespace Dh
namespace Spec

/-- The periods of the sequence `s` are exactly the multiples of `P`. -/
def LeastPeriod {α : Type*} (s : Nat → α) (P : Nat) : Prop := 0 < P ∧ ∀ d, (∀ n, s (n + d) = s n) ↔ P ∣ d

end Spec
open Spec

variable {α : Type*}

theorem LeastPeriod.unique {s : Nat → α} {P Q : Nat} (h : LeastPeriod s P) (h' : LeastPeriod s Q) : P = Q :=
  Nat.dvd_antisymm ((h.2 Q).1 ((h'.2 Q).2 (dvd_refl Q))) ((h'.2 P).1 ((h.2 P).2 (dvd_refl P)))

theorem leastPeriod_iterate (f : α → α) (x : α) (P : Nat) (hP : 0 < P) (h : Function.minimalPeriod f x = P) : LeastPeriod (fun n => f^[n] x) P := by
  refine ⟨hP, fun d => ?_⟩
  rw [← h, ← Function.isPeriodicPt_iff_minimalPeriod_dvd]
  constructor
  · intro hd
    have h0 : f^[0 + d] x = f^[0] x := hd 0
    rw [Nat.zero_add] at h0
    exact h0
  · intro hd n
    show f^[n + d] x = f^[n] x
    rw [Function.iterate_add_apply, hd.eq]

/-- The minimal period is `N` if `N` is a period and no `N/p` is one. -/
theorem minimalPeriod_eq_of_primes (f : α → α) (x : α) (N : Nat) (hN : 0 < N) (h : f^[N] x = x) (hp : ∀ p, p.Prime → p ∣ N → f^[N / p] x ≠ x) :
    Function.minimalPeriod f x = N := by
  have hd : Function.minimalPeriod f x ∣ N := Function.isPeriodicPt_iff_minimalPeriod_dvd.1 h
  obtain ⟨k, hk⟩ := hd
  by_cases h1 : k = 1
  · rw [hk, h1, Nat.mul_one]
  · obtain ⟨p, hpp, hpk⟩ := Nat.exists_prime_and_dvd h1
    obtain ⟨j, rfl⟩ := hpk
    exfalso
    have hpn : p ∣ N := ⟨Function.minimalPeriod f x * j, by rw [hk]; ring⟩
    refine hp p hpp hpn ?_
    have : N / p = Function.minimalPeriod f x * j := by
      apply Nat.div_eq_of_eq_mul_right hpp.pos
      rw [hk]; ring
    have hper : Function.IsPeriodicPt f (N / p) x := Function.isPeriodicPt_iff_minimalPeriod_dvd.2 ⟨j, this⟩
    exact hper

/-- The sum of two sequences with coprime periods. -/
theorem leastPeriod_add {s t : Nat → UInt} {P Q : Nat} (hs : LeastPeriod s P) (ht : LeastPeriod t Q) (h : P.Coprime Q) :
    LeastPeriod (fun n => s n + t n) (P * Q) := by
  have hmul : ∀ {u : Nat → UInt} {d : Nat}, (∀ n, u (n + d) = u n) → ∀ k n, u (n + k * d) = u n := by
    intro u d hu k
    induction k with
    | zero => intro n; simp
    | succ k ih => intro n; rw [Nat.succ_mul, ← Nat.add_assoc, hu, ih]
  refine ⟨Nat.mul_pos hs.1 ht.1, fun d => ⟨fun hd => ?_, fun hd n => ?_⟩⟩
  · refine h.mul_dvd_of_dvd_of_dvd ?_ ?_
    · have h1 : ∀ n, s (n + Q * d) = s n := by
        intro n
        have e1 := hmul (u := fun n => s n + t n) hd Q n
        have e2 := (ht.2 (Q * d)).2 ⟨d, rfl⟩ n
        rw [e2] at e1
        exact BitVec.add_left_inj (t n) |>.1 e1
      exact h.dvd_of_dvd_mul_left ((hs.2 _).1 h1)
    · have h1 : ∀ n, t (n + P * d) = t n := by
        intro n
        have e1 := hmul (u := fun n => s n + t n) hd P n
        have e2 := (hs.2 (P * d)).2 ⟨d, rfl⟩ n
        rw [e2] at e1
        exact BitVec.add_right_inj (s n) |>.1 e1
      exact h.symm.dvd_of_dvd_mul_left ((ht.2 _).1 h1)
  · show s (n + d) + t (n + d) = s n + t n
    rw [(hs.2 d).2 (Nat.dvd_trans ⟨Q, rfl⟩ hd) n, (ht.2 d).2 (Nat.dvd_trans ⟨P, Nat.mul_comm P Q⟩ hd) n]

/-- A shift of the sequence has the same periods, if the sequence is periodic. -/
theorem leastPeriod_shift {s : Nat → α} {P : Nat} (h : LeastPeriod s P) (k : Nat) : LeastPeriod (fun n => s (n + k)) P := by
  refine ⟨h.1, fun d => ⟨fun hd => (h.2 d).1 fun n => ?_, fun hd n => ?_⟩⟩
  · have hp := (h.2 P).2 (dvd_refl P)
    have hmul : ∀ j m, s (m + j * P) = s m := by
      intro j
      induction j with
      | zero => intro m; simp
      | succ j ih => intro m; rw [Nat.succ_mul, ← Nat.add_assoc, hp, ih]
    have hk : k ≤ k * P := Nat.le_mul_of_pos_right k h.1
    have e := hd (n + (k * P - k))
    simp only at e
    rw [show n + (k * P - k) + d + k = (n + d) + k * P from by omega, show n + (k * P - k) + k = n + k * P from by omega, hmul, hmul] at e
    exact e
  · show s (n + d + k) = s (n + k)
    rw [show n + d + k = n + k + d from by omega]
    exact (h.2 d).2 hd (n + k)

/-! ### Linear congruential generators -/

/-- The map composed with itself `2^k` times, as multiplier and increment. -/
def affineSq (a c : UInt) : Nat → UInt × UInt
  | 0 => (a, c)
  | k + 1 => ((affineSq a c k).1 * (affineSq a c k).1, (affineSq a c k).1 * (affineSq a c k).2 + (affineSq a c k).2)

theorem affineSq_spec (a c : UInt) : ∀ (k : Nat) (x : UInt), (fun v : UInt => a * v + c)^[2 ^ k] x = (affineSq a c k).1 * x + (affineSq a c k).2
  | 0, x => rfl
  | k + 1, x => by
    rw [pow_succ, Nat.mul_two, Function.iterate_add_apply, affineSq_spec a c k, affineSq_spec a c k, affineSq]
    simp only
    rw [BitVec.mul_add, BitVec.mul_assoc, BitVec.add_assoc]

/-- A linear congruential generator of words whose `2^31`st iterate adds `2^31` has the period `2^32` from every start. -/
theorem lcg_period (a c : UInt) (h : affineSq a c 31 = (1#32, 2147483648#32)) (x : UInt) :
    Function.minimalPeriod (fun v : UInt => a * v + c) x = 2 ^ 32 := by
  have hf : Fact (Nat.Prime 2) := ⟨Nat.prime_two⟩
  have h31 : ∀ x, (fun v : UInt => a * v + c)^[2 ^ 31] x = x + 2147483648#32 := by
    intro x
    rw [affineSq_spec, h]
    simp
  refine Function.minimalPeriod_eq_prime_pow (p := 2) (k := 31) ?_ ?_
  · intro hp
    have : x + 2147483648#32 = x := (h31 x).symm.trans hp
    have := BitVec.add_right_eq_self.1 this
    exact absurd this (by decide)
  · show (fun v : UInt => a * v + c)^[2 ^ (31 + 1)] x = x
    rw [pow_succ, Nat.mul_two, Function.iterate_add_apply, h31, h31, BitVec.add_assoc, show (2147483648#32 + 2147483648#32 : UInt) = 0#32 from by decide,
      BitVec.add_zero]

/-! ### Xorshift generators -/

/-- A linear map of words with one point of period `2^32-1` has this period at every nonzero word, and its sequence from there runs
through all nonzero words. -/
theorem linear_full (f : UInt → UInt) (x0 : UInt) (hx : x0 ≠ 0) (h0 : f 0 = 0) (hinj : Function.Injective f)
    (h : Function.minimalPeriod f x0 = 2 ^ 32 - 1) (y : UInt) (hy : y ≠ 0) :
    Function.minimalPeriod f y = 2 ^ 32 - 1 ∧ ∀ z, z ≠ 0 → ∃ n < 2 ^ 32 - 1, f^[n] y = z := by
  have hne : ∀ n x, x ≠ 0 → f^[n] x ≠ 0 := by
    intro n
    induction n with
    | zero => intro x hx; exact hx
    | succ n ih =>
      intro x hx
      rw [Function.iterate_succ_apply']
      intro h
      exact ih x hx (hinj (h.trans h0.symm))
  have key : ∀ x, x ≠ 0 → Function.minimalPeriod f x = 2 ^ 32 - 1 → ∀ z, z ≠ 0 → ∃ n < 2 ^ 32 - 1, f^[n] x = z := by
    intro x hx h z hz
    have hpos : ∀ v : UInt, v ≠ 0 → 0 < v.toNat := by
      intro v hv
      refine Nat.pos_of_ne_zero fun h => hv (BitVec.eq_of_toNat_eq ?_)
      simpa using h
    let g : Fin (2 ^ 32 - 1) → Fin (2 ^ 32 - 1) := fun n => ⟨(f^[n] x).toNat - 1, by
      have := (f^[n] x).isLt
      have := hpos _ (hne n x hx)
      omega⟩
    have hg : Function.Injective g := by
      intro m n e
      have e' : f^[(m : ℕ)] x = f^[(n : ℕ)] x := by
        have h1 : (f^[m] x).toNat - 1 = (f^[n] x).toNat - 1 := congrArg Fin.val e
        have h2 := hpos _ (hne m x hx)
        have h3 := hpos _ (hne n x hx)
        exact BitVec.eq_of_toNat_eq (by omega)
      have := (Function.iterate_injOn_Iio_minimalPeriod (f := f) (x := x)) (by rw [Set.mem_Iio, h]; exact m.2) (by rw [Set.mem_Iio, h]; exact n.2) e'
      exact Fin.ext this
    have hz1 := hpos z hz
    have hz2 := z.isLt
    obtain ⟨n, hn⟩ := (Finite.injective_iff_surjective.1 hg) ⟨z.toNat - 1, by omega⟩
    have h1 : (f^[n] x).toNat - 1 = z.toNat - 1 := congrArg Fin.val hn
    have h2 := hpos _ (hne n x hx)
    exact ⟨n, n.2, BitVec.eq_of_toNat_eq (by omega)⟩
  have hper : Function.minimalPeriod f y = 2 ^ 32 - 1 := by
    obtain ⟨n, -, rfl⟩ := key x0 hx h y hy
    rw [← h]
    refine Function.minimalPeriod_apply_iterate ?_ n
    exact Function.minimalPeriod_pos_iff_mem_periodicPts.1 (by rw [h]; norm_num)
  exact ⟨hper, key y hy hper⟩

/-! ### Primes -/

/-- `a^n` modulo `p`. -/
def powMod (p : Nat) : (fuel a n acc : Nat) → Nat
  | 0, _, _, acc => acc
  | fuel + 1, a, n, acc => powMod p fuel (a * a % p) (n / 2) (if n % 2 = 1 then acc * a % p else acc)

theorem powMod_eq (p : Nat) : ∀ (fuel a n acc : Nat), n < 2 ^ fuel → ((powMod p fuel a n acc : Nat) : ZMod p) = acc * (a : ZMod p) ^ n
  | 0, a, n, acc, h => by
    have : n = 0 := by simpa using h
    subst this
    simp [powMod]
  | fuel + 1, a, n, acc, h => by
    rw [powMod, powMod_eq p fuel _ _ _ (by omega)]
    have hsq : (((a * a % p : ℕ) : ZMod p)) = (a : ZMod p) ^ 2 := by rw [ZMod.natCast_mod]; push_cast; ring
    rw [hsq, ← pow_mul]
    split
    · rename_i h1
      rw [ZMod.natCast_mod]
      push_cast
      rw [mul_assoc, ← pow_succ']
      congr 2; omega
    · rename_i h1
      congr 2; omega

/-- Lucas' test with a list that contains all prime divisors of `p-1`. -/
theorem prime_of_powMod (p a fuel : Nat) (qs : List Nat) (hp : 1 < p) (hf : p < 2 ^ fuel) (hq : ∀ q : ℕ, q.Prime → q ∣ p - 1 → q ∈ qs)
    (h1 : powMod p fuel a (p - 1) 1 = 1) (h2 : ∀ q ∈ qs, powMod p fuel a ((p - 1) / q) 1 % p ≠ 1) : p.Prime := by
  refine lucas_primality p (a : ZMod p) ?_ fun q hq1 hq2 h => ?_
  · have := powMod_eq p fuel a (p - 1) 1 (by omega)
    rw [h1, Nat.cast_one, one_mul] at this
    exact this.symm
  · refine h2 q (hq q hq1 hq2) ?_
    have := powMod_eq p fuel a ((p - 1) / q) 1 (lt_of_le_of_lt (Nat.div_le_self _ _) (by omega))
    rw [Nat.cast_one, one_mul, h] at this
    have h3 : ((powMod p fuel a ((p - 1) / q) 1 : ℕ) : ZMod p) = ((1 : ℕ) : ZMod p) := by rw [this, Nat.cast_one]
    rw [ZMod.natCast_eq_natCast_iff'] at h3
    rw [h3, Nat.mod_eq_of_lt hp]

end Dh
