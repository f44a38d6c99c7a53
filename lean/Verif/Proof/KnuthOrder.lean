import Mathlib.Algebra.Ring.Basic
import Mathlib.Algebra.CharP.Two
import Mathlib.Algebra.CharP.Lemmas
import Mathlib.GroupTheory.OrderOfElement
import Mathlib.RingTheory.Ideal.Quotient.Basic
import Mathlib.RingTheory.Ideal.Quotient.Operations
import Mathlib.Data.List.Prime
import Mathlib.Data.Nat.Prime.Basic
import Mathlib.Data.Nat.Bitwise
import Mathlib.Data.Nat.Size
import Mathlib.Tactic.Ring
import Mathlib.Tactic.LinearCombination
import Mathlib.Tactic.NormNum.Prime
/-
The order of a root of `x^100 + x^63 - 1` in a ring where `2^30 = 0` but `2^29` is not: Knuth's lagged Fibonacci generator.
-/
namespace Dh

section Two

variable {Q : Type*} [CommRing Q] (e : Q)

/-- The polynomial with the bits of `v` as coefficients, at `e`. -/
def bitPoly (v : Nat) : Q := ∑ i ∈ Finset.range v.size, if v.testBit i then e ^ i else 0

theorem bitPoly_eq (v n : Nat) (h : v < 2 ^ n) : bitPoly e v = ∑ i ∈ Finset.range n, if v.testBit i then e ^ i else 0 := by
  have h1 : v.size ≤ n := Nat.size_le.2 h
  rw [bitPoly]
  refine Finset.sum_subset (Finset.range_subset_range.2 h1) fun i _ hi => ?_
  have : v.testBit i = false := by
    apply Nat.testBit_lt_two_pow
    exact lt_of_lt_of_le (Nat.lt_size_self v) (Nat.pow_le_pow_right (by norm_num) (by simpa using hi))
  rw [this]; simp

theorem bitPoly_zero : bitPoly e 0 = 0 := by rw [bitPoly_eq e 0 0 (by norm_num)]; simp

theorem bitPoly_one : bitPoly e 1 = 1 := by
  rw [bitPoly_eq e 1 1 (by norm_num)]; simp

theorem bitPoly_half (v : Nat) : bitPoly e v = (if v % 2 = 1 then 1 else 0) + e * bitPoly e (v / 2) := by
  have h0 : v < 2 ^ (v.size + 1) := lt_trans (Nat.lt_size_self v) (Nat.pow_lt_pow_right (by norm_num) (by omega))
  rw [bitPoly_eq e v _ h0, bitPoly_eq e (v / 2) v.size (by rw [pow_succ] at h0; omega), Finset.sum_range_succ', add_comm, Finset.mul_sum]
  congr 1
  · rw [Nat.testBit_zero, pow_zero]
    simp
  · refine Finset.sum_congr rfl fun i _ => ?_
    rw [Nat.testBit_succ, mul_ite, mul_zero, pow_succ']

theorem bitPoly_double (v : Nat) : bitPoly e (2 * v) = e * bitPoly e v := by
  rw [bitPoly_half, if_neg (by omega), zero_add, show 2 * v / 2 = v by omega]

variable (h2 : (2 : Q) = 0)
include h2

theorem bitPoly_xor (u v : Nat) : bitPoly e (u ^^^ v) = bitPoly e u + bitPoly e v := by
  have hn : ∃ n, u < 2 ^ n ∧ v < 2 ^ n ∧ u ^^^ v < 2 ^ n := by
    refine ⟨max u.size v.size, lt_of_lt_of_le (Nat.lt_size_self u) (Nat.pow_le_pow_right (by norm_num) (le_max_left _ _)),
      lt_of_lt_of_le (Nat.lt_size_self v) (Nat.pow_le_pow_right (by norm_num) (le_max_right _ _)), ?_⟩
    exact Nat.xor_lt_two_pow (lt_of_lt_of_le (Nat.lt_size_self u) (Nat.pow_le_pow_right (by norm_num) (le_max_left _ _)))
      (lt_of_lt_of_le (Nat.lt_size_self v) (Nat.pow_le_pow_right (by norm_num) (le_max_right _ _)))
  obtain ⟨n, h1, h3, h4⟩ := hn
  rw [bitPoly_eq e _ n h1, bitPoly_eq e _ n h3, bitPoly_eq e _ n h4, ← Finset.sum_add_distrib]
  refine Finset.sum_congr rfl fun i _ => ?_
  rw [Nat.testBit_xor]
  cases u.testBit i <;> cases v.testBit i <;> simp
  linear_combination (-e ^ i) * h2

omit h2 in
/-- Multiplication by `e`, reduced by `x^100 + x^63 + 1`. -/
def ktShift (v : Nat) : Nat := if Nat.testBit (2 * v) 100 then Nat.xor (2 * v) 1267650600237452773533557981185 else 2 * v

omit h2 in
/-- The product, bit by bit. -/
def ktMul : (fuel u v : Nat) → Nat
  | 0, _, _ => 0
  | fuel + 1, u, v => Nat.xor (if v % 2 = 1 then u else 0) (ktMul fuel (ktShift u) (v / 2))

omit h2 in
/-- `acc a^n` by squaring. -/
def ktPow : (fuel a n acc : Nat) → Nat
  | 0, _, _, acc => acc
  | fuel + 1, a, n, acc => ktPow fuel (ktMul 100 a a) (n / 2) (if n % 2 = 1 then ktMul 100 a acc else acc)

variable (he : e ^ 100 + e ^ 63 = 1)
include he

theorem bitPoly_modulus : bitPoly e 1267650600237452773533557981185 = 0 := by
  rw [show 1267650600237452773533557981185 = 2 ^ 100 ^^^ 2 ^ 63 ^^^ 1 by decide, bitPoly_xor e h2, bitPoly_xor e h2, bitPoly_one]
  have hp : ∀ n, bitPoly e (2 ^ n) = e ^ n := by
    intro n
    induction n with
    | zero => simp [bitPoly_one]
    | succ n ih => rw [pow_succ', bitPoly_double, ih, pow_succ']
  rw [hp, hp, he]
  linear_combination h2

theorem bitPoly_shift (v : Nat) : bitPoly e (ktShift v) = e * bitPoly e v := by
  rw [ktShift]
  split
  · rw [show Nat.xor (2 * v) 1267650600237452773533557981185 = (2 * v) ^^^ 1267650600237452773533557981185 from rfl, bitPoly_xor e h2,
      bitPoly_modulus e h2 he, add_zero, bitPoly_double]
  · exact bitPoly_double e v

theorem bitPoly_mul : ∀ fuel u v : Nat, v < 2 ^ fuel → bitPoly e (ktMul fuel u v) = bitPoly e u * bitPoly e v
  | 0, u, v, h => by
    have : v = 0 := by simpa using h
    subst this
    rw [ktMul, bitPoly_zero, mul_zero]
  | fuel + 1, u, v, h => by
    rw [ktMul, show Nat.xor (if v % 2 = 1 then u else 0) (ktMul fuel (ktShift u) (v / 2)) =
      (if v % 2 = 1 then u else 0) ^^^ ktMul fuel (ktShift u) (v / 2) from rfl, bitPoly_xor e h2,
      bitPoly_mul fuel _ _ (by rw [pow_succ] at h; omega), bitPoly_shift e h2 he, bitPoly_half e v]
    split
    · ring
    · rw [bitPoly_zero]; ring

omit h2 he in
theorem ktShift_lt {v : Nat} (h : v < 2 ^ 100) : ktShift v < 2 ^ 100 := by
  rw [ktShift]
  split
  · rename_i h1
    apply Nat.lt_pow_two_of_testBit
    intro i hi
    show ((2 * v) ^^^ 1267650600237452773533557981185).testBit i = false
    rw [Nat.testBit_xor]
    rcases Nat.lt_or_eq_of_le hi with hi | rfl
    · rw [Nat.testBit_lt_two_pow (lt_of_lt_of_le (show 2 * v < 2 ^ 101 by omega) (Nat.pow_le_pow_right (by norm_num) hi)),
        Nat.testBit_lt_two_pow (lt_of_lt_of_le (show 1267650600237452773533557981185 < 2 ^ 101 by norm_num) (Nat.pow_le_pow_right (by norm_num) hi))]
      rfl
    · rw [h1, show Nat.testBit 1267650600237452773533557981185 100 = true by decide]
      rfl
  · rename_i h1
    by_contra hc
    have hd : 2 * v / 2 ^ 100 = 1 := by omega
    rw [Nat.testBit_eq_decide_div_mod_eq, hd] at h1
    simp at h1

omit h2 he in
theorem ktMul_lt : ∀ fuel u v : Nat, u < 2 ^ 100 → ktMul fuel u v < 2 ^ 100
  | 0, u, v, _ => by rw [ktMul]; norm_num
  | fuel + 1, u, v, h => by
    rw [ktMul]
    refine Nat.xor_lt_two_pow ?_ (ktMul_lt fuel _ _ (ktShift_lt h))
    split
    · exact h
    · norm_num

theorem bitPoly_pow : ∀ fuel a n acc : Nat, n < 2 ^ fuel → a < 2 ^ 100 → acc < 2 ^ 100 →
    bitPoly e (ktPow fuel a n acc) = bitPoly e acc * bitPoly e a ^ n
  | 0, a, n, acc, h, _, _ => by
    have : n = 0 := by simpa using h
    subst this
    rw [ktPow, pow_zero, mul_one]
  | fuel + 1, a, n, acc, h, ha, hc => by
    have hacc : (if n % 2 = 1 then ktMul 100 a acc else acc) < 2 ^ 100 := by
      split
      · exact ktMul_lt _ _ _ ha
      · exact hc
    rw [ktPow, bitPoly_pow fuel _ _ _ (by rw [pow_succ] at h; omega) (ktMul_lt _ _ _ ha) hacc, bitPoly_mul e h2 he 100 a a ha, ← pow_two, ← pow_mul]
    split
    · rename_i h1
      rw [bitPoly_mul e h2 he 100 a acc hc]
      have : n = 2 * (n / 2) + 1 := by omega
      conv_rhs => rw [this, pow_succ]
      ring
    · rename_i h1
      have : n = 2 * (n / 2) := by omega
      conv_rhs => rw [this]

end Two

/-- The prime divisors of `2^100 - 1`. -/
def ktPrimes : List Nat := [3, 5, 5, 5, 11, 31, 41, 101, 251, 601, 1801, 4051, 8101, 268501]

theorem ktPrimes_spec (p : Nat) (hp : p.Prime) (h : p ∣ 2 ^ 100 - 1) : p ∈ ktPrimes := by
  refine mem_list_primes_of_dvd_prod hp.prime (fun q hq => Nat.Prime.prime ?_) (?_ : p ∣ ktPrimes.prod)
  · simp only [ktPrimes, List.mem_cons, List.not_mem_nil, or_false] at hq
    rcases hq with rfl | rfl | rfl | rfl | rfl | rfl | rfl | rfl | rfl | rfl | rfl | rfl | rfl | rfl <;> norm_num
  · rw [show ktPrimes.prod = 2 ^ 100 - 1 by norm_num [ktPrimes]]
    exact h

/-- Inverses of `e^((2^100-1)/p) + 1`. -/
def ktInverse : List (Nat × Nat) :=
  [(3, 1007638910767179380430027227029), (5, 955292669237409406387130826060), (11, 110817172399836671804177043686),
    (31, 56826581598873588677393095538), (41, 1001088023334650471942678111307), (101, 1102545847696025234593363707535),
    (251, 671738042859614921129952363396), (601, 198319096890601528408385337911), (1801, 946724145029452342744408938380),
    (4051, 165625092544052062341013863643), (8101, 1032826582747587329904320344853), (268501, 425417432154042153658319253205)]

set_option maxRecDepth 100000 in
theorem ktInverse_check : (ktInverse.all fun x => ktMul 100 x.2 (Nat.xor (ktPow 100 2 ((2 ^ 100 - 1) / x.1) 1) 1) == 1) = true := by decide +kernel

set_option maxRecDepth 100000 in
theorem ktPow_full : ktPow 100 2 (2 ^ 100 - 1) 1 = 1 := by decide +kernel

set_option maxRecDepth 100000 in
theorem ktPow_root : ktPow 100 2 (2 ^ 99) 1 = 590295810363001143296 := by decide +kernel

/-- `e^99 + e^62` is the inverse of `e`; the square root of `e`. -/
theorem ktPow_sqrt : ktMul 100 (ktPow 100 (2 ^ 99 + 2 ^ 62) 31 1) (2 ^ 50 + 1) = 590295810363001143296 := by decide +kernel

theorem kt_unit : ktMul 100 8192 (ktMul 100 (ktMul 100 (ktPow 100 (2 ^ 99 + 2 ^ 62) 63 1) (2 ^ 50 + 1))
    (Nat.xor (ktMul 100 (ktPow 100 (2 ^ 99 + 2 ^ 62) 63 1) (2 ^ 50 + 1)) 1)) = 1 := by decide +kernel

section Order

variable {Q : Type*} [CommRing Q] (e : Q)

theorem bitPoly_two_pow (n : Nat) : bitPoly e (2 ^ n) = e ^ n := by
  induction n with
  | zero => simp [bitPoly_one]
  | succ n ih => rw [pow_succ', bitPoly_double, ih, pow_succ']

/-- In characteristic two. -/
theorem kt_two (h2 : (2 : Q) = 0) (he : e ^ 100 + e ^ 63 = 1) :
    e ^ (2 ^ 100 - 1) = 1 ∧ e ^ 2 ^ 99 = (e ^ 99 + e ^ 62) ^ 31 * (e ^ 50 + 1) ∧
    (∃ k, k * (((e ^ 99 + e ^ 62) ^ 63 * (e ^ 50 + 1)) * ((e ^ 99 + e ^ 62) ^ 63 * (e ^ 50 + 1) + 1)) = 1) ∧
    ∀ p ∈ ktPrimes, ∃ k, k * (e ^ ((2 ^ 100 - 1) / p) + 1) = 1 := by
  have b2 : bitPoly e 2 = e := by have := bitPoly_two_pow e 1; rwa [pow_one, pow_one] at this
  have bi : bitPoly e (2 ^ 99 + 2 ^ 62) = e ^ 99 + e ^ 62 := by
    rw [show 2 ^ 99 + 2 ^ 62 = 2 ^ 99 ^^^ 2 ^ 62 by decide, bitPoly_xor e h2, bitPoly_two_pow, bitPoly_two_pow]
  have bh : bitPoly e (2 ^ 50 + 1) = e ^ 50 + 1 := by
    rw [show 2 ^ 50 + 1 = 2 ^ 50 ^^^ 1 by decide, bitPoly_xor e h2, bitPoly_two_pow, bitPoly_one]
  have bx : ∀ v, bitPoly e (Nat.xor v 1) = bitPoly e v + 1 := fun v => by
    rw [show Nat.xor v 1 = v ^^^ 1 from rfl, bitPoly_xor e h2, bitPoly_one]
  have xl : ∀ v, v < 2 ^ 100 → Nat.xor v 1 < 2 ^ 100 := fun v hv => Nat.xor_lt_two_pow hv (by norm_num)
  have pw : ∀ a n, a < 2 ^ 100 → n < 2 ^ 100 → bitPoly e (ktPow 100 a n 1) = bitPoly e a ^ n := fun a n ha hn => by
    rw [bitPoly_pow e h2 he 100 a n 1 hn ha (by norm_num), bitPoly_one, one_mul]
  have pl : ∀ a n, a < 2 ^ 100 → ktPow 100 a n 1 < 2 ^ 100 := by
    have key : ∀ fuel a n acc, a < 2 ^ 100 → acc < 2 ^ 100 → ktPow fuel a n acc < 2 ^ 100 := by
      intro fuel
      induction fuel with
      | zero => intro a n acc _ h; exact h
      | succ f ih =>
        intro a n acc ha hc
        rw [ktPow]
        refine ih _ _ _ (ktMul_lt _ _ _ ha) ?_
        split
        · exact ktMul_lt _ _ _ ha
        · exact hc
    intro a n ha
    exact key _ _ _ _ ha (by norm_num)
  refine ⟨?_, ?_, ?_, ?_⟩
  · rw [← b2, ← pw 2 _ (by norm_num) (by norm_num), ktPow_full, bitPoly_one]
  · have h1 := pw 2 (2 ^ 99) (by norm_num) (by norm_num)
    rw [b2, ktPow_root, ← ktPow_sqrt, bitPoly_mul e h2 he _ _ _ (by norm_num), pw _ _ (by norm_num) (by norm_num), bi, bh] at h1
    exact h1.symm
  · have h1 := congrArg (bitPoly e) kt_unit
    have hl : ktMul 100 (ktPow 100 (2 ^ 99 + 2 ^ 62) 63 1) (2 ^ 50 + 1) < 2 ^ 100 := ktMul_lt _ _ _ (pl _ _ (by norm_num))
    rw [bitPoly_mul e h2 he _ _ _ (ktMul_lt _ _ _ hl), bitPoly_mul e h2 he _ _ _ (xl _ hl), bx,
      bitPoly_mul e h2 he _ _ _ (by norm_num), pw _ _ (by norm_num) (by norm_num), bi, bh, bitPoly_one] at h1
    exact ⟨_, h1⟩
  · intro p hp
    have hm : ∃ x ∈ ktInverse, x.1 = p := by
      simp only [ktPrimes, List.mem_cons, List.not_mem_nil, or_false] at hp
      rcases hp with rfl | rfl | rfl | rfl | rfl | rfl | rfl | rfl | rfl | rfl | rfl | rfl | rfl | rfl <;> simp [ktInverse]
    obtain ⟨x, hx, rfl⟩ := hm
    have h1 := List.all_eq_true.1 ktInverse_check x hx
    have h3 := congrArg (bitPoly e) (beq_iff_eq.1 h1)
    have hd : (2 ^ 100 - 1) / x.1 < 2 ^ 100 := lt_of_le_of_lt (Nat.div_le_self _ _) (by norm_num)
    rw [bitPoly_mul e h2 he _ _ _ (xl _ (pl _ _ (by norm_num))), bx, pw _ _ (by norm_num) hd, b2, bitPoly_one] at h3
    exact ⟨_, h3⟩

/-- Down to the ring modulo two. -/
theorem mod_two (x y : Q) (h : Ideal.Quotient.mk (Ideal.span {(2 : Q)}) x = Ideal.Quotient.mk (Ideal.span {(2 : Q)}) y) : ∃ k, x = y + 2 * k := by
  obtain ⟨k, hk⟩ := Ideal.mem_span_singleton'.1 (Ideal.Quotient.eq.1 h)
  exact ⟨k, by linear_combination -hk⟩

/-- **Knuth's generator.**  The order of `e`. -/
theorem kt_order (he : e ^ 100 + e ^ 63 = 1) (h30 : (2 : Q) ^ 30 = 0) (h29 : (2 : Q) ^ 29 ≠ 0) : orderOf e = 2 ^ 29 * (2 ^ 100 - 1) := by
  have h2 : (2 : Q ⧸ Ideal.span {(2 : Q)}) = 0 := by
    have : Ideal.Quotient.mk (Ideal.span {(2 : Q)}) 2 = 0 := Ideal.Quotient.eq_zero_iff_mem.2 (Ideal.subset_span rfl)
    rwa [map_ofNat] at this
  have he' : (Ideal.Quotient.mk (Ideal.span {(2 : Q)}) e) ^ 100 + (Ideal.Quotient.mk (Ideal.span {(2 : Q)}) e) ^ 63 = 1 := by
    rw [← map_pow, ← map_pow, ← map_add, he, map_one]
  obtain ⟨-, q2, ⟨k3, q3⟩, q4⟩ := kt_two _ h2 he'
  obtain ⟨i, hi⟩ : ∃ i : Q, i = e ^ 99 + e ^ 62 := ⟨_, rfl⟩
  have hei : e * i = 1 := by rw [hi]; linear_combination he
  obtain ⟨c, hc⟩ : ∃ c : Q, c = i ^ 63 * (e ^ 50 + 1) := ⟨_, rfl⟩
  -- the root of e
  obtain ⟨k, hk⟩ := mod_two (e ^ 2 ^ 99) (i ^ 31 * (e ^ 50 + 1)) (by
    rw [map_pow, q2, hi]
    simp only [map_mul, map_pow, map_add, map_one])
  have hsq : e ^ 2 ^ 100 = -e + 2 * (e * c) + 4 * (i ^ 31 * (e ^ 50 + 1) * k + k ^ 2) := by
    rw [show 2 ^ 100 = 2 ^ 99 * 2 by norm_num, pow_mul, hk]
    have e62 : ∀ n, e ^ n * i ^ n = 1 := fun n => by rw [← mul_pow, hei, one_pow]
    have e1 : i ^ 62 * e ^ 63 = e := by linear_combination e * e62 62
    have e2 : e * i ^ 63 = i ^ 62 := by linear_combination i ^ 62 * hei
    have e3 : e * c = i ^ 62 * (e ^ 50 + 1) := by rw [hc]; linear_combination (e ^ 50 + 1) * e2
    rw [e3]
    linear_combination i ^ 62 * he - e1
  obtain ⟨N, hN⟩ : ∃ N, N + 1 = 2 ^ 100 := ⟨2 ^ 100 - 1, by norm_num⟩
  have hN' : 2 ^ 100 - 1 = N := by omega
  rw [hN']
  have hT : e ^ N = 1 + 2 * (-1 + c + 2 * (i * (i ^ 31 * (e ^ 50 + 1) * k + k ^ 2))) := by
    rw [← hN, pow_succ'] at hsq
    generalize e ^ N = x at hsq
    linear_combination i * hsq + (-1 + 2 * c - x) * hei
  obtain ⟨g, hg⟩ : ∃ g : Q, g = -1 + c + 2 * (i * (i ^ 31 * (e ^ 50 + 1) * k + k ^ 2)) := ⟨_, rfl⟩
  rw [← hg] at hT
  have hpow : ∀ j, ∃ r, e ^ (2 ^ (j + 1) * N) = 1 + 2 ^ (j + 2) * (g + g ^ 2 + 2 * r) := by
    intro j
    induction j with
    | zero =>
      refine ⟨0, ?_⟩
      rw [Nat.mul_comm, pow_mul, hT]
      ring
    | succ j ih =>
      obtain ⟨r, hr⟩ := ih
      refine ⟨r + 2 ^ j * (g + g ^ 2 + 2 * r) ^ 2, ?_⟩
      rw [pow_succ, Nat.mul_right_comm, pow_mul, hr]
      ring
  have hgi : ∃ k s, k * (g + g ^ 2) = 1 + 2 * s := by
    obtain ⟨k3, rfl⟩ := Ideal.Quotient.mk_surjective k3
    refine ⟨k3, mod_two _ _ ?_⟩
    rw [map_one, ← q3, map_mul]
    congr 1
    have hmc : Ideal.Quotient.mk (Ideal.span {(2 : Q)}) c = (Ideal.Quotient.mk (Ideal.span {(2 : Q)}) e ^ 99 + Ideal.Quotient.mk (Ideal.span {(2 : Q)}) e ^ 62) ^ 63 *
        (Ideal.Quotient.mk (Ideal.span {(2 : Q)}) e ^ 50 + 1) := by
      rw [hc, hi]
      simp only [map_mul, map_pow, map_add, map_one]
    rw [← hmc]
    have hmg : Ideal.Quotient.mk (Ideal.span {(2 : Q)}) g = -1 + Ideal.Quotient.mk (Ideal.span {(2 : Q)}) c := by
      rw [hg, map_add, map_add, map_mul, map_neg, map_one, map_ofNat, h2, zero_mul, add_zero]
    rw [map_add, map_pow, hmg]
    generalize Ideal.Quotient.mk (Ideal.span {(2 : Q)}) c = C
    linear_combination (-C) * h2
  refine orderOf_eq_of_pow_and_pow_div_prime (by omega) ?_ fun p hp hd h => ?_
  · obtain ⟨r, hr⟩ := hpow 28
    rw [hr, h30]
    ring
  · rcases (Nat.Prime.dvd_mul hp).1 hd with hd | hd
    · have : p = 2 := (Nat.prime_dvd_prime_iff_eq hp Nat.prime_two).1 (hp.dvd_of_dvd_pow hd)
      subst this
      obtain ⟨r, hr⟩ := hpow 27
      rw [show 2 ^ 29 * N / 2 = 2 ^ (27 + 1) * N by omega, hr] at h
      obtain ⟨k, s, hk⟩ := hgi
      apply h29
      linear_combination k * h - 2 ^ 29 * hk - (r * k + s) * h30
    · obtain ⟨k4, q4⟩ := q4 p (ktPrimes_spec p hp (hN' ▸ hd))
      rw [hN'] at q4
      obtain ⟨t, ht⟩ := hd
      have hp0 := hp.pos
      rw [show 2 ^ 29 * N / p = N / p * 2 ^ 29 by
        rw [ht, Nat.mul_div_cancel_left _ hp0, Nat.mul_left_comm, Nat.mul_div_cancel_left _ hp0, Nat.mul_comm], pow_mul] at h
      have h5 := congrArg (Ideal.Quotient.mk (Ideal.span {(2 : Q)})) h
      rw [map_pow, map_pow, map_one] at h5
      generalize (Ideal.Quotient.mk (Ideal.span {(2 : Q)}) e) ^ (N / p) = ρ at h5 q4
      have h6 : (ρ + 1) ^ 2 ^ 29 = 0 := by
        have key : ∀ j, (ρ + 1) ^ 2 ^ j = ρ ^ 2 ^ j + 1 := by
          intro j
          induction j with
          | zero => simp
          | succ j ih =>
            rw [pow_succ, pow_mul, ih, pow_mul]
            linear_combination (ρ ^ 2 ^ j) * h2
        rw [key, h5]
        linear_combination h2
      have h7 : (1 : Q ⧸ Ideal.span {(2 : Q)}) = 0 := by
        have := congrArg (· ^ 2 ^ 29) q4
        simp only [mul_pow, one_pow] at this
        rw [h6, mul_zero] at this
        exact this.symm
      have h8 : Ideal.Quotient.mk (Ideal.span {(2 : Q)}) 1 = Ideal.Quotient.mk (Ideal.span {(2 : Q)}) 0 := by rw [map_one, map_zero, h7]
      obtain ⟨s, hs⟩ := mod_two _ _ h8
      apply h29
      linear_combination 2 ^ 29 * hs + s * h30

end Order

end Dh
