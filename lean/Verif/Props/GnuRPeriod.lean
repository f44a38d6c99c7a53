import Mathlib.Data.List.Prime
import Mathlib.Tactic.NormNum.GCD
import Verif.Proof.PeriodPair
import Verif.Proof.SuperDuper
import Verif.Proof.RValue
/-
C103: the periods of the generators Wichmann-Hill, multicarry and super-duper of R.
-/
namespace Dh
open Spec

/-! ### Wichmann-Hill -/

theorem primes_in (p : Nat) (hp : p.Prime) (l : List Nat) (hl : ∀ q ∈ l, q.Prime) (n : Nat) (hn : n = l.prod) (h : p ∣ n) : p ∈ l :=
  mem_list_primes_of_dvd_prod hp.prime (fun q hq => (hl q hq).prime) (hn ▸ h)

/-- The order of `g` modulo `p` by powers. -/
theorem order_of_powMod (m g fuel k : Nat) (qs : List Nat) (hm : 1 < m) (hk : 0 < k) (hf : k < 2 ^ fuel) (hq : ∀ q : ℕ, q.Prime → q ∣ k → q ∈ qs)
    (h1 : powMod m fuel g k 1 % m = 1) (h2 : ∀ q ∈ qs, powMod m fuel g (k / q) 1 % m ≠ 1) : orderOf (g : ZMod m) = k := by
  have key : ∀ j, j ≤ k → ((g : ZMod m) ^ j = 1 ↔ powMod m fuel g j 1 % m = 1) := by
    intro j hj
    have := powMod_eq m fuel g j 1 (by omega)
    rw [Nat.cast_one, one_mul] at this
    rw [← this]
    have e := ZMod.natCast_eq_natCast_iff' (powMod m fuel g j 1) 1 m
    rw [Nat.cast_one, Nat.mod_eq_of_lt hm] at e
    exact e
  refine orderOf_eq_of_pow_and_pow_div_prime hk ((key k le_rfl).2 h1) fun q hq1 hq2 h => ?_
  exact h2 q (hq q hq1 hq2) ((key _ (Nat.div_le_self _ _)).1 h)

theorem order_171 : orderOf ((171 : ℕ) : ZMod 30269) = 30268 :=
  order_of_powMod _ 171 15 _ [2, 2, 7, 23, 47] (by norm_num) (by norm_num) (by norm_num) (fun q hq h => primes_in q hq _ (by norm_num) _ (by norm_num) h)
    (by decide +kernel) (by decide +kernel)

theorem order_172 : orderOf ((172 : ℕ) : ZMod 30307) = 30306 :=
  order_of_powMod _ 172 15 _ [2, 3, 5051] (by norm_num) (by norm_num) (by norm_num) (fun q hq h => primes_in q hq _ (by norm_num) _ (by norm_num) h)
    (by decide +kernel) (by decide +kernel)

theorem order_170 : orderOf ((170 : ℕ) : ZMod 30323) = 30322 :=
  order_of_powMod _ 170 15 _ [2, 15161] (by norm_num) (by norm_num) (by norm_num) (fun q hq h => primes_in q hq _ (by norm_num) _ (by norm_num) h)
    (by decide +kernel) (by decide +kernel)

theorem ofNat_inj {a b : Nat} (ha : a < 2 ^ 32) (hb : b < 2 ^ 32) : BitVec.ofNat 32 a = BitVec.ofNat 32 b ↔ a = b := by
  refine ⟨fun h => ?_, fun h => by rw [h]⟩
  have := congrArg BitVec.toNat h
  rwa [BitVec.toNat_ofNat, BitVec.toNat_ofNat, Nat.mod_eq_of_lt ha, Nat.mod_eq_of_lt hb] at this

theorem ofNat_toNat_mod (x m : Nat) (hm : m ≤ 2 ^ 32) (h0 : 0 < m) : (BitVec.ofNat 32 (x % m)).toNat = x % m := by
  rw [BitVec.toNat_ofNat, Nat.mod_eq_of_lt (lt_of_lt_of_le (Nat.mod_lt _ h0) hm)]

/-- **C103.** Wichmann-Hill, whatever the seed and the rounding: the numbers repeat exactly at the multiples of 6953607871644. -/
theorem C103_wichmann_hill (rnd : ℚ → ℚ) (hr : Rounding rnd) (s : BitVec 64) : ∃ u : Nat → ℚ, LeastPeriod u 6953607871644 ∧
    ∀ vec : List UInt, vec.length = 625 → ∃ v₀, rRngSet .wichmannHill s vec = .ok v₀ ∧
      ∀ n, ∃ v, rUnifs rnd .wichmannHill n v₀ = .ok ((List.range n).map u, v) := by
  obtain ⟨a, b, c, ha, hb, hc, hpos, -⟩ := C54_wichmann_hill rnd s dummyvec (by rw [dummyvec, List.length_replicate])
  refine ⟨fun k => whValue rnd (BitVec.ofNat 32 (171 ^ (k + 1) * a % 30269)) (BitVec.ofNat 32 (172 ^ (k + 1) * b % 30307))
    (BitVec.ofNat 32 (170 ^ (k + 1) * c % 30323)), ?_, fun vec hl => ?_⟩
  · have la : a < 30269 := by rw [ha]; exact (residue_pos (by norm_num)).2
    have lb : b < 30307 := by rw [hb]; exact (residue_pos (by norm_num)).2
    have lc : c < 30323 := by rw [hc]; exact (residue_pos (by norm_num)).2
    have pa : 0 < a := by rw [ha]; exact (residue_pos (by norm_num)).1
    have pb : 0 < b := by rw [hb]; exact (residue_pos (by norm_num)).1
    have pc : 0 < c := by rw [hc]; exact (residue_pos (by norm_num)).1
    have h1 := leastPeriod_shift (mul_period (by norm_num) order_171 (Nat.Coprime.symm (Nat.coprime_of_lt_prime pa.ne' la (by norm_num)))) 1
    have h2 := leastPeriod_shift (mul_period (by norm_num) order_172 (Nat.Coprime.symm (Nat.coprime_of_lt_prime pb.ne' lb (by norm_num)))) 1
    have h3 := leastPeriod_shift (mul_period (by norm_num) order_170 (Nat.Coprime.symm (Nat.coprime_of_lt_prime pc.ne' lc (by norm_num)))) 1
    have h4 := leastPeriod_pair (u := fun k => (171 ^ (k + 1) * a % 30269, 172 ^ (k + 1) * b % 30307)) h1 h2 (fun m n => Prod.mk.injEq _ _ _ _ ▸ Iff.rfl)
    have h5 := leastPeriod_pair (u := fun k => ((171 ^ (k + 1) * a % 30269, 172 ^ (k + 1) * b % 30307), 170 ^ (k + 1) * c % 30323)) h4 h3
      (fun m n => Prod.mk.injEq _ _ _ _ ▸ Iff.rfl)
    rw [show Nat.lcm (Nat.lcm 30268 30306) 30322 = 6953607871644 by norm_num] at h5
    refine leastPeriod_congr h5 fun m n => ⟨fun e => ?_, fun e => ?_⟩
    · have t1 : ∀ x, (BitVec.ofNat 32 (x % 30269)).toNat = x % 30269 := fun x => ofNat_toNat_mod x _ (by norm_num) (by norm_num)
      have t2 : ∀ x, (BitVec.ofNat 32 (x % 30307)).toNat = x % 30307 := fun x => ofNat_toNat_mod x _ (by norm_num) (by norm_num)
      have t3 : ∀ x, (BitVec.ofNat 32 (x % 30323)).toNat = x % 30323 := fun x => ofNat_toNat_mod x _ (by norm_num) (by norm_num)
      have := whValue_inj hr (by rw [t1]; exact ⟨(hpos _).1, Nat.mod_lt _ (by norm_num)⟩) (by rw [t2]; exact ⟨(hpos _).2.1, Nat.mod_lt _ (by norm_num)⟩)
        (by rw [t3]; exact ⟨(hpos _).2.2, Nat.mod_lt _ (by norm_num)⟩) (by rw [t1]; exact ⟨(hpos _).1, Nat.mod_lt _ (by norm_num)⟩)
        (by rw [t2]; exact ⟨(hpos _).2.1, Nat.mod_lt _ (by norm_num)⟩) (by rw [t3]; exact ⟨(hpos _).2.2, Nat.mod_lt _ (by norm_num)⟩) e
      have e1 := congrArg BitVec.toNat this.1
      have e2 := congrArg BitVec.toNat this.2.1
      have e3 := congrArg BitVec.toNat this.2.2
      rw [t1, t1] at e1
      rw [t2, t2] at e2
      rw [t3, t3] at e3
      rw [e1, e2, e3]
    · simp only [Prod.mk.injEq] at e
      rw [e.1.1, e.1.2, e.2]
  · obtain ⟨a', b', c', ha', hb', hc', -, v₀, e, h⟩ := C54_wichmann_hill rnd s vec hl
    refine ⟨v₀, e, fun n => ?_⟩
    obtain ⟨v, e2, -⟩ := h n
    refine ⟨v, ?_⟩
    rw [e2, ha', hb', hc', ha, hb, hc]

/-! ### Multicarry -/

set_option maxRecDepth 100000 in
theorem prime_1211400191 : Nat.Prime 1211400191 :=
  prime_of_powMod _ 7 31 [2, 5, 7, 11, 13, 121019] (by norm_num) (by norm_num) (fun q hq h => primes_in q hq _ (by norm_num) _ (by norm_num) h)
    (by decide +kernel) (by decide +kernel)

theorem safe_primes {p q : Nat} (hq : q.Prime) (h : p = 2 * q + 1) (r : Nat) (hr : r.Prime) (hd : r ∣ p - 1) : r ∈ [2, q] :=
  primes_in r hr _ (fun t ht => by
    simp only [List.mem_cons, List.not_mem_nil, or_false] at ht
    rcases ht with rfl | rfl
    · exact Nat.prime_two
    · exact hq) _ (by simp [h]) hd

set_option maxRecDepth 100000 in
theorem prime_2422800383 : Nat.Prime 2422800383 :=
  prime_of_powMod _ 5 32 [2, 1211400191] (by norm_num) (by norm_num) (safe_primes prime_1211400191 (by norm_num)) (by decide +kernel) (by decide +kernel)

set_option maxRecDepth 100000 in
theorem prime_294911999 : Nat.Prime 294911999 :=
  prime_of_powMod _ 7 29 [2, 1399, 105401] (by norm_num) (by norm_num) (fun q hq h => primes_in q hq _ (by norm_num) _ (by norm_num) h)
    (by decide +kernel) (by decide +kernel)

set_option maxRecDepth 100000 in
theorem prime_589823999 : Nat.Prime 589823999 :=
  prime_of_powMod _ 7 30 [2, 294911999] (by norm_num) (by norm_num) (safe_primes prime_294911999 (by norm_num)) (by decide +kernel) (by decide +kernel)

set_option maxRecDepth 100000 in
theorem prime_1179647999 : Nat.Prime 1179647999 :=
  prime_of_powMod _ 31 31 [2, 589823999] (by norm_num) (by norm_num) (safe_primes prime_589823999 (by norm_num)) (by decide +kernel) (by decide +kernel)

theorem mwc_split (a n : Nat) : ∀ x, ((mwc a)^[n] x % 65536, (mwc a)^[n] x / 65536) = (mwcStep a 65536)^[n] (x % 65536, x / 65536) := by
  induction n with
  | zero => intro x; rfl
  | succ n ih => intro x; rw [Function.iterate_succ_apply, Function.iterate_succ_apply, ih]; rfl

/-- The low halves of a component, from the second step on. -/
theorem mc_period {a p q : Nat} (ha : 1 < a) (ha2 : a ≤ 65536) (hp : a * 65536 = p + 1) (hpp : p.Prime) (hqp : q.Prime) (hpq : p = 2 * q + 1)
    {y : Nat} (h0 : 0 < y) (h1 : y < p) : LeastPeriod (fun n => (mwc a)^[n] y % 65536) q := by
  have hg : MwcGood a 65536 (y % 65536, y / 65536) := by
    refine ⟨Nat.mod_lt _ (by norm_num), ?_, ?_, ?_⟩
    · show y / 65536 < a
      omega
    · show ¬(y % 65536 = 0 ∧ y / 65536 = 0)
      omega
    · show ¬(y % 65536 = 65536 - 1 ∧ y / 65536 = a - 1)
      omega
  have hper := mwc_period ha (by norm_num) hp hpp hqp hpq (show 65536 = 256 ^ 2 by norm_num) (by omega) hg
  have := mwc_low_period ha (by norm_num) ha2 hqp.pos hg hper
  rw [show (fun n => (mwc a)^[n] y % 65536) = fun n => ((mwcStep a 65536)^[n] (y % 65536, y / 65536)).1 from funext fun n => by rw [← mwc_split]]
  exact this

theorem mcLow_first (x : Nat) (h0 : 0 < x) (h1 : x < 2 ^ 32) :
    LeastPeriod (fun n => (mwc 36969)^[n + 2] x % 65536) (if 2422800383 ∣ x then 1 else 1211400191) := by
  split
  · rename_i hd
    have e : ∀ n, (mwc 36969)^[n + 2] x = 2422800383 := fun n => ((C54_multicarry_stuck x (n + 1) h0 h1).1).2 hd
    simp only [e]
    exact leastPeriod_const _
  · rename_i hd
    have hne : (mwc 36969)^[2] x ≠ 2422800383 := fun e => hd (((C54_multicarry_stuck x 1 h0 h1).1).1 e)
    have hy : 0 < (mwc 36969)^[2] x ∧ (mwc 36969)^[2] x ≤ 2422800383 := by
      show 0 < mwc 36969 (mwc 36969 x) ∧ mwc 36969 (mwc 36969 x) ≤ 2422800383
      unfold mwc
      omega
    have := mc_period (a := 36969) (p := 2422800383) (by norm_num) (by norm_num) (by norm_num) prime_2422800383 prime_1211400191 (by norm_num) hy.1 (by omega)
    exact this

theorem mcLow_second (x : Nat) (h0 : 0 < x) (h1 : x < 2 ^ 32) :
    LeastPeriod (fun n => (mwc 18000)^[n + 2] x % 65536) (if 1179647999 ∣ x then 1 else 589823999) := by
  split
  · rename_i hd
    have e : ∀ n, (mwc 18000)^[n + 2] x = 1179647999 := fun n => ((C54_multicarry_stuck x (n + 1) h0 h1).2).2 hd
    simp only [e]
    exact leastPeriod_const _
  · rename_i hd
    have hne : (mwc 18000)^[2] x ≠ 1179647999 := fun e => hd (((C54_multicarry_stuck x 1 h0 h1).2).1 e)
    have hy : 0 < (mwc 18000)^[2] x ∧ (mwc 18000)^[2] x ≤ 1179647999 := by
      show 0 < mwc 18000 (mwc 18000 x) ∧ mwc 18000 (mwc 18000 x) ≤ 1179647999
      unfold mwc
      omega
    have := mc_period (a := 18000) (p := 1179647999) (by norm_num) (by norm_num) (by norm_num) prime_1179647999 prime_589823999 (by norm_num) hy.1 (by omega)
    exact this

theorem halves_inj (x y x' y' : Nat) : BitVec.ofNat 32 (x % 65536 * 65536 + y % 65536) = BitVec.ofNat 32 (x' % 65536 * 65536 + y' % 65536) ↔
    x % 65536 = x' % 65536 ∧ y % 65536 = y' % 65536 := by
  have : ∀ a b : Nat, a % 65536 * 65536 + b % 65536 < 2 ^ 32 := fun a b => by omega
  rw [ofNat_inj (this x y) (this x' y')]
  omega

/-- **C103.** Multicarry, whatever the seed and the rounding: from the second number on the numbers repeat exactly at the multiples of
the product of 1211400191 and 589823999, where a component with a seeding word divisible by its modulus contributes 1. -/
theorem C103_multicarry (rnd : ℚ → ℚ) (hr : Rounding rnd) (s : BitVec 64) (a b : Nat) (ha : a = residue (rSeed (s.toNat % 2 ^ 32) 51) (2 ^ 32))
    (hb : b = residue (rSeed (s.toNat % 2 ^ 32) 52) (2 ^ 32)) : ∃ u : Nat → ℚ,
    LeastPeriod (fun n => u (n + 1)) ((if 2422800383 ∣ a then 1 else 1211400191) * (if 1179647999 ∣ b then 1 else 589823999)) ∧
    ∀ vec : List UInt, vec.length = 625 → ∃ v₀, rRngSet .marsagliaMulticarry s vec = .ok v₀ ∧
      ∀ n, ∃ v, rUnifs rnd .marsagliaMulticarry n v₀ = .ok ((List.range n).map u, v) := by
  refine ⟨fun k => wordValue rnd (BitVec.ofNat 32 ((mwc 36969)^[k + 1] a % 65536 * 65536 + (mwc 18000)^[k + 1] b % 65536)) i2_32m1, ?_, fun vec hl => ?_⟩
  · have pa := residue_pos (w := rSeed (s.toNat % 2 ^ 32) 51) (m := 2 ^ 32) (by norm_num)
    have pb := residue_pos (w := rSeed (s.toNat % 2 ^ 32) 52) (m := 2 ^ 32) (by norm_num)
    rw [← ha] at pa
    rw [← hb] at pb
    have h1 := mcLow_first a pa.1 pa.2
    have h2 := mcLow_second b pb.1 pb.2
    have hc : Nat.Coprime (if 2422800383 ∣ a then 1 else 1211400191) (if 1179647999 ∣ b then 1 else 589823999) := by
      split <;> split <;> norm_num
    rw [← hc.lcm_eq_mul]
    refine leastPeriod_pair h1 h2 fun m n => ?_
    simp only
    rw [wordValue_inj hr, halves_inj]
  · obtain ⟨a', b', ha', hb', -, v₀, e, h⟩ := C54_multicarry rnd s vec hl
    refine ⟨v₀, e, fun n => ?_⟩
    obtain ⟨v, e2, -⟩ := h n
    refine ⟨v, ?_⟩
    rw [e2, ha', hb', ha, hb]

/-- **C103.** The first number is exempt: with the seed 3377955544 the numbers of multicarry, the first included, have no period at all. -/
theorem C103_multicarry_first (rnd : ℚ → ℚ) (hr : Rounding rnd) (vec : List UInt) (hl : vec.length = 625) (u : Nat → ℚ) (v₀ : List UInt)
    (hv : rRngSet .marsagliaMulticarry 3377955544 vec = .ok v₀)
    (hu : ∀ n, ∃ v, rUnifs rnd .marsagliaMulticarry n v₀ = .ok ((List.range n).map u, v)) (d : Nat) (hd : 0 < d) : ¬∀ n, u (n + d) = u n := by
  intro h
  obtain ⟨a, b, ha, hb, -, v₁, e, h'⟩ := C54_multicarry rnd 3377955544 vec hl
  rw [hv] at e
  injection e with e
  subst e
  have huk : ∀ k, u k = wordValue rnd (BitVec.ofNat 32 ((mwc 36969)^[k + 1] a % 65536 * 65536 + (mwc 18000)^[k + 1] b % 65536)) i2_32m1 := by
    intro k
    obtain ⟨v, e1⟩ := hu (k + 1)
    obtain ⟨v', e2, -⟩ := h' (k + 1)
    rw [e1] at e2
    injection e2 with e2
    injection e2 with e2 _
    have := List.map_inj_left.1 e2 k (List.mem_range.2 (Nat.lt_succ_self k))
    exact this
  have ha' : a = 4294967295 := by rw [ha]; decide +kernel
  have low : ∀ n, (mwc 36969)^[n + d + 1] a % 65536 = (mwc 36969)^[n + 1] a % 65536 := by
    intro n
    have := h n
    rw [huk, huk, wordValue_inj hr, halves_inj] at this
    exact this.1
  have l0 := low 0
  have l1 := low 1
  have hdd : ∃ e, d = e + 1 := ⟨d - 1, by omega⟩
  obtain ⟨e, rfl⟩ := hdd
  rw [show 1 + (e + 1) + 1 = (e + 2) + 1 by omega, Function.iterate_succ_apply'] at l1
  rw [show 0 + (e + 1) + 1 = e + 2 by omega] at l0
  have hb1 : (mwc 36969)^[e + 2] a / 65536 < 36969 := by
    have key : ∀ n, (mwc 36969)^[n + 2] a / 65536 < 36969 := by
      intro n
      induction n with
      | zero => rw [ha']; decide
      | succ n ih =>
        rw [show n + 1 + 2 = n + 2 + 1 by omega, Function.iterate_succ_apply']
        generalize (mwc 36969)^[n + 2] a = x at ih
        unfold mwc
        omega
    exact key e
  have r1 : (mwc 36969)^[0 + 1] a = 2422828950 := by rw [ha']; decide
  have r2 : (mwc 36969)^[1 + 1] a % 65536 = mwc 36969 2422828950 % 65536 := by rw [ha']; rfl
  rw [r1] at l0
  rw [r2] at l1
  generalize (mwc 36969)^[e + 2] a = x at l0 l1 hb1
  unfold mwc at l1
  omega

/-! ### Super-duper -/

set_option maxRecDepth 100000 in
theorem order_69069 : orderOf ((69069 : ℕ) : ZMod (2 ^ 32)) = 2 ^ 30 :=
  order_of_powMod _ 69069 31 _ [2] (by norm_num) (by norm_num) (by norm_num)
    (fun q hq h => by rw [(Nat.prime_dvd_prime_iff_eq hq Nat.prime_two).1 (hq.dvd_of_dvd_pow h)]; simp) (by decide +kernel) (by decide +kernel)

theorem sdStep_toNat (u : UInt) : (sdStep u).toNat = tausworthe u.toNat := by
  rw [← tausworthe_toNat]
  have : (u >>> 15) &&& 0x1ffff#32 = u >>> 15 := by
    apply BitVec.eq_of_getLsbD_eq
    intro i hi
    rw [BitVec.getLsbD_and]
    by_cases h : i < 17
    · have : (0x1ffff#32).getLsbD i = true := by
        have : ∀ i < 17, (0x1ffff#32).getLsbD i = true := by decide
        exact this i h
      rw [this, Bool.and_true]
    · rw [BitVec.getLsbD_ushiftRight, BitVec.getLsbD_of_ge u (15 + i) (by omega), Bool.false_and]
  rw [this]
  rfl

theorem sdStep_iter (u : UInt) (n : Nat) : (sdStep^[n] u).toNat = tausworthe^[n] u.toNat := by
  induction n with
  | zero => rfl
  | succ n ih => rw [Function.iterate_succ_apply', sdStep_toNat, ih, Function.iterate_succ_apply']

theorem ofNat_xor (x y : Nat) : BitVec.ofNat 32 (x ^^^ y) = BitVec.ofNat 32 x ^^^ BitVec.ofNat 32 y := by
  apply BitVec.eq_of_getLsbD_eq; intro i hi; simp [hi]

/-- **C103.** Super-duper, whatever the seed and the rounding: the numbers repeat exactly at the multiples of `2^30` times the period of
the Tausworthe component, which is 4292868097 except for the words that return after 2047 or after 2097151 steps. -/
theorem C103_super_duper (rnd : ℚ → ℚ) (hr : Rounding rnd) (s : BitVec 64) (a : Nat) (ha : a = residue (rSeed (s.toNat % 2 ^ 32) 51) (2 ^ 32)) :
    ∃ u : Nat → ℚ, LeastPeriod u
      ((if tausworthe^[2047] a = a then 2047 else if tausworthe^[2097151] a = a then 2097151 else 4292868097) * 2 ^ 30) ∧
    ∀ vec : List UInt, vec.length = 625 → ∃ v₀, rRngSet .superDuper s vec = .ok v₀ ∧
      ∀ n, ∃ v, rUnifs rnd .superDuper n v₀ = .ok ((List.range n).map u, v) := by
  refine ⟨fun k => wordValue rnd (BitVec.ofNat 32 (tausworthe^[k + 1] a ^^^ 69069 ^ (k + 1) * (rSeed (s.toNat % 2 ^ 32) 52 / 2 * 2 + 1) % 2 ^ 32)) i2_32m1,
    ?_, fun vec hl => ?_⟩
  · have pa := residue_pos (w := rSeed (s.toNat % 2 ^ 32) 51) (m := 2 ^ 32) (by norm_num)
    rw [← ha] at pa
    generalize hb : rSeed (s.toNat % 2 ^ 32) 52 / 2 * 2 + 1 = b
    have hw : (BitVec.ofNat 32 a).toNat = a := by rw [BitVec.toNat_ofNat, Nat.mod_eq_of_lt pa.2]
    have hw0 : BitVec.ofNat 32 a ≠ 0 := fun e => by
      have := congrArg BitVec.toNat e
      rw [hw] at this
      exact pa.1.ne' this
    have hfix : ∀ n, (sdStep^[n] (BitVec.ofNat 32 a) = BitVec.ofNat 32 a) ↔ tausworthe^[n] a = a := by
      intro n
      rw [← hw, ← sdStep_iter, hw]
      exact ⟨fun e => by rw [e, hw], fun e => BitVec.eq_of_toNat_eq (by rw [e, hw])⟩
    have hper := sd_period _ hw0
    have hf1 := hfix 2047
    have hf2 := hfix 2097151
    simp only [hf1, hf2] at hper
    have h1 := leastPeriod_shift (leastPeriod_iterate sdStep (BitVec.ofNat 32 a) _ (by split; norm_num; split <;> norm_num) hper) 1
    have hbo : b.Coprime (2 ^ 32) := by
      rw [← hb]
      exact Nat.Coprime.pow_right 32 (Nat.coprime_two_right.2 ⟨_, by rw [Nat.mul_comm]⟩)
    have h2 := leastPeriod_shift (mul_period (by norm_num) order_69069 hbo) 1
    have h3 : LeastPeriod (fun n => BitVec.ofNat 32 (69069 ^ (n + 1) * b % 2 ^ 32)) (2 ^ 30) :=
      leastPeriod_congr h2 fun m n => ofNat_inj (Nat.mod_lt _ (by norm_num)) (Nat.mod_lt _ (by norm_num))
    have h4 := leastPeriod_xor h1 h3 (by split; norm_num; split <;> norm_num)
    refine leastPeriod_congr h4 fun m n => ?_
    have hs : ∀ k, BitVec.ofNat 32 (tausworthe^[k + 1] a ^^^ 69069 ^ (k + 1) * b % 2 ^ 32) =
        sdStep^[k + 1] (BitVec.ofNat 32 a) ^^^ BitVec.ofNat 32 (69069 ^ (k + 1) * b % 2 ^ 32) := by
      intro k
      rw [ofNat_xor]
      congr 1
      apply BitVec.eq_of_toNat_eq
      rw [sdStep_iter, hw, BitVec.toNat_ofNat, Nat.mod_eq_of_lt (tausworthe_iter pa.2 pa.1 _).2]
    rw [wordValue_inj hr, hs, hs]
  · obtain ⟨a', b', ha', hb', -, v₀, e, h⟩ := C54_super_duper rnd s vec hl
    refine ⟨v₀, e, fun n => ?_⟩
    obtain ⟨v, e2, -⟩ := h n
    refine ⟨v, ?_⟩
    rw [e2, ha', hb', ha]

/-- Returns of the Tausworthe component, by squaring. -/
theorem tausworthe_returns (a m : Nat) (ha : a < 2 ^ 32) (hm : m < 2 ^ 33) : tausworthe^[m] a = a ↔ powCols 33 (wordCols sdStep) m a = a := by
  have hw : (BitVec.ofNat 32 a).toNat = a := by rw [BitVec.toNat_ofNat, Nat.mod_eq_of_lt ha]
  have := powCols_word sdStep sdStep_xor (BitVec.ofNat 32 a) 33 m hm
  rw [sdStep_iter, hw] at this
  rw [this]

set_option maxRecDepth 100000 in
/-- **C103.** Both exceptions are reached: with the seed 3082153317 the period of super-duper is only `2047·2^30`, with the seed 1094688534
`2097151·2^30`, while with the seed 1 it is `4292868097·2^30`. -/
theorem C103_super_duper_seeds (rnd : ℚ → ℚ) (hr : Rounding rnd) : ∀ x ∈ [(3082153317, 2047), (1094688534, 2097151), (1, 4292868097)],
    ∃ u : Nat → ℚ, LeastPeriod u (x.2 * 2 ^ 30) ∧
    ∀ vec : List UInt, vec.length = 625 → ∃ v₀, rRngSet .superDuper x.1 vec = .ok v₀ ∧
      ∀ n, ∃ v, rUnifs rnd .superDuper n v₀ = .ok ((List.range n).map u, v) := by
  intro x hx
  simp only [List.mem_cons, List.not_mem_nil, or_false] at hx
  rcases hx with rfl | rfl | rfl
  · have h := C103_super_duper rnd hr 3082153317 2816784 (by decide +kernel)
    rw [if_pos ((tausworthe_returns 2816784 2047 (by norm_num) (by norm_num)).2 (by decide +kernel))] at h
    exact h
  · have h := C103_super_duper rnd hr 1094688534 2581 (by decide +kernel)
    rw [if_neg (mt (tausworthe_returns 2581 2047 (by norm_num) (by norm_num)).1 (by decide +kernel)),
      if_pos ((tausworthe_returns 2581 2097151 (by norm_num) (by norm_num)).2 (by decide +kernel))] at h
    exact h
  · have h := C103_super_duper rnd hr 1 1280795612 (by decide +kernel)
    rw [if_neg (mt (tausworthe_returns 1280795612 2047 (by norm_num) (by norm_num)).1 (by decide +kernel)),
      if_neg (mt (tausworthe_returns 1280795612 2097151 (by norm_num) (by norm_num)).1 (by decide +kernel))] at h
    exact h

/-! ### Examples -/

-- The advertised lengths: 6.9536e12, about 2^60 and 4.6e18.
example : Nat.lcm (Nat.lcm (30269 - 1) (30307 - 1)) (30323 - 1) = 6953607871644 := by norm_num
example : 4 * 6953607871644 = 30268 * 30306 * 30322 := by norm_num
example : 2 ^ 59 < 1211400191 * 589823999 ∧ 1211400191 * 589823999 < 2 ^ 60 := by norm_num
example : 4609 * 10 ^ 15 < 4292868097 * 2 ^ 30 ∧ 4292868097 * 2 ^ 30 < 4610 * 10 ^ 15 := by norm_num

-- With the seed 1 neither component of multicarry is stuck.
example : ∃ u : Nat → ℚ, LeastPeriod (fun n => u (n + 1)) (1211400191 * 589823999) ∧
    ∀ vec : List UInt, vec.length = 625 → ∃ v₀, rRngSet .marsagliaMulticarry 1 vec = .ok v₀ ∧
      ∀ n, ∃ v, rUnifs id .marsagliaMulticarry n v₀ = .ok ((List.range n).map u, v) := by
  have h := C103_multicarry id ⟨fun _ _ h => h, fun _ _ _ _ => rfl⟩ 1 1280795612 _ (by decide +kernel) rfl
  rw [if_neg (by decide), if_neg (by decide +kernel)] at h
  exact h

-- With the seed 500990680 the first component is stuck.
example : ∃ u : Nat → ℚ, LeastPeriod (fun n => u (n + 1)) 589823999 ∧
    ∀ vec : List UInt, vec.length = 625 → ∃ v₀, rRngSet .marsagliaMulticarry 500990680 vec = .ok v₀ ∧
      ∀ n, ∃ v, rUnifs id .marsagliaMulticarry n v₀ = .ok ((List.range n).map u, v) := by
  have h := C103_multicarry id ⟨fun _ _ h => h, fun _ _ _ _ => rfl⟩ 500990680 2422800383 _ (by decide +kernel) rfl
  rw [if_pos (by decide), if_neg (by decide +kernel), Nat.one_mul] at h
  exact h

-- The rounding matters: one that is coarse sends all small numbers to the same value.
example : ¬Rounding (fun _ => 0) := fun h => by
  have := h.exact 1 (by norm_num) 0 (by norm_num)
  norm_num at this

end Dh
