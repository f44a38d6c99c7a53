import Verif.Proof.Periods
/-
Xorshift lines and multiply-with-carry generators.
-/
namespace Dh

/-! ### Xorshift -/

theorem shl_xor (u v : UInt) (k : Nat) : (u ^^^ v) <<< k = u <<< k ^^^ v <<< k := by
  apply BitVec.eq_of_getLsbD_eq
  intro i hi
  simp only [BitVec.getLsbD_shiftLeft, BitVec.getLsbD_xor]
  by_cases h : i < k <;> simp [h, hi]

theorem shr_xor (u v : UInt) (k : Nat) : (u ^^^ v) >>> k = u >>> k ^^^ v >>> k := by
  apply BitVec.eq_of_getLsbD_eq
  intro i hi
  simp

/-- The two kinds of lines of a xorshift generator. -/
def lshX (k : Nat) (u : UInt) : UInt := u ^^^ (u <<< k)
def rshX (k : Nat) (u : UInt) : UInt := u ^^^ (u >>> k)

theorem lshX_xor (k : Nat) (u v : UInt) : lshX k (u ^^^ v) = lshX k u ^^^ lshX k v := by
  rw [lshX, lshX, lshX, shl_xor]
  ac_rfl

theorem rshX_xor (k : Nat) (u v : UInt) : rshX k (u ^^^ v) = rshX k u ^^^ rshX k v := by
  rw [rshX, rshX, rshX, shr_xor]
  ac_rfl

/-- The prime divisors of `2^32-1`. -/
theorem primes_of_words (p : Nat) (hp : p.Prime) (h : p ∣ 2 ^ 32 - 1) : p ∈ [3, 5, 17, 257, 65537] := by
  rw [show 2 ^ 32 - 1 = 3 * 5 * 17 * 257 * 65537 from by norm_num] at h
  have e : ∀ q : ℕ, q.Prime → p ∣ q → p = q := fun q hq hd => (Nat.prime_dvd_prime_iff_eq hp hq).1 hd
  rcases (Nat.Prime.dvd_mul hp).1 h with h | h
  · rcases (Nat.Prime.dvd_mul hp).1 h with h | h
    · rcases (Nat.Prime.dvd_mul hp).1 h with h | h
      · rcases (Nat.Prime.dvd_mul hp).1 h with h | h
        · simp [e 3 (by norm_num) h]
        · simp [e 5 (by norm_num) h]
      · simp [e 17 (by norm_num) h]
    · simp [e 257 (by norm_num) h]
  · simp [e 65537 (by norm_num) h]

/-! ### Multiply-with-carry -/

/-- A multiply-with-carry step on pairs of numbers. -/
def mwcStep (a b : Nat) (s : Nat × Nat) : Nat × Nat := ((a * s.1 + s.2) % b, (a * s.1 + s.2) / b)

/-- The number a pair stands for. -/
def mwcVal (b : Nat) (s : Nat × Nat) : Nat := s.1 + b * s.2

theorem mwcVal_step (a b : Nat) (s : Nat × Nat) : mwcVal b (mwcStep a b s) = a * s.1 + s.2 := Nat.mod_add_div _ _

/-- The pairs below the multiplier, without the two fixed points. -/
def MwcGood (a b : Nat) (s : Nat × Nat) : Prop := s.1 < b ∧ s.2 < a ∧ ¬(s.1 = 0 ∧ s.2 = 0) ∧ ¬(s.1 = b - 1 ∧ s.2 = a - 1)

theorem mwcGood_step {a b : Nat} (ha : 1 < a) (hb : 1 < b) {s : Nat × Nat} (h : MwcGood a b s) : MwcGood a b (mwcStep a b s) := by
  obtain ⟨h1, h2, h3, h4⟩ := h
  have hle : a * s.1 ≤ a * (b - 1) := Nat.mul_le_mul_left a (by omega)
  have hab : a * (b - 1) + a = a * b := by
    have : b = (b - 1) + 1 := by omega
    conv_rhs => rw [this]
    rw [Nat.mul_add, Nat.mul_one]
  have hlt : a * s.1 + s.2 < a * b := by omega
  refine ⟨Nat.mod_lt _ (by omega), Nat.div_lt_of_lt_mul (by rw [Nat.mul_comm b]; exact hlt), ?_, ?_⟩
  · rintro ⟨e1, e2⟩
    have : a * s.1 + s.2 = 0 := by
      rw [← Nat.mod_add_div (a * s.1 + s.2) b]
      simp only [mwcStep] at e1 e2
      rw [e1, e2]; rfl
    have hs : a * s.1 = 0 := by omega
    rcases Nat.mul_eq_zero.1 hs with h | h
    · omega
    · exact h3 ⟨h, by omega⟩
  · rintro ⟨e1, e2⟩
    have e : a * s.1 + s.2 = (b - 1) + b * (a - 1) := by
      rw [← Nat.mod_add_div (a * s.1 + s.2) b]
      simp only [mwcStep] at e1 e2
      rw [e1, e2]
    have e' : b * (a - 1) + b = a * b := by
      have : a = (a - 1) + 1 := by omega
      conv_rhs => rw [this]
      rw [Nat.add_mul, Nat.one_mul, Nat.mul_comm]
    have hb1 : s.1 = b - 1 := by
      by_contra hne
      have : a * s.1 ≤ a * (b - 2) := Nat.mul_le_mul_left a (by omega)
      have e'' : a * (b - 2) + 2 * a = a * b := by
        have : b = (b - 2) + 2 := by omega
        conv_rhs => rw [this]
        ring
      omega
    refine h4 ⟨hb1, ?_⟩
    rw [hb1] at e
    omega

theorem mwcGood_iterate {a b : Nat} (ha : 1 < a) (hb : 1 < b) {s : Nat × Nat} (h : MwcGood a b s) (n : Nat) : MwcGood a b ((mwcStep a b)^[n] s) := by
  induction n with
  | zero => exact h
  | succ n ih => rw [Function.iterate_succ_apply']; exact mwcGood_step ha hb ih

/-- Multiply-with-carry is multiplication by the multiplier modulo `ab-1`. -/
theorem mwcVal_iterate {a b p : Nat} (hp : a * b = p + 1) (n : Nat) (s : Nat × Nat) :
    ((mwcVal b ((mwcStep a b)^[n] s) : ℕ) : ZMod p) = (a : ZMod p) ^ n * (mwcVal b s : ℕ) := by
  induction n with
  | zero => simp
  | succ n ih =>
    rw [Function.iterate_succ_apply', mwcVal_step, pow_succ', mul_assoc, ← ih]
    generalize (mwcStep a b)^[n] s = t
    have hab : (a : ZMod p) * b = 1 := by
      have : ((a * b : ℕ) : ZMod p) = ((p + 1 : ℕ) : ZMod p) := by rw [hp]
      push_cast at this
      rw [this, ZMod.natCast_self, zero_add]
    rw [mwcVal]
    push_cast
    rw [mul_add, ← mul_assoc, hab, one_mul]

/-- The period of multiply-with-carry, when the modulus is a safe prime and the base a square. -/
theorem mwc_period {a b p q e : Nat} (ha : 1 < a) (hb : 1 < b) (hp : a * b = p + 1) (hpp : p.Prime) (hqp : q.Prime) (hpq : p = 2 * q + 1) (he : b = e ^ 2)
    (hbp : b < p) {s : Nat × Nat} (h : MwcGood a b s) : Function.minimalPeriod (mwcStep a b) s = q := by
  have hfp : Fact p.Prime := ⟨hpp⟩
  have hfq : Fact q.Prime := ⟨hqp⟩
  have hab : (a : ZMod p) * b = 1 := by
    have : ((a * b : ℕ) : ZMod p) = ((p + 1 : ℕ) : ZMod p) := by rw [hp]
    push_cast at this
    rw [this, ZMod.natCast_self, zero_add]
  have hb0 : (b : ZMod p) ≠ 0 := by
    intro h0
    rw [h0, mul_zero] at hab
    exact zero_ne_one hab
  have he0 : (e : ZMod p) ≠ 0 := by
    intro h0
    apply hb0
    rw [he]; push_cast; rw [h0]; ring
  have hbq : (b : ZMod p) ^ q = 1 := by
    rw [he]; push_cast
    rw [← pow_mul, show 2 * q = p - 1 from by omega]
    exact ZMod.pow_card_sub_one_eq_one he0
  have haq : (a : ZMod p) ^ q = 1 := by
    have : (a : ZMod p) ^ q * (b : ZMod p) ^ q = 1 := by rw [← mul_pow, hab, one_pow]
    rwa [hbq, mul_one] at this
  -- the number of the pair determines the pair
  have hinj : ∀ t, MwcGood a b t → ((mwcVal b t : ℕ) : ZMod p) = (mwcVal b s : ℕ) → t = s := by
    have hpos : ∀ t, MwcGood a b t → 0 < mwcVal b t ∧ mwcVal b t < p := by
      intro t ht
      obtain ⟨h1, h2, h3, h4⟩ := ht
      have hle : b * t.2 ≤ b * (a - 1) := Nat.mul_le_mul_left b (by omega)
      have e' : b * (a - 1) + b = a * b := by
        have : a = (a - 1) + 1 := by omega
        conv_rhs => rw [this]
        rw [Nat.add_mul, Nat.one_mul, Nat.mul_comm]
      rw [mwcVal]
      constructor
      · by_contra h0
        have h5 : b * t.2 = 0 := by omega
        rcases Nat.mul_eq_zero.1 h5 with h6 | h6
        · omega
        · exact h3 ⟨by omega, h6⟩
      · by_contra h0
        have h5 : t.1 = b - 1 := by omega
        refine h4 ⟨h5, ?_⟩
        by_contra h6
        have : b * t.2 ≤ b * (a - 2) := Nat.mul_le_mul_left b (by omega)
        have e'' : b * (a - 2) + 2 * b = a * b := by
          have : a = (a - 2) + 2 := by omega
          conv_rhs => rw [this]
          ring
        omega
    intro t ht e
    rw [ZMod.natCast_eq_natCast_iff', Nat.mod_eq_of_lt (hpos t ht).2, Nat.mod_eq_of_lt (hpos s h).2, mwcVal, mwcVal] at e
    have e1 : t.1 = s.1 := by
      have := congrArg (· % b) e
      simpa [Nat.add_mul_mod_self_left, Nat.mod_eq_of_lt ht.1, Nat.mod_eq_of_lt h.1] using this
    refine Prod.ext e1 ?_
    rw [e1] at e
    exact Nat.eq_of_mul_eq_mul_left (by omega) (Nat.add_left_cancel e)
  refine Function.minimalPeriod_eq_prime ?_ ?_
  · refine hinj _ (mwcGood_iterate ha hb h q) ?_
    rw [mwcVal_iterate hp, haq, one_mul]
  · intro hfix
    have hv : ((mwcVal b s : ℕ) : ZMod p) ≠ 0 := by
      intro h0
      have h1 : ((mwcVal b (0, 0) : ℕ) : ZMod p) = 0 := by simp [mwcVal]
      rw [ZMod.natCast_eq_zero_iff] at h0
      obtain ⟨h2, h3, h4, h5⟩ := h
      have hle : b * s.2 ≤ b * (a - 1) := Nat.mul_le_mul_left b (by omega)
      have e' : b * (a - 1) + b = a * b := by
        have : a = (a - 1) + 1 := by omega
        conv_rhs => rw [this]
        rw [Nat.add_mul, Nat.one_mul, Nat.mul_comm]
      have hlt : mwcVal b s < p := by
        rw [mwcVal]
        by_contra h0
        have h6 : s.1 = b - 1 := by omega
        refine h5 ⟨h6, ?_⟩
        by_contra h7
        have : b * s.2 ≤ b * (a - 2) := Nat.mul_le_mul_left b (by omega)
        have e'' : b * (a - 2) + 2 * b = a * b := by
          have : a = (a - 2) + 2 := by omega
          conv_rhs => rw [this]
          ring
        omega
      have h8 := Nat.eq_zero_of_dvd_of_lt h0 hlt
      rw [mwcVal] at h8
      have h9 : b * s.2 = 0 := by omega
      rcases Nat.mul_eq_zero.1 h9 with h6 | h6
      · omega
      · exact h4 ⟨by omega, h6⟩
    have h1 := mwcVal_iterate hp 1 s
    rw [Function.iterate_one, hfix.eq, pow_one] at h1
    have ha1 : (a : ZMod p) = 1 := by
      have h2 : (1 - (a : ZMod p)) * (mwcVal b s : ℕ) = 0 := by rw [sub_mul, one_mul, ← h1, sub_self]
      rcases mul_eq_zero.1 h2 with h3 | h3
      · exact (sub_eq_zero.1 h3).symm
      · exact absurd h3 hv
    rw [ha1, one_mul] at hab
    have h2 : ((b : ℕ) : ZMod p) = ((1 : ℕ) : ZMod p) := by rw [hab, Nat.cast_one]
    rw [ZMod.natCast_eq_natCast_iff', Nat.mod_eq_of_lt hbp, Nat.mod_eq_of_lt hpp.one_lt] at h2
    omega

end Dh
