import Verif.Model.BitString
import Verif.Proof.Bits
/-
C57, C58, C59: bit string helpers.
-/
set_option linter.unusedSimpArgs false
namespace Dh.Spec

/-- The low `n` bits of a word as text, most significant first. -/
def bitText : (n : Nat) → (x : UInt) → List Char
  | 0, _ => []
  | n + 1, x => (if x.getLsbD n then '1' else '0') :: bitText n x

end Dh.Spec

namespace Dh
open Spec

theorem twoPow_and_ne (x : UInt) (j : Nat) (hj : j < 32) : (BitVec.ofNat 32 (2 ^ j) &&& x ≠ 0) ↔ x.getLsbD j = true := by
  have h2 : BitVec.ofNat 32 (2 ^ j) = BitVec.twoPow 32 j := by
    apply BitVec.eq_of_toNat_eq; rw [BitVec.toNat_ofNat, BitVec.toNat_twoPow]
  rw [h2]
  constructor
  · intro h
    cases hx : x.getLsbD j with
    | true => rfl
    | false =>
      exfalso; apply h
      apply BitVec.eq_of_getLsbD_eq
      intro i hi
      rw [BitVec.getLsbD_and, BitVec.getLsbD_twoPow]
      by_cases hij : j = i
      · subst hij; simp [hx]
      · simp [hij]
  · intro h hz
    have := congrArg (fun y => BitVec.getLsbD y j) hz
    simp only [BitVec.getLsbD_and, BitVec.getLsbD_twoPow, h] at this
    simp [hj] at this

theorem ofNat_pow_shr (n : Nat) (h : n + 1 < 32) : BitVec.ofNat 32 (2 ^ (n + 1)) >>> 1 = BitVec.ofNat 32 (2 ^ n) := by
  apply BitVec.eq_of_toNat_eq
  have h1 : 2 ^ (n + 1) < 2 ^ 32 := Nat.pow_lt_pow_right (by omega) h
  have h2 : 2 ^ n < 2 ^ 32 := Nat.pow_lt_pow_right (by omega) (by omega)
  rw [BitVec.toNat_ushiftRight, BitVec.toNat_ofNat, BitVec.toNat_ofNat, Nat.mod_eq_of_lt h1, Nat.mod_eq_of_lt h2,
    Nat.shiftRight_eq_div_pow, Nat.pow_succ]
  omega

theorem dumpLoop_eq (x : UInt) : ∀ n, n < 32 → dumpLoop x (n + 1) (BitVec.ofNat 32 (2 ^ n)) = bitText (n + 1) x := by
  intro n
  induction n with
  | zero =>
    intro _
    have := twoPow_and_ne x 0 (by omega)
    by_cases h : x.getLsbD 0 = true
    · rw [dumpLoop, if_pos (this.2 h), bitText, if_pos h]; rfl
    · rw [dumpLoop, if_neg (fun h' => h (this.1 h')), bitText, if_neg h]; rfl
  | succ n ih =>
    intro hn
    have := twoPow_and_ne x (n + 1) hn
    rw [dumpLoop, ofNat_pow_shr n hn, ih (by omega)]
    conv => rhs; rw [bitText]
    by_cases h : x.getLsbD (n + 1) = true
    · rw [if_pos (this.2 h), if_pos h]
    · rw [if_neg (fun h' => h (this.1 h')), if_neg h]

theorem bitText_length (n : Nat) (x : UInt) : (bitText n x).length = n := by
  induction n with
  | zero => rfl
  | succ n ih => rw [bitText, List.length_cons, ih]

theorem bitText_bits (n : Nat) (x : UInt) : ∀ c ∈ bitText n x, c = '0' ∨ c = '1' := by
  induction n with
  | zero => intro c hc; cases hc
  | succ n ih =>
    intro c hc
    rw [bitText] at hc
    rcases List.mem_cons.1 hc with h | h
    · by_cases hx : x.getLsbD n = true
      · rw [if_pos hx] at h; exact .inr h
      · rw [if_neg hx] at h; exact .inl h
    · exact ih c h

/-- Value of a text of binary digits. -/
def binVal (cs : List Char) (r : UInt) : UInt := cs.foldl (fun v c => (v <<< 1) + (if c = '1' then 1 else 0)) r

theorem bit2uintLoop_eq (rest : List Char) : ∀ (cs pre : List Char) (r : UInt), (∀ c ∈ cs, c = '0' ∨ c = '1') →
    bit2uintLoop (pre ++ cs ++ rest) cs.length pre.length r = .ok (binVal cs r) := by
  intro cs
  induction cs with
  | nil => intro pre r _; rfl
  | cons c cs ih =>
    intro pre r h
    have hr : rd (pre ++ (c :: cs) ++ rest) pre.length = .ok c := by
      unfold rd; simp
    rw [List.length_cons, bit2uintLoop, hr, Res.bind_ok]
    have hc : BitVec.ofInt 32 ((c.toNat : Int) - 48) = (if c = '1' then 1 else 0) := by
      rcases h c (by simp) with h | h <;> subst h <;> decide
    have := ih (pre ++ [c]) ((r <<< 1) + (if c = '1' then 1 else 0)) (fun d hd => h d (by simp [hd]))
    rw [List.length_append, List.length_singleton] at this
    rw [hc]
    have e : pre ++ [c] ++ cs ++ rest = pre ++ c :: cs ++ rest := by simp
    rw [e] at this
    rw [this]; rfl

theorem mod_two_pow_succ' (x n : Nat) : x % 2 ^ (n + 1) = x % 2 ^ n + 2 ^ n * (x.testBit n).toNat := by
  rw [Nat.toNat_testBit, Nat.pow_succ, Nat.mod_mul]

theorem binVal_toNat (x : UInt) : ∀ (n : Nat) (r : UInt),
    (binVal (bitText n x) r).toNat = (r.toNat * 2 ^ n + x.toNat % 2 ^ n) % 2 ^ 32 := by
  intro n
  induction n with
  | zero =>
    intro r
    have := r.isLt
    simp only [bitText, binVal, List.foldl_nil, Nat.pow_zero, Nat.mod_one, Nat.mul_one, Nat.add_zero]
    rw [Nat.mod_eq_of_lt this]
  | succ n ih =>
    intro r
    have hb : x.getLsbD n = x.toNat.testBit n := rfl
    have e : binVal (bitText (n + 1) x) r = binVal (bitText n x) ((r <<< 1) + (if x.getLsbD n then 1 else 0)) := by
      rw [bitText, binVal, List.foldl_cons]
      cases x.getLsbD n <;> rfl
    rw [e, ih, mod_two_pow_succ' x.toNat n, BitVec.toNat_add, BitVec.toNat_shiftLeft, ← hb]
    generalize x.toNat % 2 ^ n = y
    have e2 : (if x.getLsbD n = true then (1 : UInt) else 0).toNat = (x.getLsbD n).toNat := by
      cases x.getLsbD n <;> rfl
    rw [e2]
    generalize (x.getLsbD n).toNat = b
    rw [Nat.shiftLeft_eq]
    have hm : ∀ a c d : Nat, (a % 2 ^ 32 * c + d) % 2 ^ 32 = (a * c + d) % 2 ^ 32 := by
      intro a c d
      rw [Nat.add_mod, Nat.mul_mod, Nat.mod_mod, ← Nat.mul_mod, ← Nat.add_mod]
    rw [hm, Nat.add_mul, Nat.add_assoc, hm]
    congr 1
    rw [Nat.mul_assoc, ← Nat.pow_add, Nat.add_comm 1 n, Nat.mul_comm b, Nat.add_comm y]

/-- **C57.** `dumpbits` prints the low `n` bits, most significant first, for `1 ≤ n ≤ 32`; larger
widths print 32 bits; width 0 is undefined. -/
theorem C57_dumpbits (x : UInt) (n : Nat) :
    dumpbits x n = if n = 0 then .ub else .ok (bitText (min n 32) x) := by
  unfold dumpbits
  by_cases h0 : n = 0
  · subst h0; simp
  · rw [if_neg h0]
    by_cases h : n > 32
    · simp only [if_pos h]
      rw [if_neg (by omega), show min n 32 = 32 by omega]
      exact congrArg _ (dumpLoop_eq x 31 (by omega))
    · simp only [if_neg h]
      rw [if_neg h0, show min n 32 = n by omega]
      obtain ⟨m, rfl⟩ : ∃ m, n = m + 1 := ⟨n - 1, by omega⟩
      exact congrArg _ (dumpLoop_eq x m (by omega))

example : dumpbits 0xA5 6 = .ok ['1', '0', '0', '1', '0', '1'] := by decide

/-- **C57.** Reading back what `dumpbits` printed gives the low `n` bits of the word, whatever
follows in memory. -/
theorem C57_read_back (x : UInt) (n : Nat) (hn : 0 < n) (h32 : n ≤ 32) (rest : List Char) :
    ∃ t v, dumpbits x n = .ok t ∧ t.length = n ∧ bit2uint (t ++ rest) n = .ok v ∧ v.toNat = x.toNat % 2 ^ n := by
  refine ⟨bitText n x, binVal (bitText n x) 0, ?_, bitText_length n x, ?_, ?_⟩
  · rw [C57_dumpbits, if_neg (by omega), show min n 32 = n by omega]
  · have := bit2uintLoop_eq rest (bitText n x) [] 0 (bitText_bits n x)
    rw [bitText_length] at this
    exact this
  · rw [binVal_toNat]
    have h1 : x.toNat % 2 ^ n < 2 ^ n := Nat.mod_lt _ (Nat.two_pow_pos n)
    have h2 : 2 ^ n ≤ 2 ^ 32 := Nat.pow_le_pow_right (by omega) h32
    rw [show (0 : UInt).toNat = 0 from rfl, Nat.zero_mul, Nat.zero_add, Nat.mod_eq_of_lt (by omega)]

theorem bitText_surj : ∀ (s : List Char), (∀ c ∈ s, c = '0' ∨ c = '1') → s.length ≤ 32 →
    ∃ x : UInt, bitText s.length x = s ∧ x.toNat < 2 ^ s.length := by
  intro s
  induction s with
  | nil => intro _ _; exact ⟨0, rfl, by decide⟩
  | cons c s ih =>
    intro h hl
    rw [List.length_cons] at hl
    obtain ⟨x, hx, hlt⟩ := ih (fun d hd => h d (by simp [hd])) (by omega)
    have key : ∀ (y : UInt) (m : Nat), m ≤ s.length → (∀ i < s.length, y.getLsbD i = x.getLsbD i) → bitText m y = bitText m x := by
      intro y m
      induction m with
      | zero => intro _ _; rfl
      | succ m ihm => intro hm hy; rw [bitText, bitText, hy m (by omega), ihm (by omega) hy]
    refine ⟨x ||| (if c = '1' then BitVec.twoPow 32 s.length else 0), ?_, ?_⟩
    · rw [List.length_cons, bitText, key _ _ (Nat.le_refl _), hx]
      · congr 1
        rw [BitVec.getLsbD_or]
        have hx0 : x.getLsbD s.length = false := by
          rw [BitVec.getLsbD, Nat.testBit_lt_two_pow hlt]
        rcases h c (by simp) with h | h <;> subst h
        · simp [hx0]
        · simp [hx0, BitVec.getLsbD_twoPow, show s.length < 32 by omega]
      · intro i hi
        rw [BitVec.getLsbD_or]
        by_cases h1 : c = '1'
        · simp [h1, BitVec.getLsbD_twoPow, show ¬ s.length = i by omega]
        · simp [h1]
    · rw [BitVec.toNat_or, List.length_cons]
      apply Nat.or_lt_two_pow
      · have : 2 ^ s.length ≤ 2 ^ (s.length + 1) := Nat.pow_le_pow_right (by omega) (by omega)
        omega
      · by_cases h1 : c = '1'
        · rw [if_pos h1, BitVec.toNat_twoPow]
          have h2 : 2 ^ s.length < 2 ^ 32 := Nat.pow_lt_pow_right (by omega) (by omega)
          rw [Nat.mod_eq_of_lt h2]
          exact Nat.pow_lt_pow_right (by omega) (by omega)
        · rw [if_neg h1]; exact Nat.two_pow_pos _

/-- **C57.** Conversely every text of `n ≤ 32` binary digits is what `dumpbits` prints for the
number `bit2uint` makes of it. -/
theorem C57_print_back (s rest : List Char) (hs : ∀ c ∈ s, c = '0' ∨ c = '1') (h0 : s ≠ []) (h32 : s.length ≤ 32) :
    ∃ v, bit2uint (s ++ rest) s.length = .ok v ∧ v.toNat < 2 ^ s.length ∧ dumpbits v s.length = .ok s := by
  obtain ⟨x, hx, hlt⟩ := bitText_surj s hs h32
  have hpos : 0 < s.length := List.length_pos_iff.2 h0
  obtain ⟨t, v, h1, _, h3, h4⟩ := C57_read_back x s.length hpos h32 rest
  rw [C57_dumpbits, if_neg (by omega), show min s.length 32 = s.length by omega, hx] at h1
  injection h1 with h1
  subst h1
  rw [Nat.mod_eq_of_lt hlt] at h4
  have hv : v = x := BitVec.eq_of_toNat_eq h4
  subst hv
  refine ⟨v, h3, hlt, ?_⟩
  rw [C57_dumpbits, if_neg (by omega), show min s.length 32 = s.length by omega, hx]

example : bit2uint ("10110".toList ++ ['\x00']) 5 = .ok 22 := by decide

/-! C58 -/

/-- **C58.** `cycle` rotates the low `n` bits right by one and clears the others. -/
theorem C58_cycle (x : UInt) (n : Nat) (hn : 0 < n) (h32 : n ≤ 32) (i : Nat) :
    (cycle x n).getLsbD i = (decide (i < n) && x.getLsbD ((i + 1) % n)) := by
  unfold cycle
  simp only [if_neg (show ¬ n = 0 by omega), shlLoop_eq]
  have hm : ∀ j, (x &&& onesLoop (n - 1)).getLsbD j = (decide (j < n) && x.getLsbD j) := by
    intro j
    rw [BitVec.getLsbD_and, onesLoop_getLsbD]
    by_cases h : j < n
    · simp [h, show j ≤ n - 1 by omega, show j < 32 by omega]
    · simp [h, show ¬ j ≤ n - 1 by omega]
  generalize x &&& onesLoop (n - 1) = y at hm ⊢
  have hl : ∀ j, ((1 &&& y) * (1 : UInt) <<< (n - 1)).getLsbD j = (decide (j = n - 1) && y.getLsbD 0) := by
    intro j
    have e1 : (1 : UInt) &&& y = if y.getLsbD 0 then 1 else 0 := by
      apply BitVec.eq_of_getLsbD_eq
      intro i hi
      rw [BitVec.getLsbD_and]
      rcases i with _ | i
      · cases h0 : y.getLsbD 0 <;> rfl
      · have h1 : (1 : UInt).getLsbD (i + 1) = false := by simp [BitVec.getLsbD_one]
        rw [h1]
        cases h0 : y.getLsbD 0
        · simp
        · simp only [if_true, h1, Bool.false_and]
    rw [e1]
    have e2 : (1 : UInt) <<< (n - 1) = BitVec.twoPow 32 (n - 1) := rfl
    cases h0 : y.getLsbD 0
    · simp
    · rw [if_pos rfl, e2, show (1 : UInt) * BitVec.twoPow 32 (n - 1) = BitVec.twoPow 32 (n - 1) from BitVec.one_mul _, BitVec.getLsbD_twoPow]
      by_cases hj : n - 1 = j
      · subst hj; simp [show n - 1 < 32 by omega]
      · rw [decide_eq_false hj, decide_eq_false (show ¬ j = n - 1 by omega)]; simp
  rw [add_getLsbD_disjoint, hl, BitVec.getLsbD_ushiftRight, hm, hm]
  · by_cases h1 : i + 1 < n
    · rw [Nat.mod_eq_of_lt h1]
      rw [decide_eq_true (show i < n by omega), decide_eq_false (show ¬ i = n - 1 by omega),
        decide_eq_true (show 1 + i < n by omega), Nat.add_comm 1 i]
      simp
    · by_cases h2 : i = n - 1
      · subst h2
        rw [show n - 1 + 1 = n by omega, Nat.mod_self]
        rw [decide_eq_false (show ¬ 1 + (n - 1) < n by omega), decide_eq_true (show n - 1 < n by omega), decide_eq_true hn]
        simp
      · rw [decide_eq_false (show ¬ i < n by omega), decide_eq_false h2, decide_eq_false (show ¬ 1 + i < n by omega)]
        simp
  · intro j hj h
    rw [BitVec.getLsbD_ushiftRight, hm] at h
    rw [hl]
    have : 1 + j < n := by
      by_cases hh : 1 + j < n
      · exact hh
      · simp [hh] at h
    simp [show ¬ j = n - 1 by omega]

/-- `k` calls of `cycle`. -/
def cycleN (n : Nat) : Nat → UInt → UInt
  | 0, x => x
  | k + 1, x => cycleN n k (cycle x n)

theorem cycleN_bit (n : Nat) (hn : 0 < n) (h32 : n ≤ 32) : ∀ (k : Nat) (x : UInt), 0 < k → ∀ i,
    (cycleN n k x).getLsbD i = (decide (i < n) && x.getLsbD ((i + k) % n)) := by
  intro k
  induction k with
  | zero => intro _ h; omega
  | succ k ih =>
    intro x _ i
    rw [cycleN]
    by_cases hk : k = 0
    · subst hk; rw [cycleN, C58_cycle x n hn h32]
    · rw [ih _ (by omega), C58_cycle x n hn h32]
      have : (i + k) % n < n := Nat.mod_lt _ hn
      rw [Nat.mod_add_mod, ← Nat.add_assoc]
      simp [this]

/-- **C58.** `n` calls restore the low `n` bits, for every `n` from 1 to 32. -/
theorem C58_cycle_n (x : UInt) (n : Nat) (hn : 0 < n) (h32 : n ≤ 32) :
    (cycleN n n x).toNat = x.toNat % 2 ^ n := by
  have h : ∀ i, (cycleN n n x).getLsbD i = (decide (i < n) && x.getLsbD i) := by
    intro i
    rw [cycleN_bit n hn h32 n x hn]
    by_cases hi : i < n
    · rw [Nat.add_mod_right, Nat.mod_eq_of_lt hi]
    · simp [hi]
  apply Nat.eq_of_testBit_eq
  intro i
  rw [Nat.testBit_mod_two_pow]
  exact h i

example : cycle 0b10011 5 = 0b11001 := by decide
example : cycleN 5 5 0b1010011 = 0b10011 := by decide

theorem conv_shr (off : Nat) (h : off < 32) : (0x80000000 : UInt) >>> off = BitVec.ofNat 32 (2 ^ (31 - off)) := by
  apply BitVec.eq_of_toNat_eq
  have h2 : 2 ^ (31 - off) < 2 ^ 32 := Nat.pow_lt_pow_right (by omega) (by omega)
  rw [BitVec.toNat_ushiftRight, BitVec.toNat_ofNat, Nat.mod_eq_of_lt h2, Nat.shiftRight_eq_div_pow,
    show (0x80000000 : UInt).toNat = 2 ^ 31 from rfl, Nat.pow_div (by omega) (by omega)]

/-- **C58.** On a machine where `(int)pow(2,31)` is `0x80000000`, `get_bit(data, n)` is bit `n` of the
string of `r`-bit words, most significant first, for every index inside the string and no other. -/
theorem C58_get_bit (r : Nat) (hr : 0 < r) (hr32 : r ≤ 32) (data : List UInt) (n : Nat) :
    getBit 0x80000000 r data n =
      if n < data.length * r then .ok ((data.getD (n / r) 0).getLsbD (r - 1 - n % r)).toNat else .ub := by
  have hm : n % r < r := Nat.mod_lt _ hr
  unfold getBit
  simp only [if_neg (show ¬ r = 0 by omega), shr]
  rw [if_pos (show 32 - r + n % r < 32 by omega), Res.bind_ok]
  by_cases h : n < data.length * r
  · have hd : n / r < data.length := (Nat.div_lt_iff_lt_mul hr).2 h
    rw [if_pos h, rd_ok hd, Res.bind_ok, conv_shr _ (by omega), show 31 - (32 - r + n % r) = r - 1 - n % r by omega]
    have := twoPow_and_ne data[n / r] (r - 1 - n % r) (by omega)
    have hg : data.getD (n / r) 0 = data[n / r] := by simp [List.getD, hd]
    rw [hg]
    by_cases hb : data[n / r].getLsbD (r - 1 - n % r) = true
    · rw [if_pos (this.2 hb), hb]; rfl
    · rw [if_neg (fun h' => hb (this.1 h'))]
      rw [Bool.not_eq_true] at hb
      rw [hb]; rfl
  · have hd : data.length ≤ n / r := (Nat.le_div_iff_mul_le hr).2 (by omega)
    rw [if_neg h, rd_ub hd]; rfl

/-- **C58 is false** where the conversion saturates (as compilers do when they fold the constant):
bit 0 of the one-word string `0x80000000` is then reported as 0. -/
theorem C58_get_bit_saturating : getBit 0x7fffffff 32 [0x80000000] 0 = .ok 0 ∧ getBit 0x7fffffff 32 [1] 0 = .ok 1 := by
  decide

example : getBit 0x80000000 24 [0x800001, 0x000003] 46 = .ok 1 := by decide

/-- **C58.** `get_int_bit` is bit `n` for `n ≤ 31`, exits for `n > 32`, and is undefined for
`n = 32`. -/
theorem C58_get_int_bit (x : UInt) (n : Nat) :
    getIntBit x n = if n < 32 then .ok (x.getLsbD n).toNat else if n = 32 then .ub else .exit := by
  unfold getIntBit shl
  by_cases h : n < 32
  · rw [if_pos h, if_neg (by omega), if_pos h, Res.bind_ok]
    have e : (1 : UInt) <<< n = BitVec.ofNat 32 (2 ^ n) := by
      apply BitVec.eq_of_toNat_eq
      rw [BitVec.toNat_shiftLeft, BitVec.toNat_ofNat, Nat.shiftLeft_eq, show (1 : UInt).toNat = 1 from rfl, Nat.one_mul]
    rw [e]
    have := twoPow_and_ne x n h
    by_cases hb : x.getLsbD n = true
    · rw [if_pos (this.2 hb), hb]; rfl
    · rw [if_neg (fun h' => hb (this.1 h'))]
      rw [Bool.not_eq_true] at hb
      rw [hb]; rfl
  · by_cases h2 : n = 32
    · subst h2; rfl
    · rw [if_pos (show n > 32 by omega), if_neg h, if_neg h2]

example : getIntBit 0b1000 3 = .ok 1 := by decide

/-! C59 -/

theorem fillMask_bit (k i : Nat) : (fillMask k).getLsbD i = (decide (i < k) && decide (i < 32)) := by
  cases k with
  | zero => simp [fillMask]
  | succ k =>
    have : ∀ k, fillMask (k + 1) = onesLoop k := by
      intro k
      induction k with
      | zero => rfl
      | succ k ih => rw [fillMask, ih, onesLoop]
    rw [this, onesLoop_getLsbD]
    by_cases h : i ≤ k <;> simp [h] <;> omega

/-- What the words of the buffer really are: word `i` has the low `r` bits of draw `2i` on top and
below them the low `32-r` bits of draw `2i+1`. -/
theorem fillLoop_spec (r : Nat) (hr : 0 < r) (hr32 : r ≤ 32) (src : Src) : ∀ (todo pos : Nat),
    ∃ ws, fillLoop (32 - r) src todo pos = .ok ws ∧ ws.length = todo ∧ ∀ i < todo, ∀ p < 32,
      (ws.getD i 0).getLsbD p = if 32 - r ≤ p then (src (pos + 2 * i)).getLsbD (p - (32 - r))
        else (src (pos + 2 * i + 1)).getLsbD p := by
  intro todo
  induction todo with
  | zero => intro pos; exact ⟨[], rfl, rfl, fun i hi => by omega⟩
  | succ todo ih =>
    intro pos
    obtain ⟨ws, h1, h2, h3⟩ := ih (pos + 2)
    refine ⟨(src pos <<< (32 - r) + (src (pos + 1) &&& fillMask (32 - r))) :: ws, ?_, ?_, ?_⟩
    · rw [fillLoop, shl, if_pos (by omega), Res.bind_ok, h1]; rfl
    · rw [List.length_cons, h2]
    · intro i hi p hp
      rcases i with _ | i
      · rw [List.getD_cons_zero, add_getLsbD_disjoint, BitVec.getLsbD_shiftLeft, BitVec.getLsbD_and, fillMask_bit]
        · by_cases h : 32 - r ≤ p
          · simp [h, hp, show ¬ p < 32 - r by omega]
          · simp [h, hp, show p < 32 - r by omega]
        · intro j hj hb
          rw [BitVec.getLsbD_shiftLeft] at hb
          rw [BitVec.getLsbD_and, fillMask_bit]
          have : ¬ j < 32 - r := by
            intro h; simp [h] at hb
          simp [this]
      · rw [List.getD_cons_succ, h3 i (by omega) p hp]
        rw [show pos + 2 + 2 * i = pos + 2 * (i + 1) by omega]

/-- **C59**, what holds: the buffer never leaves its bounds, takes exactly two draws per word, and
each word consists of the low `r` bits of one draw followed by the low `32-r` bits of the next. -/
theorem C59_fill_contents (r : Nat) (hr : 0 < r) (hr32 : r ≤ 32) (src : Src) (len : Nat) :
    ∃ ws, fillUintBuffer r src len = .ok ws ∧ ws.length = len ∧ ∀ i < len, ∀ p < 32,
      (ws.getD i 0).getLsbD p = if 32 - r ≤ p then (src (2 * i)).getLsbD (p - (32 - r))
        else (src (2 * i + 1)).getLsbD p := by
  obtain ⟨ws, h1, h2, h3⟩ := fillLoop_spec r hr hr32 src len 0
  refine ⟨ws, h1, h2, fun i hi p hp => ?_⟩
  rw [h3 i hi p hp, Nat.zero_add]

example : fillUintBuffer 16 (fun n => if n = 0 then 0xABCD else 0x1234) 1 = .ok [0xABCD1234] := by decide

/-- **C59 for 16-bit generators**: every bit of the `2*len` draws appears exactly once, namely bit
`q` of draw `d` at position `16*(1 - d%2) + q` of word `d/2`. -/
theorem C59_fill_16 (src : Src) (len : Nat) :
    ∃ ws, fillUintBuffer 16 src len = .ok ws ∧ ws.length = len ∧ ∀ d < 2 * len, ∀ q < 16,
      (src d).getLsbD q = (ws.getD (d / 2) 0).getLsbD (16 * (1 - d % 2) + q) := by
  obtain ⟨ws, h1, h2, h3⟩ := C59_fill_contents 16 (by omega) (by omega) src len
  refine ⟨ws, h1, h2, fun d hd q hq => ?_⟩
  rw [h3 (d / 2) (by omega) _ (by omega)]
  by_cases h : d % 2 = 0
  · rw [if_pos (by omega), show 2 * (d / 2) = d by omega, show 16 * (1 - d % 2) + q - (32 - 16) = q by omega]
  · rw [if_neg (by omega), show 2 * (d / 2) + 1 = d by omega, show 16 * (1 - d % 2) + q = q by omega]

example : fillUintBuffer 16 (fun n => BitVec.ofNat 32 (n + 1)) 2 = .ok [0x00010002, 0x00030004] := by decide

/-- **C59 is false** for every width above 16: changing the top bit of the second draw does not change
the buffer, so that bits are lost. -/
theorem C59_fill_loses_bits (r : Nat) (hr : 16 < r) (hr32 : r ≤ 32) (len : Nat) :
    ∃ s1 s2 : Src, (∀ n, (s1 n).toNat < 2 ^ r ∧ (s2 n).toNat < 2 ^ r) ∧ s1 1 ≠ s2 1 ∧
      fillUintBuffer r s1 len = fillUintBuffer r s2 len := by
  refine ⟨fun _ => 0, fun n => if n = 1 then BitVec.twoPow 32 (r - 1) else 0, ?_, ?_, ?_⟩
  · intro n
    refine ⟨Nat.two_pow_pos r, ?_⟩
    have h1 : 2 ^ (r - 1) < 2 ^ r := Nat.pow_lt_pow_right (by omega) (by omega)
    have h2 : 2 ^ r ≤ 2 ^ 32 := Nat.pow_le_pow_right (by omega) hr32
    by_cases h : n = 1
    · simp only [if_pos h, BitVec.toNat_twoPow]
      rw [Nat.mod_eq_of_lt (by omega)]; exact h1
    · simp only [if_neg h]; exact Nat.two_pow_pos r
  · intro h
    have := congrArg (fun y => BitVec.getLsbD y (r - 1)) h
    simp [BitVec.getLsbD_twoPow, show r - 1 < 32 by omega] at this
  · obtain ⟨ws, h1, h2, h3⟩ := C59_fill_contents r (by omega) hr32 (fun _ => 0) len
    obtain ⟨ws', h1', h2', h3'⟩ := C59_fill_contents r (by omega) hr32
      (fun n => if n = 1 then BitVec.twoPow 32 (r - 1) else 0) len
    rw [h1, h1']
    congr 1
    apply List.ext_getElem (by omega)
    intro i hi hi'
    have e1 : ws[i] = ws.getD i 0 := by simp [List.getD, hi]
    have e2 : ws'[i] = ws'.getD i 0 := by simp [List.getD, hi']
    rw [e1, e2]
    apply BitVec.eq_of_getLsbD_eq
    intro p hp
    rw [h3 i (by omega) p hp, h3' i (by omega) p hp]
    by_cases hc : 32 - r ≤ p
    · rw [if_pos hc, if_pos hc, if_neg (by omega)]
    · rw [if_neg hc, if_neg hc]
      by_cases h0 : 2 * i + 1 = 1
      · rw [if_pos h0, BitVec.getLsbD_twoPow]
        simp [show ¬ r - 1 = p by omega]
      · rw [if_neg h0]

/-- **C59 is false** for every width below 16: bits `r..31-r` of every word are zero, whatever the
generator delivers. -/
theorem C59_fill_leaves_zeros (r : Nat) (hr : 0 < r) (hr16 : r < 16) (src : Src) (hs : ∀ n, (src n).toNat < 2 ^ r)
    (len : Nat) : ∃ ws, fillUintBuffer r src len = .ok ws ∧ ∀ i < len, ∀ p, r ≤ p → p < 32 - r →
      (ws.getD i 0).getLsbD p = false := by
  obtain ⟨ws, h1, h2, h3⟩ := C59_fill_contents r hr (by omega) src len
  refine ⟨ws, h1, fun i hi p hp hp2 => ?_⟩
  rw [h3 i hi p (by omega), if_neg (by omega)]
  have : (src (2 * i + 1)).toNat < 2 ^ p := Nat.lt_of_lt_of_le (hs _) (Nat.pow_le_pow_right (by omega) hp)
  exact Nat.testBit_lt_two_pow this

example : fillUintBuffer 31 (fun _ => 0x7FFFFFFF) 1 = .ok [0xFFFFFFFF] := by decide

end Dh
