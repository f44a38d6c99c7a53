import Verif.Basic
/-
The bit trick of sts_monobit counts ones.
-/
set_option linter.unusedSimpArgs false
namespace Dh

theorem and_split (k a q m r : Nat) (ha : a < 2 ^ k) (hm : m < 2 ^ k) :
    (a + 2 ^ k * q) &&& (m + 2 ^ k * r) = (a &&& m) + 2 ^ k * (q &&& r) := by
  have ham : (a &&& m) < 2 ^ k := Nat.and_lt_two_pow _ hm
  apply Nat.eq_of_testBit_eq
  intro i
  rw [Nat.testBit_and, Nat.add_comm a, Nat.add_comm m, Nat.add_comm (a &&& m),
    Nat.testBit_two_pow_mul_add _ ha, Nat.testBit_two_pow_mul_add _ hm, Nat.testBit_two_pow_mul_add _ ham]
  by_cases h : i < k
  · simp [h]
  · simp [h]

theorem and4 (a q m r : Nat) (ha : a < 4) (hm : m < 4) : (a + 4 * q) &&& (m + 4 * r) = (a &&& m) + 4 * (q &&& r) :=
  and_split 2 a q m r ha hm
theorem and16 (a q m r : Nat) (ha : a < 16) (hm : m < 16) : (a + 16 * q) &&& (m + 16 * r) = (a &&& m) + 16 * (q &&& r) :=
  and_split 4 a q m r ha hm
theorem and256 (a q m r : Nat) (ha : a < 256) (hm : m < 256) : (a + 256 * q) &&& (m + 256 * r) = (a &&& m) + 256 * (q &&& r) :=
  and_split 8 a q m r ha hm

/-- Step 1 on `k` pairs of bits. -/
def pc1 : Nat → Nat → Nat
  | 0, _ => 0
  | k + 1, x => (x % 2 + x / 2 % 2) + 4 * pc1 k (x / 4)

def m1 : Nat → Nat
  | 0 => 0
  | k + 1 => 1 + 4 * m1 k

theorem step1 : ∀ (k x : Nat), x < 4 ^ k → ((x / 2) &&& m1 k) + pc1 k x = x := by
  intro k
  induction k with
  | zero => intro x hx; simp [m1, pc1] at *; omega
  | succ k ih =>
    intro x hx
    have hq := ih (x / 4) (by rw [Nat.pow_succ] at hx; omega)
    have e : x / 2 = x % 4 / 2 + 2 * (x / 4 % 2) + 4 * (x / 4 / 2) := by omega
    rw [m1, pc1, e, and4 _ _ _ _ (by omega) (by omega)]
    have : (x % 4 / 2 + 2 * (x / 4 % 2)) &&& 1 = x / 2 % 2 := by
      rw [Nat.and_one_is_mod]; omega
    rw [this]
    omega

/-- Step 2 on `k` groups of four bits: the input holds two-bit fields. -/
def pc2 : Nat → Nat → Nat
  | 0, _ => 0
  | k + 1, y => (y % 4 + y / 4 % 4) + 16 * pc2 k (y / 16)

def m2 : Nat → Nat
  | 0 => 0
  | k + 1 => 3 + 16 * m2 k

theorem and_three (x : Nat) : x &&& 3 = x % 4 := Nat.and_two_pow_sub_one_eq_mod x 2
theorem and_fifteen (x : Nat) : x &&& 15 = x % 16 := Nat.and_two_pow_sub_one_eq_mod x 4

theorem step2 : ∀ (k y : Nat), (y &&& m2 k) + ((y / 4) &&& m2 k) = pc2 k y := by
  intro k
  induction k with
  | zero => intro y; simp [m2, pc2]
  | succ k ih =>
    intro y
    have hq := ih (y / 16)
    have e1 : y = y % 16 + 16 * (y / 16) := by omega
    have e2 : y / 4 = y / 4 % 16 + 16 * (y / 16 / 4) := by omega
    have a1 : y &&& (3 + 16 * m2 k) = y % 4 + 16 * (y / 16 &&& m2 k) := by
      conv => lhs; rw [e1]
      rw [and16 _ _ _ _ (by omega) (by omega), and_three]; omega
    have a2 : y / 4 &&& (3 + 16 * m2 k) = y / 4 % 4 + 16 * (y / 16 / 4 &&& m2 k) := by
      conv => lhs; rw [e2]
      rw [and16 _ _ _ _ (by omega) (by omega), and_three]; omega
    rw [m2, a1, a2, pc2]
    omega

/-- Step 3 on `k` bytes whose nibbles are small. -/
def pc3 : Nat → Nat → Nat
  | 0, _ => 0
  | k + 1, z => (z % 16 + z / 16 % 16) % 16 + 256 * pc3 k (z / 256)

def m3 : Nat → Nat
  | 0 => 0
  | k + 1 => 15 + 256 * m3 k

/-- Every nibble is at most 4. -/
def Nib : Nat → Nat → Prop
  | 0, z => z = 0
  | k + 1, z => z % 16 ≤ 4 ∧ Nib k (z / 16)

theorem step3 : ∀ (k z : Nat), Nib (2 * k) z → ((z + z / 16) &&& m3 k) = pc3 k z := by
  intro k
  induction k with
  | zero => intro z _; simp [m3, pc3]
  | succ k ih =>
    intro z hz
    rw [show 2 * (k + 1) = 2 * k + 1 + 1 by omega] at hz
    obtain ⟨h0, h1, h2⟩ := hz
    have hz2 : Nib (2 * k) (z / 256) := by rw [show z / 256 = z / 16 / 16 by omega]; exact h2
    have hq := ih _ hz2
    have h3 : z / 256 % 16 ≤ 4 := by
      cases k with
      | zero => have : z / 256 = 0 := hz2; omega
      | succ k => rw [show 2 * (k + 1) = 2 * k + 1 + 1 by omega] at hz2; exact hz2.1
    have e : z + z / 16 = (z % 16 + z / 16 % 16 + 16 * (z / 16 % 16 + z / 256 % 16)) + 256 * (z / 256 + z / 256 / 16) := by omega
    rw [m3, pc3, e, and256 _ _ _ _ (by omega) (by omega), and_fifteen, hq]
    omega

theorem pc1_fields : ∀ (k x : Nat), pc1 k x < 4 ^ k ∧ ∀ i, pc1 k x / 4 ^ i % 4 ≤ 2 := by
  intro k
  induction k with
  | zero => intro x; refine ⟨by simp [pc1], fun i => ?_⟩; simp [pc1]
  | succ k ih =>
    intro x
    obtain ⟨h1, h2⟩ := ih (x / 4)
    rw [pc1]
    generalize hy : pc1 k (x / 4) = y at *
    refine ⟨by rw [Nat.pow_succ]; omega, fun i => ?_⟩
    cases i with
    | zero => simp; omega
    | succ i =>
      rw [show 4 ^ (i + 1) = 4 * 4 ^ i by rw [Nat.pow_succ, Nat.mul_comm], ← Nat.div_div_eq_div_mul]
      have : (x % 2 + x / 2 % 2 + 4 * y) / 4 = y := by omega
      rw [this]; exact h2 i

theorem pc2_nib : ∀ (k y : Nat), (∀ i, y / 4 ^ i % 4 ≤ 2) → Nib k (pc2 k y) := by
  intro k
  induction k with
  | zero => intro y _; rfl
  | succ k ih =>
    intro y h
    have h0 := h 0
    have h1 := h 1
    simp only [Nat.pow_zero, Nat.div_one, Nat.pow_one] at h0 h1
    rw [pc2]
    have hr := ih (y / 16) (fun i => by
      have := h (i + 2)
      rw [Nat.pow_add, Nat.mul_comm, ← Nat.div_div_eq_div_mul] at this
      exact this)
    refine ⟨by omega, ?_⟩
    have : (y % 4 + y / 4 % 4 + 16 * pc2 k (y / 16)) / 16 = pc2 k (y / 16) := by omega
    rw [this]; exact hr

/-- The number of ones among bits `0..k-1` of `x`. -/
def ones : Nat → Nat → Nat
  | 0, _ => 0
  | k + 1, x => x % 2 + ones k (x / 2)

theorem nib_le : ∀ (n : Nat), n < 16 → ones 4 n ≤ 4 := by decide

theorem nib_sum (x : Nat) : x % 2 + x / 2 % 2 + (x / 4 % 2 + x / 8 % 2) = ones 4 x := by
  simp only [ones]; omega

/-- Steps 1 and 2 together on `k` nibbles. -/
def pcn : Nat → Nat → Nat
  | 0, _ => 0
  | k + 1, x => ones 4 x + 16 * pcn k (x / 16)

theorem pcn_eq : ∀ (k x : Nat), pc2 k (pc1 (2 * k) x) = pcn k x := by
  intro k
  induction k with
  | zero => intro x; rfl
  | succ k ih =>
    intro x
    rw [pcn, ← ih (x / 16), show 2 * (k + 1) = 2 * k + 1 + 1 by omega, pc1, pc1,
      show x / 4 / 4 = x / 16 by omega, pc2, ← nib_sum]
    generalize pc1 (2 * k) (x / 16) = y
    rw [show x / 4 / 2 = x / 8 by omega]
    have ha : x % 2 < 2 := by omega
    have hb : x / 2 % 2 < 2 := by omega
    have hc : x / 4 % 2 < 2 := by omega
    have hd : x / 8 % 2 < 2 := by omega
    generalize x % 2 = a at *
    generalize x / 2 % 2 = b at *
    generalize x / 4 % 2 = c at *
    generalize x / 8 % 2 = d at *
    have h1 : (a + b + 4 * (c + d + 4 * y)) / 16 = y := by omega
    rw [h1]
    have h2 : (a + b + 4 * (c + d + 4 * y)) % 4 = a + b := by omega
    have h3 : (a + b + 4 * (c + d + 4 * y)) / 4 % 4 = c + d := by omega
    rw [h2, h3]

theorem ones_le (k x : Nat) : ones k x ≤ k := by
  induction k generalizing x with
  | zero => simp [ones]
  | succ k ih => have := ih (x / 2); rw [ones]; omega

/-- Step 3 applied to the nibble counts: byte counts. -/
def pcb : Nat → Nat → Nat
  | 0, _ => 0
  | k + 1, x => ones 8 x + 256 * pcb k (x / 256)

theorem ones8 (x : Nat) : ones 8 x = ones 4 x + ones 4 (x / 16) := by
  simp only [ones]; omega

theorem pcb_eq : ∀ (k x : Nat), pc3 k (pcn (2 * k) x) = pcb k x := by
  intro k
  induction k with
  | zero => intro x; rfl
  | succ k ih =>
    intro x
    rw [pcb, ← ih (x / 256), show 2 * (k + 1) = 2 * k + 1 + 1 by omega, pcn, pcn,
      show x / 16 / 16 = x / 256 by omega, pc3, ones8]
    have h4 := ones_le 4 x
    have h5 := ones_le 4 (x / 16)
    generalize pcn (2 * k) (x / 256) = y
    have h1 : (ones 4 x + 16 * (ones 4 (x / 16) + 16 * y)) / 256 = y := by omega
    rw [h1]
    omega

/-- The bit trick as a function on numbers. -/
theorem swar (x : Nat) (hx : x < 2 ^ 32) :
    let n := x - ((x / 2) &&& 0x55555555)
    let n := (n &&& 0x33333333) + ((n / 4) &&& 0x33333333)
    let n := (n + n / 16) &&& 0x0f0f0f0f
    let n := n + n / 256
    (n + n / 65536) &&& 0x3f = ones 32 x := by
  intro n1 n2 n3 n4
  have h1 : n1 = pc1 16 x := by
    have := step1 16 x (by omega)
    rw [show m1 16 = 0x55555555 from rfl] at this
    show x - ((x / 2) &&& 0x55555555) = _
    omega
  have h2 : n2 = pcn 8 x := by
    show (n1 &&& 0x33333333) + ((n1 / 4) &&& 0x33333333) = _
    rw [← pcn_eq, ← h1]
    exact step2 8 n1
  have hn : Nib 8 n2 := by
    rw [h2, ← pcn_eq]
    exact pc2_nib 8 _ (pc1_fields 16 x).2
  have h3 : n3 = pcb 4 x := by
    show (n2 + n2 / 16) &&& 0x0f0f0f0f = _
    rw [← pcb_eq 4 x, ← h2]
    exact step3 4 n2 hn
  have b0 := ones_le 8 x
  have b1 := ones_le 8 (x / 256)
  have b2 := ones_le 8 (x / 65536)
  have b3 := ones_le 8 (x / 16777216)
  have e3 : n3 = ones 8 x + 256 * (ones 8 (x / 256) + 256 * (ones 8 (x / 65536) + 256 * ones 8 (x / 16777216))) := by
    rw [h3, pcb, pcb, pcb, pcb, pcb, show x / 256 / 256 = x / 65536 by omega, show x / 65536 / 256 = x / 16777216 by omega, Nat.mul_zero, Nat.add_zero]
  have e5 : ones 32 x = ones 8 x + ones 8 (x / 256) + ones 8 (x / 65536) + ones 8 (x / 16777216) := by
    have add : ∀ (k : Nat) (j y : Nat), ones (j + k) y = ones j y + ones k (y / 2 ^ j) := by
      intro k j
      induction j with
      | zero => intro y; simp [ones]
      | succ j ih =>
        intro y
        rw [show j + 1 + k = j + k + 1 by omega, ones, ones, ih, Nat.pow_succ, Nat.mul_comm, ← Nat.div_div_eq_div_mul]; omega
    have f1 := add 24 8 x
    have f2 := add 16 8 (x / 256)
    have f3 := add 8 8 (x / 65536)
    rw [show x / 256 / 2 ^ 8 = x / 65536 by omega] at f2
    rw [show x / 65536 / 2 ^ 8 = x / 16777216 by omega] at f3
    rw [show 8 + 24 = 32 from rfl, show x / 2 ^ 8 = x / 256 by omega] at f1
    rw [show 8 + 16 = 24 from rfl] at f2
    rw [show 8 + 8 = 16 from rfl] at f3
    omega
  have e6 : (n4 + n4 / 65536) &&& 0x3f = (n4 + n4 / 65536) % 64 := Nat.and_two_pow_sub_one_eq_mod _ 6
  rw [e6, e5]
  show (n3 + n3 / 256 + (n3 + n3 / 256) / 65536) % 64 = _
  rw [e3]
  generalize ones 8 x = a at *
  generalize ones 8 (x / 256) = b at *
  generalize ones 8 (x / 65536) = c at *
  generalize ones 8 (x / 16777216) = d at *
  have g1 : (a + 256 * (b + 256 * (c + 256 * d))) / 256 = b + 256 * (c + 256 * d) := by omega
  have g2 : (a + 256 * (b + 256 * (c + 256 * d)) + (b + 256 * (c + 256 * d))) / 65536 = c + d + 256 * d := by omega
  rw [g1, g2]
  omega

end Dh
