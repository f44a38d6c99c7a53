import Verif.Proof.KnuthOrder
/-
Squaring modulo the characteristic polynomial of MT19937, on numbers whose bits are the coefficients.  With `E = t^623 + t^396` that
polynomial is `t G(E) + 1`, where the coefficients of `G` are the bits of the matrix row `0x9908b0df`.
-/
namespace Dh

/-- Multiplication by `E^s`, `s` a power of two, `E = t^623+t^396`. -/
def mtE (s x : Nat) : Nat := Nat.xor (Nat.shiftLeft x (396 * s)) (Nat.shiftLeft x (623 * s))

/-- `q G(E)`. -/
def mtG (q : Nat) : Nat :=
  let a := Nat.xor (mtE 1 q) q
  let a := Nat.xor (mtE 1 a) q
  let a := Nat.xor (mtE 1 a) q
  let a := Nat.xor (mtE 1 a) q
  let a := Nat.xor (mtE 1 a) q
  let a := Nat.xor (mtE 2 a) q
  let a := Nat.xor (mtE 1 a) q
  let a := Nat.xor (mtE 1 (mtE 4 a)) q
  let a := Nat.xor (mtE 1 a) q
  let a := Nat.xor (mtE 2 a) q
  let a := Nat.xor (mtE 4 a) q
  let a := Nat.xor (mtE 1 (mtE 4 a)) q
  let a := Nat.xor (mtE 1 (mtE 2 a)) q
  let a := Nat.xor (mtE 1 a) q
  mtE 1 (mtE 2 a)

/-- `q H(E)`, where `G(E) H(E) = E^64 + ...` up to degree 31: the quotient that is wanted. -/
def mtH (q : Nat) : Nat :=
  let a := Nat.xor (mtE 1 q) q
  let a := Nat.xor (mtE 1 (mtE 4 a)) q
  let a := Nat.xor (mtE 2 a) q
  let a := Nat.xor (mtE 1 a) q
  let a := Nat.xor (mtE 1 a) q
  let a := Nat.xor (mtE 2 a) q
  let a := Nat.xor (mtE 2 (mtE 4 a)) q
  let a := Nat.xor (mtE 1 a) q
  let a := Nat.xor (mtE 1 a) q
  let a := Nat.xor (mtE 1 a) q
  let a := Nat.xor (mtE 1 a) q
  let a := Nat.xor (mtE 1 a) q
  let a := Nat.xor (mtE 1 a) q
  let a := Nat.xor (mtE 1 a) q
  let a := Nat.xor (mtE 1 a) q
  let a := Nat.xor (mtE 1 a) q
  let a := Nat.xor (mtE 2 a) q
  let a := Nat.xor (mtE 2 a) q
  mtE 1 a

/-- The remainder modulo `t G(E) + 1`; whatever `q` is, the result is congruent to `f`. -/
def mtRed (f : Nat) : Nat :=
  let g := Nat.shiftRight (mtH (Nat.shiftRight f 19937)) 19936
  let q := Nat.xor g (Nat.shiftRight g 14528)
  Nat.xor f (Nat.xor q (Nat.shiftLeft (mtG q) 1))

/-- Ones at the positions below `2b·2^n` whose remainder modulo `2b` is below `b`. -/
def mtMask (b : Nat) : Nat → Nat
  | 0 => Nat.sub (Nat.pow 2 b) 1
  | n + 1 => Nat.lor (mtMask b n) (Nat.shiftLeft (mtMask b n) (Nat.mul (Nat.mul 2 b) (Nat.pow 2 n)))

/-- One of the steps that spread the bits: in each block of `2b` bits the upper half moves up by `b`. -/
def mtSp (b n x : Nat) : Nat := Nat.land (Nat.xor x (Nat.shiftLeft x b)) (mtMask b n)

/-- Bit `i` goes to the position `2i`. -/
def mtSpread (x : Nat) : Nat :=
  mtSp 1 15 <| mtSp 2 14 <| mtSp 4 13 <| mtSp 8 12 <| mtSp 16 11 <| mtSp 32 10 <| mtSp 64 9 <| mtSp 128 8 <| mtSp 256 7 <|
  mtSp 512 6 <| mtSp 1024 5 <| mtSp 2048 4 <| mtSp 4096 3 <| mtSp 8192 2 <| mtSp 16384 1 x

/-- The square. -/
def mtSq (x : Nat) : Nat := mtRed (mtSpread x)

/-- The square, `n` times over.  The test makes the kernel evaluate each square. -/
def mtSqs : Nat → Nat → Nat
  | 0, x => x
  | n + 1, x => match Nat.beq (Nat.shiftRight x 32768) 0 with
    | true => mtSqs n (mtSq x)
    | false => 0

/-! ### Spreading -/

theorem mtMask_testBit (b n i : Nat) (hb : 0 < b) : (mtMask b n).testBit i = (decide (i < 2 * b * 2 ^ n) && decide (i % (2 * b) < b)) := by
  induction n generalizing i with
  | zero =>
    rw [mtMask, show Nat.sub (Nat.pow 2 b) 1 = 2 ^ b - 1 from rfl, Nat.testBit_two_pow_sub_one, pow_zero, mul_one]
    by_cases h : i < b
    · rw [Nat.mod_eq_of_lt (by omega)]; simp [h]; omega
    · by_cases h2 : i < 2 * b
      · rw [Nat.mod_eq_of_lt h2]; simp [h]
      · simp [h, h2]
  | succ n ih =>
    rw [mtMask, show ∀ x y, Nat.lor x y = x ||| y from fun _ _ => rfl, show ∀ x y, Nat.shiftLeft x y = x <<< y from fun _ _ => rfl,
      show Nat.mul (Nat.mul 2 b) (Nat.pow 2 n) = 2 * b * 2 ^ n from rfl, Nat.testBit_lor, Nat.testBit_shiftLeft, ih]
    obtain ⟨N, hN⟩ : ∃ N, N = 2 * b * 2 ^ n := ⟨_, rfl⟩
    rw [pow_succ, ← mul_assoc, ← hN]
    by_cases h : i < N
    · simp only [h, decide_true, Bool.true_and, show ¬ i ≥ N by omega, decide_false, Bool.false_and, Bool.or_false, show i < N * 2 by omega]
    · have hi : i - N < N ↔ i < N * 2 := by omega
      have hm : (i - N) % (2 * b) = i % (2 * b) := by
        have : i = (i - N) + 2 * b * 2 ^ n := by omega
        conv_rhs => rw [this]
        rw [Nat.add_mul_mod_self_left]
      rw [ih, ← hN, hm]
      simp only [h, decide_false, Bool.false_and, Bool.false_or, show i ≥ N by omega, decide_true, Bool.true_and, hi]

/-- `y` has the bits of `x` in blocks of `b` at a distance of `2b`. -/
def MtBlocks (b x y : Nat) : Prop :=
  ∀ i, y.testBit i = (decide (i % (2 * b) < b) && x.testBit (b * (i / (2 * b)) + i % (2 * b)))

theorem mtSp_blocks (b n x y : Nat) (hb : 0 < b) (hn : 2 * b * 2 ^ n = 65536) (hx : x < 2 ^ 32768) (h : MtBlocks (2 * b) x y) :
    MtBlocks b x (mtSp b n y) := by
  intro i
  rw [mtSp, show ∀ x y, Nat.land x y = x &&& y from fun _ _ => rfl, show ∀ x y, Nat.xor x y = x ^^^ y from fun _ _ => rfl,
    show ∀ x y, Nat.shiftLeft x y = x <<< y from fun _ _ => rfl, Nat.testBit_land, Nat.testBit_xor, Nat.testBit_shiftLeft, mtMask_testBit b n i hb, hn]
  by_cases hr : i % (2 * b) < b
  swap
  · simp [hr]
  by_cases hi : i < 65536
  swap
  · have hx0 : x.testBit (b * (i / (2 * b)) + i % (2 * b)) = false := by
      apply Nat.testBit_lt_two_pow
      refine lt_of_lt_of_le hx (Nat.pow_le_pow_right (by norm_num) ?_)
      have h1 : 65536 / (2 * b) ≤ i / (2 * b) := Nat.div_le_div_right (by omega)
      have h2 : 2 * b * (65536 / (2 * b)) = 65536 := Nat.mul_div_cancel' ⟨2 ^ n, hn.symm⟩
      have h3 := Nat.mul_le_mul_left b h1
      have h4 : 2 * (b * (65536 / (2 * b))) = 65536 := by rw [← mul_assoc]; exact h2
      omega
    simp [hi, hx0]
  obtain ⟨r, hrr⟩ : ∃ r, r = i % (2 * b) := ⟨_, rfl⟩
  obtain ⟨J, c, hc, hJ⟩ : ∃ J c, c < 2 ∧ i / (2 * b) = 2 * J + c := ⟨i / (2 * b) / 2, i / (2 * b) % 2, Nat.mod_lt _ (by norm_num), by omega⟩
  have hid : i = 2 * b * (2 * J + c) + r := by rw [← hJ, hrr]; exact (Nat.div_add_mod _ _).symm
  rw [← hrr, hJ]
  rw [← hrr] at hr
  have hdm : ∀ s, s < 2 * (2 * b) → (2 * (2 * b) * J + s) % (2 * (2 * b)) = s ∧ (2 * (2 * b) * J + s) / (2 * (2 * b)) = J := fun s hs =>
    ⟨by rw [Nat.mul_add_mod, Nat.mod_eq_of_lt hs], by rw [Nat.mul_add_div (by omega), Nat.div_eq_of_lt hs, add_zero]⟩
  rcases (by omega : c = 0 ∨ c = 1) with rfl | rfl
  · have e1 : i = 2 * (2 * b) * J + r := by rw [hid]; ring
    have y1 : y.testBit i = x.testBit (b * (2 * J + 0) + r) := by
      rw [h i, e1, (hdm r (by omega)).1, (hdm r (by omega)).2, decide_eq_true (by omega), Bool.true_and]
      congr 1; ring
    have y2 : (decide (i ≥ b) && y.testBit (i - b)) = false := by
      by_cases hib : i ≥ b
      · have : 0 < J := by
          rcases Nat.eq_zero_or_pos J with rfl | h0
          · simp at e1; omega
          · exact h0
        obtain ⟨K, rfl⟩ : ∃ K, J = K + 1 := ⟨J - 1, by omega⟩
        have e2 : i - b = 2 * (2 * b) * K + (3 * b + r) := by
          have : 2 * (2 * b) * (K + 1) = 2 * (2 * b) * K + 4 * b := by ring
          omega
        rw [h (i - b), e2, Nat.mul_add_mod, Nat.mod_eq_of_lt (by omega), decide_eq_false (by omega : ¬ 3 * b + r < 2 * b)]
        simp
      · simp [hib]
    rw [y1, y2]
    simp [hi, hr]
  · have e1 : i = 2 * (2 * b) * J + (2 * b + r) := by rw [hid]; ring
    have y1 : y.testBit i = false := by
      rw [h i, e1, (hdm _ (by omega)).1, decide_eq_false (by omega : ¬ 2 * b + r < 2 * b), Bool.false_and]
    have e2 : i - b = 2 * (2 * b) * J + (b + r) := by omega
    have y2 : y.testBit (i - b) = x.testBit (b * (2 * J + 1) + r) := by
      rw [h (i - b), e2, (hdm _ (by omega)).1, (hdm _ (by omega)).2, decide_eq_true (by omega), Bool.true_and]
      congr 1; ring
    rw [y1, y2]
    simp [hi, hr, show b ≤ i by omega]

theorem mtSpread_testBit (x : Nat) (hx : x < 2 ^ 32768) : MtBlocks 1 x (mtSpread x) := by
  have h0 : MtBlocks 32768 x x := by
    intro i
    by_cases h : i < 32768
    · rw [Nat.mod_eq_of_lt (by omega), Nat.div_eq_of_lt (by omega)]; simp [h]
    · have h1 : ∀ j, 32768 ≤ j → x.testBit j = false := fun j hj =>
        Nat.testBit_lt_two_pow (lt_of_lt_of_le hx (Nat.pow_le_pow_right (by norm_num) hj))
      rw [h1 i (by omega)]
      by_cases h2 : i % (2 * 32768) < 32768
      · rw [h1 _ (by omega)]; simp
      · simp [h2]
  unfold mtSpread
  refine mtSp_blocks 1 15 _ _ (by norm_num) (by norm_num) hx ?_
  refine mtSp_blocks 2 14 _ _ (by norm_num) (by norm_num) hx ?_
  refine mtSp_blocks 4 13 _ _ (by norm_num) (by norm_num) hx ?_
  refine mtSp_blocks 8 12 _ _ (by norm_num) (by norm_num) hx ?_
  refine mtSp_blocks 16 11 _ _ (by norm_num) (by norm_num) hx ?_
  refine mtSp_blocks 32 10 _ _ (by norm_num) (by norm_num) hx ?_
  refine mtSp_blocks 64 9 _ _ (by norm_num) (by norm_num) hx ?_
  refine mtSp_blocks 128 8 _ _ (by norm_num) (by norm_num) hx ?_
  refine mtSp_blocks 256 7 _ _ (by norm_num) (by norm_num) hx ?_
  refine mtSp_blocks 512 6 _ _ (by norm_num) (by norm_num) hx ?_
  refine mtSp_blocks 1024 5 _ _ (by norm_num) (by norm_num) hx ?_
  refine mtSp_blocks 2048 4 _ _ (by norm_num) (by norm_num) hx ?_
  refine mtSp_blocks 4096 3 _ _ (by norm_num) (by norm_num) hx ?_
  refine mtSp_blocks 8192 2 _ _ (by norm_num) (by norm_num) hx ?_
  exact mtSp_blocks 16384 1 _ _ (by norm_num) (by norm_num) hx h0

/-! ### In a ring of characteristic two -/

section Ring

variable {Q : Type*} [CommRing Q] (e : Q)

theorem bitPoly_shiftLeft (x k : Nat) : bitPoly e (Nat.shiftLeft x k) = e ^ k * bitPoly e x := by
  induction k with
  | zero => rw [pow_zero, one_mul]; rfl
  | succ k ih =>
    rw [show Nat.shiftLeft x (k + 1) = 2 * Nat.shiftLeft x k from by
      show x <<< (k + 1) = 2 * x <<< k
      rw [Nat.shiftLeft_succ], bitPoly_double, ih, pow_succ']
    ring

theorem bitPoly_blocks (x : Nat) : ∀ y, MtBlocks 1 x y → bitPoly e y = bitPoly (e ^ 2) x := by
  induction x using Nat.strong_induction_on with
  | _ x ih =>
    intro y h
    have hb : ∀ i, y.testBit (2 * i) = x.testBit i := fun i => by
      rw [h (2 * i)]
      rw [show 2 * i % (2 * 1) = 0 by omega, show 2 * i / (2 * 1) = i by omega]; simp
    have ho : ∀ i, y.testBit (2 * i + 1) = false := fun i => by
      rw [h (2 * i + 1)]
      rw [show (2 * i + 1) % (2 * 1) = 1 by omega]; simp
    rcases Nat.eq_zero_or_pos x with rfl | hx
    · have : y = 0 := Nat.eq_of_testBit_eq fun i => by
        rcases Nat.even_or_odd' i with ⟨k, rfl | rfl⟩
        · rw [hb]; simp
        · rw [ho]; simp
      rw [this, bitPoly_zero, bitPoly_zero]
    · have i1 := ih (x / 2) (by omega) (y / 4) fun i => by
        have e4 : (y / 4).testBit i = y.testBit (i + 2) := by
          rw [show i + 2 = i + 1 + 1 by rfl, Nat.testBit_succ, Nat.testBit_succ, Nat.div_div_eq_div_mul]
        rw [e4, ← Nat.testBit_succ]
        rcases Nat.even_or_odd' i with ⟨k, rfl | rfl⟩
        · rw [show 2 * k + 2 = 2 * (k + 1) by ring, hb, show 2 * k % (2 * 1) = 0 by omega, show 2 * k / (2 * 1) = k by omega]; simp
        · rw [show 2 * k + 1 + 2 = 2 * (k + 1) + 1 by ring, ho, show (2 * k + 1) % (2 * 1) = 1 by omega]; simp
      have b0 := hb 0
      have b1 := ho 0
      rw [Nat.mul_zero, Nat.testBit_zero, Nat.testBit_zero] at b0
      rw [Nat.mul_zero, Nat.zero_add, show (1 : Nat) = 0 + 1 by rfl, Nat.testBit_succ, Nat.testBit_zero] at b1
      have b0' : y % 2 = 1 ↔ x % 2 = 1 := by simpa using b0
      have b1' : ¬ y / 2 % 2 = 1 := by simpa using b1
      rw [bitPoly_half e y, bitPoly_half e (y / 2), if_neg b1', Nat.div_div_eq_div_mul, i1, bitPoly_half (e ^ 2) x]
      simp only [b0']
      ring

variable (h2 : (2 : Q) = 0)
include h2

theorem bitPoly_sq (x : Nat) : bitPoly (e ^ 2) x = bitPoly e x ^ 2 := by
  induction x using Nat.strong_induction_on with
  | _ x ih =>
    rcases Nat.eq_zero_or_pos x with rfl | hx
    · rw [bitPoly_zero, bitPoly_zero]; ring
    · rw [bitPoly_half, ih (x / 2) (by omega), bitPoly_half e x]
      split
      · linear_combination (-e * bitPoly e (x / 2)) * h2
      · ring

theorem bitPoly_natXor (x y : Nat) : bitPoly e (Nat.xor x y) = bitPoly e x + bitPoly e y := bitPoly_xor e h2 x y

theorem bitPoly_mtE (s x : Nat) : bitPoly e (mtE s x) = (e ^ (396 * s) + e ^ (623 * s)) * bitPoly e x := by
  rw [mtE, bitPoly_natXor e h2, bitPoly_shiftLeft, bitPoly_shiftLeft]
  ring

/-- The characteristic polynomial of MT19937. -/
def MtRoot (e : Q) : Prop := ∃ E, E = e ^ 623 + e ^ 396 ∧
  e * (E ^ 32 + E ^ 31 + E ^ 30 + E ^ 29 + E ^ 28 + E ^ 27 + E ^ 25 + E ^ 24 + E ^ 19 + E ^ 18 + E ^ 16 + E ^ 12 + E ^ 7 + E ^ 4 + E ^ 3) + 1 = 0

variable (he : MtRoot e)
include he

theorem bitPoly_mtRed (f : Nat) : bitPoly e (mtRed f) = bitPoly e f := by
  obtain ⟨E, hE, hr⟩ := he
  have e1 : e ^ (396 * 1) + e ^ (623 * 1) = E := by rw [hE]; ring
  have e2 : e ^ (396 * 2) + e ^ (623 * 2) = E ^ 2 := by rw [hE]; linear_combination (-e ^ 623 * e ^ 396) * h2
  have e4 : e ^ (396 * 4) + e ^ (623 * 4) = E ^ 4 := by
    rw [show E ^ 4 = (E ^ 2) ^ 2 by ring, ← e2]
    linear_combination (-e ^ (396 * 2) * e ^ (623 * 2)) * h2
  unfold mtRed
  obtain ⟨q, hq⟩ : ∃ q, q = Nat.xor (Nat.shiftRight (mtH (Nat.shiftRight f 19937)) 19936)
    (Nat.shiftRight (Nat.shiftRight (mtH (Nat.shiftRight f 19937)) 19936) 14528) := ⟨_, rfl⟩
  show bitPoly e (Nat.xor f (Nat.xor (Nat.xor (Nat.shiftRight (mtH (Nat.shiftRight f 19937)) 19936)
    (Nat.shiftRight (Nat.shiftRight (mtH (Nat.shiftRight f 19937)) 19936) 14528)) (Nat.shiftLeft (mtG _) 1))) = _
  rw [← hq, bitPoly_natXor e h2, bitPoly_natXor e h2, bitPoly_shiftLeft, mtG]
  simp only [bitPoly_natXor e h2, bitPoly_mtE e h2, e1, e2, e4]
  linear_combination (bitPoly e q) * hr

theorem bitPoly_mtSq (x : Nat) (hx : x < 2 ^ 32768) : bitPoly e (mtSq x) = bitPoly e x ^ 2 := by
  rw [mtSq, bitPoly_mtRed e h2 he, bitPoly_blocks e x _ (mtSpread_testBit x hx), bitPoly_sq e h2]

theorem bitPoly_mtSqs (n : Nat) : ∀ x y, mtSqs n x = y → y ≠ 0 → bitPoly e y = (fun z => z ^ 2)^[n] (bitPoly e x) := by
  induction n with
  | zero => intro x y h _; rw [← h]; rfl
  | succ n ih =>
    intro x y h hy
    rw [mtSqs] at h
    split at h
    · rename_i hx
      have hx : x < 2 ^ 32768 := by
        have h0 : x >>> 32768 = 0 := Nat.eq_of_beq_eq_true hx
        rw [Nat.shiftRight_eq_div_pow] at h0
        exact (Nat.div_eq_zero_iff.1 h0).resolve_left (by positivity)
      rw [ih _ y h hy, bitPoly_mtSq e h2 he x hx]
      rfl
    · exact absurd h.symm hy

end Ring
end Dh
